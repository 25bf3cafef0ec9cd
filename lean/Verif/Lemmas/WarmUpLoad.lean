import Verif.Lemmas.WarmUp
import Verif.Lemmas.WarmUpExact
import Verif.Lemmas.SetupSwitch

/-!
# Helper lemmas for C77: the warm-up programs in exact arithmetic up to the run
-/

namespace LCQ.WarmUp
open Scalar Ext
open scoped Matrix

variable {K : Type} [Field K] [LinearOrder K] [IsStrictOrderedRing K] {e : Env (Ext K)} {c R : K}

omit [IsStrictOrderedRing K] in
theorem Setup.withOptions {n : Dims} {P : Prob K n} {o : Obj (Ext K)} {x0 : Fin n.nV → K} {r0 f : K} (h : Setup e o n P x0 r0 f) {op : Options (Ext K)}
    (hr : Ready (setOptions o op) n) (h1 : op.rho0 = fin r0) (h2 : op.factor = fin f) : Setup e (setOptions o op) n P x0 r0 f :=
  ⟨hr, ⟨h.holds.dims, ⟨h.holds.mats.Q, h.holds.mats.A, h.holds.mats.L, h.holds.mats.R⟩, h.holds.C, h.holds.g, h.holds.low⟩, h.x0, h1, h2, h.f0, h.ans⟩

/-- the object with which the solver is run -/
theorem prepare_setup {t : Task (Ext K)} {P : Prob K t.dims} {x0 : Fin t.dims.nV → K} {r0 f : K} (hl : t.Loads) (ha : t.args.Are t.dims P x0)
    {qd sd : Nat} (hr : t.opts.rho0 = fin r0) (hf : t.opts.factor = fin f)
    (hr' : (Options.default qd sd : Options (Ext K)).rho0 = fin r0) (hf' : (Options.default qd sd : Options (Ext K)).factor = fin f)
    (f0 : f ≠ 0) (he : FinAns e) {o : Obj (Ext K)} (h : prepare e qd sd t = .ok (some o)) :
    Setup e o t.dims P x0 r0 f ∧ Stored o t.dims t.args.bnds ∧ o.d.opts = t.opts ∧ Prepared e t.dims true o := by
  obtain ⟨r, o1, h1, hno, hyes⟩ := prepare_ok e qd sd hl
  by_cases hrs : r = .successfulReturn
  · obtain ⟨o', ho', hp1, hp2, hopt, hopt1, hsw⟩ := hyes hrs
    rw [h] at ho'
    injection ho' with ho'
    injection ho' with ho'
    subst ho' hrs
    have hb := (start_prepared e qd sd hl.comp).untouched.1.toBuilt
    have hd0 := start_data qd sd hl.comp
    obtain ⟨hS, hd⟩ := Setup.dense (r0 := r0) (f := f) hb
      ⟨by rw [hd0]; rfl, by rw [hd0]; rfl, by rw [hd0]; rfl, by rw [hd0]; exact zero_fin⟩ ha h1
      (by rw [hd0]; dsimp only [Obj.blank]; split <;> assumption)
      (by rw [hd0]; dsimp only [Obj.blank]; split <;> assumption) f0 he
    have hSt := Stored.dense hb (by rw [hd0]; rfl) (by rw [hd0]; rfl) hl.fits h1
    have hpl : Prepared e t.dims true (loaded t o1) := by
      unfold loaded
      split
      · exact .options _ hp1
      · exact hp1
    obtain ⟨hul, hrl⟩ := hpl.untouched
    have hSl : Setup e (loaded t o1) t.dims P x0 r0 f ∧ Stored (loaded t o1) t.dims t.args.bnds ∧ (loaded t o1).d.sparse = false := by
      have := hrl rfl
      unfold loaded at this ⊢
      split at this
      · rename_i hlate
        rw [if_pos hlate]
        exact ⟨Setup.withOptions hS this hr hf, ⟨hSt.lens, hSt.lbA, hSt.ubA, hSt.lb, hSt.ub⟩, hd⟩
      · rename_i hlate
        rw [if_neg hlate]
        exact ⟨hS, hSt, hd⟩
    split at hsw
    · obtain ⟨o3, h3, _, _, _, hS3, hSt3⟩ := hSl.1.toSparse hul hSl.2.2
      rw [hsw.1] at h3
      injection h3 with h3
      injection h3 with _ h3
      subst h3
      exact ⟨hS3, hSt3 _ hSl.2.1, hopt, hp2⟩
    · subst hsw
      exact ⟨hSl.1, hSl.2.1, hopt, hp2⟩
  · rw [hno hrs] at h
    injection h with h
    cases h

/-- the programs that solve the plain warm-up problem; `c` is the shift -/
inductive Plain (qd sd : Nat) : K → Task (Ext K) → Prop
  | warmUp : Plain qd sd 0 (warmUp qd sd)
  | warmUpTest : Plain qd sd 0 (warmUpTest qd sd)
  | shifted : Plain qd sd 1 (shifted qd sd)
  | sparse : Plain qd sd 0 (sparse qd sd)
  | storeSteps : Plain qd sd 0 (storeSteps qd sd)
  | osqpOptions (sp : Nat) : Plain qd sd 0 (osqpOptions qd sd sp)
  | qpoasesOptions (qp : Nat) : Plain qd sd 0 (qpoasesOptions qd sd qp)

omit [IsStrictOrderedRing K] in
theorem Plain.program {qd sd : Nat} {c : K} {t : Task (Ext K)} (h : Plain qd sd c t) : Program qd sd t := by
  cases h
  · exact .warmUp
  · exact .warmUpTest
  · exact .shifted
  · exact .sparse
  · exact .storeSteps
  · exact .osqpOptions _
  · exact .qpoasesOptions _

/-- the data common to all these programs -/
structure Data2 (t : Task (Ext K)) (c : K) : Prop where
  nC : t.nC = 0
  nComp : t.nComp = 1
  Q : t.args.Q = some (emb [2, 0, 0, 2])
  g : t.args.g = some (emb [-2 * (1 + c), -2 * (1 + c)])
  A : t.args.A = none
  L : t.args.L = some (emb [1, 0])
  R : t.args.R = some (emb [0, 1])
  low : (t.args.lbL = none ∧ t.args.lbR = none ∧ c = 0) ∨ (t.args.lbL = some (emb [c]) ∧ t.args.lbR = some (emb [c]))
  ubL : t.args.ubL = none
  ubR : t.args.ubR = none
  lb : t.args.lb = none
  ub : t.args.ub = none
  x0 : t.args.x0 = none ∨ t.args.x0 = some (emb [1, 1])
  rho0 : t.opts.rho0 = lit 1 2
  factor : t.opts.factor = two
  statTol : t.opts.statTol = lit 1000000 0 *. eps
  complTol : t.opts.complTol = lit 1000 0 *. eps
  zeroFirst : t.opts.zeroFirst = true
  maxRho : t.opts.maxRho = fin (10 ^ 8) ∨ t.opts.maxRho = fin 1

omit [IsStrictOrderedRing K] in
theorem lit_fin (m : Int) (e : Nat) : (lit m e : Ext K) = fin ((m : K) / 10 ^ e) := rfl

theorem Plain.data {qd sd : Nat} {c : K} {t : Task (Ext K)} (h : Plain qd sd c t) : Data2 t c ∧ t.opts.maxRho = fin (10 ^ 8) := by
  have i : ∀ m : Int, (ofInt m : Ext K) = fin (m : K) := fun m => by simp [ofInt, lit_fin]
  have hm : (Options.default qd sd : Options (Ext K)).maxRho = fin (10 ^ 8) := by
    simp [Options.default, lit_fin]
    try norm_num
  have z : (lit 0 0 : Ext K) = fin 0 := by simp [lit_fin]
  have hQ : (base : DenseArgs (Ext K)).Q = some (emb [2, 0, 0, 2]) := by simp [base, i, emb]
  have hL : (base : DenseArgs (Ext K)).L = some (emb [1, 0]) := by simp [base, i, emb]
  have hR : (base : DenseArgs (Ext K)).R = some (emb [0, 1]) := by simp [base, i, emb]
  have hg : (base : DenseArgs (Ext K)).g = some (emb [-2 * (1 + 0), -2 * (1 + 0)]) := by simp [base, i, emb]
  have hx : (guessed : DenseArgs (Ext K)).x0 = some (emb [1, 1]) := by simp [guessed, i, emb]
  cases h
  · exact ⟨⟨rfl, rfl, hQ, hg, rfl, hL, hR, Or.inl ⟨rfl, rfl, rfl⟩, rfl, rfl, rfl, rfl, Or.inr hx, rfl, rfl, rfl, rfl, rfl, Or.inl hm⟩, hm⟩
  · exact ⟨⟨rfl, rfl, hQ, hg, rfl, hL, hR, Or.inl ⟨rfl, rfl, rfl⟩, rfl, rfl, rfl, rfl, Or.inr hx, rfl, rfl, rfl, rfl, rfl, Or.inl hm⟩, hm⟩
  · exact ⟨⟨rfl, rfl, hQ, by simp [WarmUp.shifted, i, emb]; norm_num, rfl, hL, hR, Or.inr ⟨by simp [WarmUp.shifted, i, emb], by simp [WarmUp.shifted, i, emb]⟩, rfl, rfl, rfl, rfl,
      Or.inr hx, rfl, rfl, rfl, rfl, rfl, Or.inl hm⟩, hm⟩
  · exact ⟨⟨rfl, rfl, hQ, hg, rfl, hL, hR, Or.inl ⟨rfl, rfl, rfl⟩, rfl, rfl, rfl, rfl, Or.inl rfl, rfl, rfl, rfl, rfl, rfl, Or.inl hm⟩, hm⟩
  · exact ⟨⟨rfl, rfl, hQ, hg, rfl, hL, hR, Or.inl ⟨rfl, rfl, rfl⟩, rfl, rfl, rfl, rfl, Or.inr hx, rfl, rfl, rfl, rfl, rfl, Or.inl hm⟩, hm⟩
  · exact ⟨⟨rfl, rfl, hQ, hg, rfl, hL, hR, Or.inl ⟨rfl, rfl, rfl⟩, rfl, rfl, rfl, rfl, Or.inr hx, rfl, rfl, rfl, rfl, rfl, Or.inl hm⟩, hm⟩
  · exact ⟨⟨rfl, rfl, hQ, hg, rfl, hL, hR, Or.inl ⟨rfl, rfl, rfl⟩, rfl, rfl, rfl, rfl, Or.inr hx, rfl, rfl, rfl, rfl, rfl, Or.inl hm⟩, hm⟩

theorem maxPenalty_data (qd sd : Nat) : Data2 (maxPenalty qd sd : Task (Ext K)) 0 ∧ (maxPenalty qd sd : Task (Ext K)).opts.maxRho = fin 1 := by
  have i : ∀ m : Int, (ofInt m : Ext K) = fin (m : K) := fun m => by simp [ofInt, lit_fin]
  have hQ : (base : DenseArgs (Ext K)).Q = some (emb [2, 0, 0, 2]) := by simp [base, i, emb]
  have hL : (base : DenseArgs (Ext K)).L = some (emb [1, 0]) := by simp [base, i, emb]
  have hR : (base : DenseArgs (Ext K)).R = some (emb [0, 1]) := by simp [base, i, emb]
  have hg : (base : DenseArgs (Ext K)).g = some (emb [-2 * (1 + 0), -2 * (1 + 0)]) := by simp [base, i, emb]
  have hx : (guessed : DenseArgs (Ext K)).x0 = some (emb [1, 1]) := by simp [guessed, i, emb]
  have ho : (maxPenalty qd sd : Task (Ext K)).opts = { (opts qd sd 0 : Options (Ext K)) with maxRho := fin 1 } := by
    have h1 : (ofInt 1 : Ext K) = fin 1 := by rw [i]; simp
    simp only [maxPenalty, Options.setMaxRho, h1]
    rw [if_neg]
    simp [zero_fin]
  refine ⟨⟨rfl, rfl, hQ, hg, rfl, hL, hR, Or.inl ⟨rfl, rfl, rfl⟩, rfl, rfl, rfl, rfl, Or.inr hx, ?_, ?_, ?_, ?_, ?_, ?_⟩, ?_⟩ <;> rw [ho]
  · rfl
  · rfl
  · rfl
  · rfl
  · rfl
  · exact Or.inr rfl

/-- a prepared program solves the warm-up problem with the default tolerances -/
theorem Data2.good {t : Task (Ext K)} {c R : K} (hD : Data2 t c) (hl : t.Loads) (hR : t.opts.maxRho = fin R) (hc : c = 0 ∨ c = 1) (he : FinAns e)
    (hE : ExactOn e two2 (IsSub (prob c) (fun _ => fin c) (fun _ => pinf) (fun _ => ninf) (fun _ => pinf)))
    {qd sd : Nat} {o : Obj (Ext K)} (h : prepare e qd sd t = .ok (some o)) :
    ∃ x0, Good e o c R x0 ∧ o.d.opts = t.opts ∧ Prepared e two2 true o := by
  obtain ⟨nC, nComp, args, opts, late, ny, shown, stats⟩ := t
  obtain ⟨rfl, rfl, hQ, hg, hA, hL, hRR, hlow, hubL, hubR, hlb, hub, hx0, h1, h2, h3, h4, h5, h6⟩ := hD
  dsimp only at *
  have hx : ∃ x0 : Fin 2 → K, ArgOpt args.x0 2 x0 := by
    rcases hx0 with hx0 | hx0
    · exact ⟨0, Or.inl ⟨hx0, rfl⟩⟩
    · exact ⟨vec 2 [1, 1], Or.inr ⟨_, hx0, le_refl _, rfl⟩⟩
  obtain ⟨x0, hx⟩ := hx
  have hr : (lit 1 2 : Ext K) = fin (1 / 100) := by rw [lit_fin]; norm_num
  have hf : (two : Ext K) = fin 2 := by rw [two, lit_fin]; norm_num
  have ha : args.Are two2 (prob c) x0 := by
    refine ⟨hl.fits, ⟨_, hQ, by simp, ?_⟩, ⟨_, hg, by simp, ?_⟩, Or.inl ⟨hA, rfl⟩, ⟨_, hL, by simp, ?_⟩, ⟨_, hRR, by simp, ?_⟩, ?_, hx⟩
    · ext i j
      fin_cases i <;> fin_cases j <;> rfl
    · ext i
      fin_cases i <;> rfl
    · ext i j
      fin_cases i <;> fin_cases j <;> rfl
    · ext i j
      fin_cases i <;> fin_cases j <;> rfl
    · rcases hlow with ⟨q1, q2, rfl⟩ | ⟨q1, q2⟩
      · exact Or.inl ⟨q1, q2, rfl, rfl⟩
      · refine Or.inr ⟨⟨_, q1, by simp, ?_⟩, ⟨_, q2, by simp, ?_⟩⟩ <;>
        · ext i
          fin_cases i
          rfl
  obtain ⟨hS, hSt, hopt, hp⟩ := prepare_setup (t := ⟨0, 1, args, opts, late, ny, shown, stats⟩) (P := prob c) (r0 := 1 / 100) (f := 2) hl ha (qd := qd) (sd := sd)
    (h1.trans hr) (h2.trans hf) hr hf two_ne_zero he h
  refine ⟨x0, ⟨hS, ?_, hE, ?_, ?_, ?_, ?_, ?_, ?_, ?_⟩, hopt, hp⟩
  · refine ⟨?_, ?_, ?_, ?_⟩
    · rw [hSt.lbA]
      rcases hlow with ⟨q1, q2, rfl⟩ | ⟨q1, q2⟩
      · simp [DenseArgs.bnds, orFill, q1, q2, Dims.nA]
        cases args.lbA <;> simp
      · simp [DenseArgs.bnds, orFill, q1, q2, Dims.nA, emb]
        cases args.lbA <;> simp
    · rw [hSt.ubA]
      simp [DenseArgs.bnds, orFill, hubL, hubR, Dims.nA]
      cases args.ubA <;> simp
    · rw [hSt.lb]
      simp [DenseArgs.bnds, orFill, hlb]
    · rw [hSt.ub]
      simp [DenseArgs.bnds, orFill, hub]
  · rw [hopt]; exact h5
  · rw [hopt]; exact hR
  · rw [hopt, h3]; simp [lit_fin, eps]; norm_num
  · rw [hopt, h4]; simp [lit_fin, eps]; norm_num
  · rw [hopt]; exact hl.iter
  · rw [hR] at h6
    rcases h6 with h6 | h6 <;> injection h6 with h6 <;> rw [h6] <;> positivity
  · rcases hc with rfl | rfl <;> norm_num

end LCQ.WarmUp
