import Verif.Lemmas.Drift
import Verif.Lemmas.Binary64
import Verif.Props.SafetySparse
import Verif.Props.Rounding

/-!
# C63: the sparse penalised Hessian in rounded arithmetic

In dense mode a penalty update computes the penalised Hessian anew (C24).  In sparse mode the stored entries are updated in
place: `rho*(1 - 1/factor)*C` is added.  In exact arithmetic this is the same; in rounded arithmetic the stored entries
drift away from `Q + rho*C`.
-/

set_option linter.unusedSectionVars false

namespace LCQ
open Scalar Ext

section
variable {α : Type} [Scalar α] {n : Dims} {e : Env α} {o o1 : Obj α} {a : SparseArgs α} {d : Data α} {s : St α}

/-- an object is constructed, a sparse problem (with sorted columns of `Q`) is loaded and a run is at the head of its main
loop -/
structure SparseHead (e : Env α) (o : Obj α) (n : Dims) (a : SparseArgs α) (o1 : Obj α) (d : Data α) (s : St α) : Prop where
  built : Built o n
  idx : o.s.idxC = []
  fits : a.Fits n
  sorted : ∀ S, a.Q = some S → S.Sorted
  pair : a.lbL = none ↔ a.lbR = none
  load : loadSparse e o a = .ok (.successfulReturn, o1)
  head : AtHead e o1 d s

/-- C63 (any arithmetic): in sparse mode, at every head of the main loop the stored penalised Hessian has an entry exactly
where `Q` or `C` has one, and its value is `q + rho*c` with the initial `rho`, to which `(rho*(1 - 1/factor))*c` has been
added in every penalty update. -/
theorem C63_entries (h : SparseHead e o n a o1 d s) :
    ∃ (Q C T : CSC α) (k : Nat), a.Q = some Q ∧ d.Cs = some C ∧ s.Qks = some T ∧ s.outer = some (k : Int) ∧
      s.rho = some (penalty o.d.opts k) ∧ T.m = n.nV ∧ T.n = n.nV ∧ T.Valid ∧
      ∀ i j, j < n.nV → T.entry i j = hessEntry (penalty o.d.opts) o.d.opts.factor (Q.entry i j) (C.entry i j) k := by
  obtain ⟨hR, hopt, hsp, _⟩ := h.built.loadSparse h.idx h.fits h.pair h.load
  obtain ⟨⟨Q, C, k, hQ, hC, ho, hr, hqk, _⟩, h1, h2, h3, off, hd⟩ := head_sparse hR hsp h.head
  obtain ⟨Q', L, R, C', hQ', hL, hR', iQ, iL, iR, hCs, hCi, h'⟩ :=
    loadSparse_ok (e := e) h.built.dims h.built.nV h.built.nComp h.fits
  have hl := h.load
  rcases h' with ⟨_, _, h'⟩ | ⟨_, _, _, h'⟩ | ⟨_, _, _, _, h'⟩ | ⟨_, _, g, c, hg, lg, hc, h'⟩
  · rw [h'] at hl; injection hl with hl; injection hl with hl _; cases hl
  · rw [h'] at hl; injection hl with hl; injection hl with hl _; cases hl
  · rw [h'] at hl; injection hl with hl; injection hl with hl _; cases hl
  · rw [h'] at hl
    injection hl with hl
    injection hl with _ hl
    have e1 : o1.d.Qs = some Q'.trim := by rw [← hl]; rfl
    have e2 : o1.d.Cs = some c := by rw [← hl]; rfl
    rw [h2, e1] at hQ
    injection hQ with hQ
    rw [h3, e2] at hC
    injection hC with hC
    subst hQ hC
    obtain ⟨ic, sc⟩ := hCi c hc
    have sQ := h.sorted Q' hQ'
    rw [h1, hopt] at hr hqk
    refine ⟨Q', c, _, k, hQ', by rw [h3, e2], hqk, ho, hr, rfl, rfl, ?_, ?_⟩
    · exact mcsc_valid _ _ iQ.trim.1 ic.1 _ _ iQ.2.1 iQ.2.2 ic.2.1 ic.2.2
    · intro i j hj
      rw [mcsc_entry iQ.trim.1 (CSC.Sorted.trim iQ.1 sQ) ic.1 sc iQ.2.2 ic.2.2 _ i hj, valAt_entry,
        entry_col Q'.trim, trim_col iQ.1 (by rw [iQ.2.2]; exact hj), ← entry_col]

variable {K : Type} [Field K] [LinearOrder K] [IsStrictOrderedRing K] {u t : K}

/-- C63 (rounded arithmetic): how far the stored entries can drift away from `Q + rho*C` within `k` penalty updates. -/
theorem C63_error (F : RoundsDiv α K u t) (h : SparseHead e o n a o1 d s) {φ : K} (hf : F.val o.d.opts.factor = some φ)
    (h0 : φ ≠ 0) :
    ∃ (Q C T : CSC α) (k : Nat) (rho : α), a.Q = some Q ∧ d.Cs = some C ∧ s.Qks = some T ∧ s.outer = some (k : Int) ∧
      s.rho = some rho ∧ ∀ i j v w, j < n.nV → T.entry i j = some v → F.val v = some w →
        |w - (F.vo (Q.entry i j) + F.v rho * F.vo (C.entry i j))| ≤ ((1 + u) ^ (k + 4) - 1) *
          magHess t φ (fun j => F.v (penalty o.d.opts j)) (F.vo (Q.entry i j)) (F.vo (C.entry i j)) k := by
  obtain ⟨Q, C, T, k, hQ, hC, hT, ho, hr, _, _, _, he⟩ := C63_entries h
  refine ⟨Q, C, T, k, _, hQ, hC, hT, ho, hr, ?_⟩
  intro i j v w hj hv hw
  rw [he i j hj] at hv
  exact hess_bound F hf h0 (fun _ => rfl) hv hw

/-- C63: without rounding errors there is no drift. -/
theorem C63_exact (F : RoundsDiv α K 0 t) (h : SparseHead e o n a o1 d s) {φ : K} (hf : F.val o.d.opts.factor = some φ)
    (h0 : φ ≠ 0) :
    ∃ (Q C T : CSC α) (rho : α), a.Q = some Q ∧ d.Cs = some C ∧ s.Qks = some T ∧ s.rho = some rho ∧
      ∀ i j v w, j < n.nV → T.entry i j = some v → F.val v = some w →
        w = F.vo (Q.entry i j) + F.v rho * F.vo (C.entry i j) := by
  obtain ⟨Q, C, T, k, rho, hQ, hC, hT, _, hr, hb⟩ := C63_error F h hf h0
  refine ⟨Q, C, T, rho, hQ, hC, hT, hr, fun i j v w hj hv hw => ?_⟩
  have := hb i j v w hj hv hw
  rw [add_zero, one_pow, sub_self, zero_mul] at this
  exact sub_eq_zero.mp (abs_nonpos_iff.mp this)

/-- C63: a readable bound for the magnitude if the penalty parameter is at least doubled in each update, without rounding
errors. -/
theorem C63_magnitude {φ q c : K} {r : Nat → K} (ht : 0 ≤ t) (hφ : 2 ≤ φ) (h0 : 0 ≤ r 0) (hr : ∀ j, r (j + 1) = r j * φ) (k : Nat) :
    magHess t φ r q c k ≤ |q| + (5 + 2 * t) * (r k * |c|) + (k + 1) * (1 + 2 * |c|) * t := by
  have hpos : ∀ j, 0 ≤ r j := by
    intro j
    induction j with
    | zero => exact h0
    | succ j ih => rw [hr]; exact mul_nonneg ih (by linarith)
  have hφ' : |φ| = φ := abs_of_pos (by linarith)
  have hinv : 1 / φ ≤ 1 / 2 := one_div_le_one_div_of_le (by norm_num) hφ
  have hinv0 : 0 ≤ 1 / φ := by positivity
  have hc := abs_nonneg c
  induction k with
  | zero =>
    simp only [magHess, Finset.range_zero, Finset.sum_empty, abs_of_nonneg h0, Nat.cast_zero]
    nlinarith [mul_nonneg h0 hc, mul_nonneg ht (mul_nonneg h0 hc), mul_nonneg ht hc]
  | succ k ih =>
    have e : magHess t φ r q c (k + 1) = magHess t φ r q c k +
        ((r (k + 1) * (1 + 1 / φ + t) + t) * |c| + t + (r k + t / φ) * |c|) := by
      rw [magHess, Finset.sum_range_succ, magHess, ← add_assoc]
      rw [hφ', abs_of_nonneg (hpos k), abs_of_nonneg (hpos (k + 1))]
    rw [e]
    have h2 : 2 * (r k * |c|) ≤ r (k + 1) * |c| := by
      rw [hr]; nlinarith [mul_nonneg (mul_nonneg (hpos k) hc) (by linarith : 0 ≤ φ - 2)]
    have h3 : t / φ ≤ t := by
      rw [div_eq_mul_one_div]; nlinarith
    have hk := mul_nonneg (hpos (k + 1)) hc
    have h4 : r (k + 1) * |c| * (1 / φ) ≤ r (k + 1) * |c| * (1 / 2) := mul_le_mul_of_nonneg_left hinv hk
    have h5 : t / φ * |c| ≤ t * |c| := mul_le_mul_of_nonneg_right h3 hc
    have h6 : t * (2 * (r k * |c|)) ≤ t * (r (k + 1) * |c|) := mul_le_mul_of_nonneg_left h2 ht
    push_cast
    nlinarith

end

/-! ## exact arithmetic -/

namespace Ext
variable {K : Type} [Field K] [LinearOrder K] [IsStrictOrderedRing K]

/-- the number which a finite element stands for -/
def num? : Ext K → Option K
  | fin a => some a
  | _ => none

theorem num_signInf (a : K) : num? (signInf a) = none := by
  unfold signInf
  split
  · rfl
  · split <;> rfl

theorem num_some {a : Ext K} {c : K} (h : num? a = some c) : a = fin c := by
  cases a <;> simp [num?] at h
  rw [h]

/-- the exact arithmetic does not round -/
def roundsDiv : RoundsDiv (Ext K) K 0 0 where
  val := num?
  u0 := le_refl 0
  t0 := le_refl 0
  add a b c h := by
    change num? (Ext.add a b) = some c at h
    cases a <;> cases b <;> simp only [Ext.add, num?, reduceCtorEq, Option.some.injEq] at h
    exact ⟨_, _, rfl, rfl, by rw [← h]; simp⟩
  sub a b c h := by
    change num? (Ext.add a (Ext.neg b)) = some c at h
    cases a <;> cases b <;> simp only [Ext.add, Ext.neg, num?, reduceCtorEq, Option.some.injEq] at h
    exact ⟨_, _, rfl, rfl, by rw [← h]; simp [sub_eq_add_neg]⟩
  mul a b c h := by
    change num? (Ext.mul a b) = some c at h
    cases a <;> cases b <;> simp only [Ext.mul, num_signInf, reduceCtorEq] at h
    case fin.fin =>
      injection h with h
      exact ⟨_, _, rfl, rfl, by rw [← h]; simp⟩
    all_goals cases h
  half a c h := by
    have h2 : (two : Ext K) = fin 2 := two_fin
    rw [h2] at h
    change num? (Ext.div a (fin 2)) = some c at h
    cases a <;> simp only [Ext.div] at h
    case fin x =>
      rw [if_neg (by norm_num)] at h
      injection h with h
      exact ⟨_, rfl, by rw [← h]; simp⟩
    all_goals (try split at h) <;> simp [num?] at h
  neg a := by cases a <;> rfl
  zero := by rw [zero_fin]; rfl
  one := by rw [one_fin]; rfl
  lt a b x y hx hy := by
    rw [num_some hx, num_some hy]; rfl
  div a b c y hb h0 h := by
    rw [num_some hb] at h
    change num? (Ext.div a (fin y)) = some c at h
    cases a <;> simp only [Ext.div] at h
    case fin x =>
      rw [if_neg h0] at h
      injection h with h
      exact ⟨_, rfl, by rw [← h]; simp⟩
    all_goals (try split at h) <;> simp [num?] at h

end Ext

/-- exact arithmetic meets the hypothesis of `C63_exact` -/
example : ∃ F : RoundsDiv (Ext ℚ) ℚ 0 0, F.val (fin 2) = some 2 ∧ F.val (Scalar.one /. fin 3) = some (1 / 3) :=
  ⟨Ext.roundsDiv, rfl, by decide +kernel⟩

/-! ## IEEE doubles -/

namespace Dbl

/-- `double` satisfies the standard model, divisions included. -/
def roundsDiv : RoundsDiv Dbl ℚ (pow2 (-53)) (pow2 (-1022)) where
  toRounds := rounds
  div a b c y hb h0 h := by
    change val (Dbl.div a b) = some c at h
    change val b = some y at hb
    cases b <;> simp only [val, reduceCtorEq] at hb
    case num z hz _ =>
      injection hb with hb
      subst hb
      cases a <;> simp only [Dbl.div] at h
      case num x hx _ =>
        refine ⟨x, rfl, ?_⟩
        rw [if_neg h0] at h
        rw [val_rnd h]
        exact round_gen _
      all_goals (try split at h) <;> simp [val] at h

end Dbl

/-- C63: IEEE doubles satisfy the standard model of floating point arithmetic, divisions included. -/
theorem C63_binary64 : ∃ F : RoundsDiv Dbl ℚ (1 / 2 ^ 53) (1 / 2 ^ 1022), F.val = Dbl.val := by
  have h1 : Dbl.pow2 (-53) = 1 / 2 ^ 53 := by decide +kernel
  have h2 : Dbl.pow2 (-1022) = 1 / 2 ^ 1022 := by decide +kernel
  rw [← h1, ← h2]
  exact ⟨Dbl.roundsDiv, rfl⟩

namespace ExH
open Dbl

/-- default options, except that the sparse version of qpOASES is chosen and the step is not perturbed -/
def opts : Options Dbl := { Options.default 0 0 with
  perturb := false
  qpSolver := 1 }

/-- a matrix with one entry -/
def one1 (v : Dbl) : CSC Dbl := ⟨1, 1, 1, [0, 1], [0], [v]⟩

/-- one variable, `Q = 2`, `L = 1`, `R = 1/2`, hence `C = 1` -/
def args : SparseArgs Dbl where
  Q := some (one1 two)
  g := some [zero]
  L := some (one1 one)
  R := some (one1 (one /. two))

/-- every QP is answered by the point 1 and a multiplier which makes it stationary -/
def env : Env Dbl := ExD.envOf fun _ => ExD.answer [one] [lit 201 2, zero, zero]

/-- load, initialise, make the first step and `k` passes -/
def heads : Nat → Option (Obj Dbl × Data Dbl × St Dbl)
  | 0 => match loadSparse env (Obj.new opts 1 0 1) args with
    | .ok (.successfulReturn, o) => match initializeSolver env o with
      | .ok (.successfulReturn, i) => match firstStep env i.d i.s with
        | .ok (.inl s) => some (o, i.d, s)
        | _ => none
      | _ => none
    | _ => none
  | k + 1 => match heads k with
    | some (o, d, s) => match pass env d s with
      | .ok (.inl s') => some (o, d, s')
      | _ => none
    | none => none

theorem heads_at (k : Nat) {o : Obj Dbl} {d : Data Dbl} {s : St Dbl} (h : heads k = some (o, d, s)) :
    loadSparse env (Obj.new opts 1 0 1) args = .ok (.successfulReturn, o) ∧ AtHead env o d s := by
  induction k generalizing s with
  | zero =>
    unfold heads at h
    split at h
    case h_2 => cases h
    case h_1 o' hl =>
      split at h
      case h_2 => cases h
      case h_1 i hi =>
        split at h
        case h_2 => cases h
        case h_1 s0 hf =>
          injection h with h
          simp only [Prod.mk.injEq] at h
          obtain ⟨rfl, rfl, rfl⟩ := h
          exact ⟨hl, _, ⟨_, hi, rfl, rfl, hf⟩, .start⟩
  | succ k ih =>
    unfold heads at h
    split at h
    case h_2 => cases h
    case h_1 o' d' s' hk =>
      split at h
      case h_2 => cases h
      case h_1 s1 hp =>
        injection h with h
        simp only [Prod.mk.injEq] at h
        obtain ⟨rfl, rfl, rfl⟩ := h
        obtain ⟨h1, s0, h2, h3⟩ := ih hk
        exact ⟨h1, s0, h2, .pass h3 hp⟩

theorem one1_is (v : Dbl) : (one1 v).Is 1 1 := by
  refine ⟨⟨⟨rfl, rfl, ?_, le_refl 1, le_refl 1, le_refl 1⟩, ?_⟩, rfl, rfl⟩
  · intro j hj
    have : j = 0 := Nat.lt_one_iff.mp hj
    subst this
    exact (by decide : (0 : Int) ≤ 1)
  · intro k hk
    have : k = 0 := Nat.lt_one_iff.mp hk
    subst this
    exact (by decide : (0 : Int) ≤ 0 ∧ (0 : Int) < 1)

theorem one1_sorted (v : Dbl) : (one1 v).Sorted := by
  intro j hj k l h1 h2 h3
  have : j = 0 := Nat.lt_one_iff.mp hj
  subst this
  have : l < 1 := h3
  omega

theorem fits : args.Fits ⟨1, 0, 1⟩ := by
  refine ⟨⟨_, rfl, one1_is _⟩, ⟨_, rfl, one1_is _⟩, ⟨_, rfl, one1_is _⟩, ?_, ?_, ?_, ?_, ?_, ?_, ?_, ?_, ?_, ?_, ?_, ?_⟩ <;>
    (rintro v ⟨⟩) <;> simp

/-- entries, penalty parameter and number of updates -/
def drift : Bool :=
  match heads 1 with
  | some (_, d, s) =>
    match d.Cs, s.Qks, s.rho with
    | some C, some T, some rho =>
      match (one1 two).entry 0 0, C.entry 0 0, T.entry 0 0 with
      | some q, some c, some v => decide (s.outer = some 1) && decide (q.val = some 2) && decide (c.val = some 1) &&
        decide (v.val = some (568579452955525 / 2 ^ 48)) &&
        decide ((one *. q +. rho *. c).val = some (4548635623644201 / 2 ^ 51))
      | _, _, _ => false
    | _, _, _ => false
  | none => false

end ExH

/-- C63: the drift occurs.  With the default penalty options, for an entry 2 of `Q` and an entry 1 of `C`, after the first
penalty update the sparse Hessian has an entry which differs from the one which the dense version computes (C24). -/
theorem C63_drift : ∃ (o1 : Obj Dbl) (d : Data Dbl) (s : St Dbl) (C T : CSC Dbl) (rho q c v : Dbl),
    SparseHead ExH.env (Obj.new ExH.opts 1 0 1) ⟨1, 0, 1⟩ ExH.args o1 d s ∧ s.outer = some 1 ∧ d.Cs = some C ∧
    s.Qks = some T ∧ s.rho = some rho ∧ (ExH.one1 two).entry 0 0 = some q ∧ C.entry 0 0 = some c ∧ T.entry 0 0 = some v ∧
    q.val = some 2 ∧ c.val = some 1 ∧ v.val = some (568579452955525 / 2 ^ 48) ∧
    (one *. q +. rho *. c).val = some (4548635623644201 / 2 ^ 51) := by
  have h : ExH.drift = true := by decide +kernel
  unfold ExH.drift at h
  split at h
  case h_2 => cases h
  case h_1 o1 d s hh =>
    split at h
    case h_2 => cases h
    case h_1 C T rho hC hT hr =>
      split at h
      case h_2 => cases h
      case h_1 q c v hq hc hv =>
        simp only [Bool.and_eq_true, decide_eq_true_eq] at h
        obtain ⟨⟨⟨⟨h1, h2⟩, h3⟩, h4⟩, h5⟩ := h
        obtain ⟨hl, ha⟩ := ExH.heads_at 1 hh
        refine ⟨o1, d, s, C, T, rho, q, c, v, ⟨Built.new _ (by decide), rfl, ExH.fits, ?_, ?_, hl, ha⟩, h1, hC, hT, hr, hq, hc,
          hv, h2, h3, h4, h5⟩
        · rintro S ⟨⟩
          exact ExH.one1_sorted _
        · exact ⟨fun _ => rfl, fun _ => rfl⟩

/-- the bound applies to this run -/
example : ∃ (s : St Dbl) (T : CSC Dbl) (v rho : Dbl) (w : ℚ), s.Qks = some T ∧ T.entry 0 0 = some v ∧ v.val = some w ∧
    s.rho = some rho ∧ |w - (2 + Dbl.roundsDiv.v rho * 1)| ≤ ((1 + Dbl.pow2 (-53)) ^ 5 - 1) * magHess (Dbl.pow2 (-1022)) 2
      (fun j => Dbl.roundsDiv.v (penalty ExH.opts j)) 2 1 1 := by
  obtain ⟨o1, d, s, C, T, rho, q, c, v, h, ho, hC, hT, hr, hq, hc, hv, q2, c1, hw, _⟩ := C63_drift
  obtain ⟨Q, C', T', k, rho', hQ, hC', hT', ho', hr', hb⟩ := C63_error Dbl.roundsDiv h (φ := 2) (by decide +kernel) (by norm_num)
  rw [hC] at hC'
  rw [hT] at hT'
  rw [ho] at ho'
  injection hC' with hC'
  injection hT' with hT'
  injection ho' with ho'
  injection hQ with hQ
  subst hC' hT' hQ
  have hk : k = 1 := by omega
  subst hk
  have := hb 0 0 v _ (by decide) hv hw
  rw [hq, hc] at this
  have e1 : Dbl.roundsDiv.vo (some q) = 2 := by
    show (q.val).getD 0 = 2
    rw [q2]; rfl
  have e2 : Dbl.roundsDiv.vo (some c) = 1 := by
    show (c.val).getD 0 = 1
    rw [c1]; rfl
  rw [e1, e2] at this
  exact ⟨s, T, v, rho', _, hT, hv, hw, hr', this⟩

end LCQ
