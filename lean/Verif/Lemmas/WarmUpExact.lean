import Verif.Spec.WarmUp
import Verif.Lemmas.WarmUpMath
import Verif.Lemmas.Local
import Verif.Lemmas.EnoughRun
import Verif.Props.Perturb

/-!
# Helper lemmas for C77: the iterates of the warm-up problem in exact arithmetic
-/

namespace LCQ.WarmUp
open Scalar Ext
open scoped Matrix

variable {K : Type} [Field K] [LinearOrder K] [IsStrictOrderedRing K] {e : Env (Ext K)} {o : Obj (Ext K)} {d : Data (Ext K)}
  {c R : K} {x0 : Fin 2 → K}

/-- dimensions of the warm-up problem -/
abbrev two2 : Dims := ⟨2, 0, 1⟩

omit [LinearOrder K] [IsStrictOrderedRing K] in
theorem prob_C (c : K) (x : Fin 2 → K) : (prob c).C *ᵥ x = ![x 1, x 0] := by
  funext i
  fin_cases i <;> simp [Prob.C, prob, Matrix.mulVec, dotProduct, Matrix.mul_apply, Fin.sum_univ_two]

omit [LinearOrder K] [IsStrictOrderedRing K] in
theorem prob_Q (c : K) (x : Fin 2 → K) : (prob c).Q *ᵥ x = ![2 * x 0, 2 * x 1] := by
  funext i
  fin_cases i <;> simp [prob, Matrix.mulVec, dotProduct, Fin.sum_univ_two]

omit [LinearOrder K] [IsStrictOrderedRing K] in
theorem prob_AA (c : K) (x : Fin 2 → K) : (prob c).AA *ᵥ x = x := by
  funext i
  change Fin 2 at i
  fin_cases i <;> simp [Prob.AA, prob, stackRows, Matrix.mulVec, dotProduct, Fin.sum_univ_two]

omit [LinearOrder K] [IsStrictOrderedRing K] in
theorem prob_AAt (c : K) (z : Fin 2 → K) : (prob c).AAᵀ *ᵥ z = z := by
  funext i
  have : ∀ f : Fin (Dims.nA ⟨2, 0, 1⟩) → K, ∑ j, f j = f (0 : Fin 2) + f (1 : Fin 2) := fun f => Fin.sum_univ_two f
  show ∑ j, (prob c).AAᵀ i j * z j = z i
  rw [this]
  fin_cases i
  · show (1 : K) * z 0 + 0 * z 1 = z 0
    ring
  · show (0 : K) * z 0 + 1 * z 1 = z 1
    ring

omit [LinearOrder K] [IsStrictOrderedRing K] in
theorem prob_gPhi (c : K) : (prob c).gPhi = ![-c, -c] := by
  funext i
  fin_cases i <;> simp [Prob.gPhi, prob, Matrix.mulVec, dotProduct]

omit [LinearOrder K] [IsStrictOrderedRing K] in
theorem prob_phi (c : K) (x : Fin 2 → K) : (prob c).phi x = (x 0 - c) * (x 1 - c) := by
  simp [Prob.phi, prob, dotProduct, Fin.sum_univ_two]

omit [IsStrictOrderedRing K] in
theorem prob_H (c r : K) (sp : Bool) : tr sp ((prob c).Q + r • (prob c).C) = (prob c).Q + r • (prob c).C := by
  refine tr_symm sp ?_
  rw [Matrix.transpose_add, Matrix.transpose_smul, Prob.C_symm]
  congr 1
  ext i j
  fin_cases i <;> fin_cases j <;> rfl

/-- the term that is missing before the first penalty update -/
def sig (c r : K) (b : Bool) : K := if b then 0 else r * c

omit [LinearOrder K] [IsStrictOrderedRing K] in
theorem prob_gT (c r : K) (b : Bool) (i : Fin 2) : (prob c).gT b r i = -2 * (1 + c) - r * c + sig c r b := by
  have hg : (prob c).g i = -2 * (1 + c) := by fin_cases i <;> rfl
  have hp : (prob c).gPhi i = -c := by rw [prob_gPhi]; fin_cases i <;> rfl
  cases b
  · show (prob c).g i = _
    rw [hg, sig]; simp
  · show (prob c).g i + r * (prob c).gPhi i = _
    rw [hg, hp, sig]; simp; ring

/-- the penalised gradient -/
theorem prob_grad (c r : K) (sp b : Bool) (x : Fin 2 → K) :
    (tr sp ((prob c).Q + r • (prob c).C) *ᵥ x + (prob c).gT b r) 0 = 2 * (x 0 - c) - 2 + r * (x 1 - c) + sig c r b ∧
    (tr sp ((prob c).Q + r • (prob c).C) *ᵥ x + (prob c).gT b r) 1 = 2 * (x 1 - c) - 2 + r * (x 0 - c) + sig c r b := by
  have h0 := prob_gT c r b 0
  have h1 := prob_gT c r b 1
  rw [prob_H, Matrix.add_mulVec, Matrix.smul_mulVec, prob_C, prob_Q]
  constructor
  · show 2 * x 0 + r * x 1 + (prob c).gT b r 0 = _
    rw [h0]; ring
  · show 2 * x 1 + r * x 0 + (prob c).gT b r 1 = _
    rw [h1]; ring

/-- a solution of a subproblem -/
theorem kkt_sub {g v w : Fin 2 → K} {z : Fin 2 → K} (h : ((prob c).subQp (fun _ => fin c) (fun _ => pinf) (fun _ => ninf) (fun _ => pinf) g).Kkt v z w) :
    w = 0 ∧ ∀ i : Fin 2, c ≤ v i ∧ 0 ≤ z i ∧ (z i = 0 ∨ v i = c) ∧ 2 * v i + g i = z i := by
  have hw : w = 0 := by
    funext i
    rcases lt_trichotomy (w i) 0 with h1 | h1 | h1
    · exact absurd (h.wneg i h1) (by simp [Prob.subQp])
    · exact h1
    · exact absurd (h.wpos i h1) (by simp [Prob.subQp])
  have hA : ∀ i : Fin 2, ((prob c).AA *ᵥ v) i = v i := fun i => congrFun (prob_AA c v) i
  refine ⟨hw, fun i => ?_⟩
  have hf := h.feas.lA i
  have hf : c ≤ v i := by
    have h2 : (fin c <=. fin (((prob c).AA *ᵥ v) i)) = true := hf
    rw [hA] at h2
    simpa using h2
  have hz : 0 ≤ z i := by
    by_contra h1
    exact absurd (h.zneg i (not_le.mp h1)) (by simp [Prob.subQp])
  have hs := congrFun h.stat i
  rw [hw, add_zero] at hs
  have hs1 : ((prob c).Q *ᵥ v + g) i = ((prob c).AAᵀ *ᵥ z) i := hs
  rw [prob_AAt, prob_Q] at hs1
  refine ⟨hf, hz, ?_, ?_⟩
  · rcases hz.lt_or_eq with h1 | h1
    · right
      have h2 : (fin c : Ext K) = fin (((prob c).AA *ᵥ v) i) := h.zpos i h1
      rw [hA] at h2
      injection h2 with h2
      exact h2.symm
    · exact Or.inl h1.symm
  · rw [← hs1]
    fin_cases i <;> rfl

/-- the state at the head of the main loop after `k` passes: the point `x + a • p` reached next, and the subproblem solved last -/
structure Head2 (c R : K) (k : Nat) (r : K) (b : Bool) (x p : Fin 2 → K) (a : K) (y : Fin 2 → K) : Prop where
  a0 : 0 < a
  a1 : a ≤ 1
  box : ∀ i, -(k * epsK) ≤ (x + a • p) i - c ∧ (x + a • p) i - c ≤ 1 + k * (epsK * (1 + R))
  last : (k = 0 ∧ b = false ∧ r = 1 / 100 ∧ a = 1 ∧ ∀ i, (x + p) i = c + 1 ∧ y i = 0) ∨
    0 < k ∧ ∃ w v δ : Fin 2 → K, (∀ i, |δ i| ≤ epsK) ∧ x = w + δ ∧ p = v - w ∧
      Sub2 r (sig c r b) (w 0 - c) (w 1 - c) (v 0 - c) (v 1 - c) (y 0) (y 1) ∧
      (∀ i, -(k * epsK) ≤ w i - c ∧ w i - c ≤ 1 + k * (epsK * (1 + R))) ∧
      a = alphaOf (2 * p 0 ^ 2 + 2 * p 1 ^ 2 + 2 * r * (p 0 * p 1))
        (p 0 * (2 * (x 0 - c) - 2 + r * (x 1 - c) + sig c r b) + p 1 * (2 * (x 1 - c) - 2 + r * (x 0 - c) + sig c r b))

theorem Sub2.upper {r σ W0 W1 V0 V1 y0 y1 t R : K} (h : Sub2 r σ W0 W1 V0 V1 y0 y1) (r0 : 0 ≤ r) (hR : r ≤ R) (s0 : 0 ≤ σ) (ht : 0 ≤ t)
    (w0 : -t ≤ W0) (w1 : -t ≤ W1) : V0 ≤ 1 + R * t ∧ V1 ≤ 1 + R * t := by
  have e : r * t ≤ R * t := mul_le_mul_of_nonneg_right hR ht
  have e0 : 0 ≤ r * t := mul_nonneg r0 ht
  have m0 : r * -t ≤ r * W0 := mul_le_mul_of_nonneg_left w0 r0
  have m1 : r * -t ≤ r * W1 := mul_le_mul_of_nonneg_left w1 r0
  have h0 := h.s0
  have h1 := h.s1
  constructor
  · rcases h.c0 with hc | hc
    · rw [hc] at h0; linarith
    · rw [hc]; linarith
  · rcases h.c1 with hc | hc
    · rw [hc] at h1; linarith
    · rw [hc]; linarith

/-- what is known of a prepared object -/
structure Good (e : Env (Ext K)) (o : Obj (Ext K)) (c R : K) (x0 : Fin 2 → K) : Prop where
  setup : Setup e o two2 (prob c) x0 (1 / 100) 2
  bounds : BoundsAre o two2 (fun _ => fin c) (fun _ => pinf) (fun _ => ninf) (fun _ => pinf)
  exact : ExactOn e two2 (IsSub (prob c) (fun _ => fin c) (fun _ => pinf) (fun _ => ninf) (fun _ => pinf))
  zeroFirst : o.d.opts.zeroFirst = true
  maxRho : o.d.opts.maxRho = fin R
  statTol : o.d.opts.statTol = fin (2221 / 10 ^ 13)
  complTol : o.d.opts.complTol = fin (2221 / 10 ^ 16)
  maxIter : o.d.opts.maxIter = 1000
  R0 : 0 ≤ R
  c0 : 0 ≤ c

theorem sig_nonneg {r : K} {b : Bool} (h : 0 ≤ c) (hr : 0 ≤ r) : 0 ≤ sig c r b := by
  unfold sig
  split
  · exact le_refl _
  · exact mul_nonneg hr h

/-- the penalty parameter at the head of the main loop -/
theorem Good.rho (hG : Good e o c R x0) {s0 s : St (Ext K)} (h0 : Enters e o d s0) {k : Nat} (h : Passes e d s0 k s) {r : K}
    (hr : s.rho = some (fin r)) : ∃ j : Nat, r = 1 / 100 * 2 ^ j ∧ (k = 0 ∨ r ≤ R) ∧ (k : Int) ≤ 1000 ∧ Live d.opts s k j ∧
      ((k = 0 ∧ j = 0) ∨ (d.opts.maxRho <. penalty d.opts j) = false) := by
  obtain ⟨off, _, _, ho, _⟩ := hG.setup.head ⟨s0, h0, h.reach⟩
  obtain ⟨j, hl, hj, hk⟩ := h.live h0
  have hp := penalty_fin (o := d.opts) (a := 1 / 100) (f := 2) (by rw [ho]; exact hG.setup.rho0) (by rw [ho]; exact hG.setup.factor) j
  have hr' := hl.rho
  rw [hr, hp] at hr'
  have hrj : r = 1 / 100 * 2 ^ j := by
    injection hr' with hr'
    injection hr'
  refine ⟨j, hrj, ?_, ?_, hl, hj⟩
  · rcases hj with hj | hj
    · exact Or.inl hj.1
    · right
      rw [hp, ho, hG.maxRho, ← hrj] at hj
      simpa using hj
  · rw [ho, hG.maxIter] at hk
    simpa using hk

/-- one pass of the main loop from the point `w` -/
structure Step2 (c R : K) (k : Nat) (r : K) (b : Bool) (w x p : Fin 2 → K) (a : K) (y : Fin 2 → K) : Prop where
  a0 : 0 < a
  a1 : a ≤ 1
  box : ∀ i, -(k * epsK) ≤ (x + a • p) i - c ∧ (x + a • p) i - c ≤ 1 + k * (epsK * (1 + R))
  last : ∃ v δ : Fin 2 → K, (∀ i, |δ i| ≤ epsK) ∧ x = w + δ ∧ p = v - w ∧
      Sub2 r (sig c r b) (w 0 - c) (w 1 - c) (v 0 - c) (v 1 - c) (y 0) (y 1) ∧
      (∀ i, -(k * epsK) ≤ w i - c ∧ w i - c ≤ 1 + k * (epsK * (1 + R))) ∧
      a = alphaOf (2 * p 0 ^ 2 + 2 * p 1 ^ 2 + 2 * r * (p 0 * p 1))
        (p 0 * (2 * (x 0 - c) - 2 + r * (x 1 - c) + sig c r b) + p 1 * (2 * (x 1 - c) - 2 + r * (x 0 - c) + sig c r b))

theorem Good.next (hG : Good e o c R x0) {s0 s1 s2 : St (Ext K)} (h0 : Enters e o d s0) {k : Nat} (hr : Passes e d s0 k s1)
    (hp : pass e d s1 = .ok (.inl s2)) {off : Nat} {r : K} {b : Bool} {x p : Fin 2 → K} {a : K} {y : Fin (off + two2.nA) → K}
    (h1 : DataOK d two2 off) (h2 : DataIs d two2 (prob c) off) (h3 : d.opts = o.d.opts) (h5 : XSt d two2 (prob c) off s1 r b x p a y)
    (h6 : OutB s1 b) (hbr : b = false → r = 1 / 100)
    (hbox : ∀ i, -(k * epsK) ≤ (x + a • p) i - c ∧ (x + a • p) i - c ≤ 1 + k * (epsK * (1 + R))) :
    ∃ (r' : K) (b' : Bool) (x' p' : Fin 2 → K) (a' : K) (y' : Fin (off + two2.nA) → K), Grow 2 r b r' b' ∧
      XSt d two2 (prob c) off s2 r' b' x' p' a' y' ∧ OutB s2 b' ∧
      yBox (n := two2) y' = 0 ∧ (b' = false → r' = 1 / 100) ∧ Step2 c R (k + 1) r' b' (x + a • p) x' p' a' (yLin (n := two2) y') := by
  have ep : (0 : K) < epsK := epsK_pos
  obtain ⟨r', b', cc, kk, x', v, y', sub, la, ua, hgr, hb', hs, hla, hua, hxe, hx', hok, hv, rfl, _⟩ :=
    pass_x h1 h2 hG.setup.ans (by rw [h3]; exact hG.setup.factor) hG.setup.f0 h5 h6 hp
  have hr2 := hr.pass hp
  obtain ⟨j, hj, hjR, hk, _⟩ := hG.rho h0 hr2 hx'.rho
  have hrR : r' ≤ R := hjR.resolve_left (by omega)
  have r0 : 0 ≤ r' := by rw [hj]; positivity
  have hq := (hG.setup.sends hG.bounds ⟨s0, h0, hr2.reach⟩).is hs hla hua false (r' • ((prob c).C *ᵥ (x + a • p)) + (prob c).gT b' r') none none
  obtain ⟨kw, ks⟩ := kkt_sub (ans_kkt hG.exact h1 hs hq hok hv)
  have hbr' : b' = false → r' = 1 / 100 := by
    rcases hgr with ⟨rfl, rfl⟩ | ⟨_, _, _, rfl⟩
    · exact hbr
    · intro h; cases h
  generalize hw : x + a • p = w at *
  have g0 : (r' • ((prob c).C *ᵥ w) + (prob c).gT b' r') 0 = r' * w 1 + (-2 * (1 + c) - r' * c + sig c r' b') := by
    rw [← prob_gT c r' b' 0, prob_C]; rfl
  have g1 : (r' • ((prob c).C *ᵥ w) + (prob c).gT b' r') 1 = r' * w 0 + (-2 * (1 + c) - r' * c + sig c r' b') := by
    rw [← prob_gT c r' b' 1, prob_C]; rfl
  obtain ⟨f0, n0, c0, s0'⟩ := ks 0
  obtain ⟨f1, n1, c1, s1'⟩ := ks 1
  rw [g0] at s0'
  rw [g1] at s1'
  have hsub : Sub2 r' (sig c r' b') (w 0 - c) (w 1 - c) (v 0 - c) (v 1 - c) (yLin (n := two2) y' (0 : Fin 2)) (yLin (n := two2) y' (1 : Fin 2)) :=
    ⟨sub_nonneg.mpr f0, sub_nonneg.mpr f1, n0, n1, c0.imp id sub_eq_zero.mpr, c1.imp id sub_eq_zero.mpr,
      by rw [← s0']; ring, by rw [← s1']; ring⟩
  have hδ : ∀ i, |(x' - w) i| ≤ epsK := by
    intro i
    rw [hxe]
    split
    · have := perturbed_le (n := two2) (e := e) (k := kk) w i
      rw [← abs_neg, ← Pi.neg_apply, neg_sub]
      exact this
    · simp [ep.le]
  have k0 : (0 : K) ≤ k * epsK := mul_nonneg (Nat.cast_nonneg k) ep.le
  obtain ⟨v0, v1⟩ := hsub.upper r0 hrR (sig_nonneg hG.c0 r0) k0 (hbox 0).1 (hbox 1).1
  have hvu : ∀ i : Fin 2, 0 ≤ v i - c ∧ v i - c ≤ 1 + R * (k * epsK) := by
    intro i
    fin_cases i
    · exact ⟨sub_nonneg.mpr f0, v0⟩
    · exact ⟨sub_nonneg.mpr f1, v1⟩
  have hm := alphaOf_mem ((v - w) ⬝ᵥ (((prob c).Q + r' • (prob c).C) *ᵥ (v - w)))
    ((v - w) ⬝ᵥ (tr d.sparse ((prob c).Q + r' • (prob c).C) *ᵥ x' + (prob c).gT b' r'))
  generalize hal : alphaOf ((v - w) ⬝ᵥ (((prob c).Q + r' • (prob c).C) *ᵥ (v - w)))
    ((v - w) ⬝ᵥ (tr d.sparse ((prob c).Q + r' • (prob c).C) *ᵥ x' + (prob c).gT b' r')) = a' at *
  have eR : 0 ≤ epsK * R := mul_nonneg ep.le hG.R0
  have ekR : 0 ≤ (k : K) * (epsK * R) := mul_nonneg (Nat.cast_nonneg k) eR
  refine ⟨r', b', x', v - w, a', y', hgr, hx', hb', kw, hbr', ⟨hm.1, hm.2, fun i => ?_,
    v, x' - w, hδ, by abel, rfl, hsub, fun i => ?_, ?_⟩⟩
  · have e1 : (x' + a' • (v - w)) i - c = (1 - a') * (w i - c) + (x' - w) i + a' * (v i - c) := by
      simp only [Pi.add_apply, Pi.smul_apply, Pi.sub_apply, smul_eq_mul]
      ring
    have b0 : 0 ≤ 1 - a' := by linarith [hm.2]
    have d1 := abs_le.mp (hδ i)
    have m1 := mul_le_mul_of_nonneg_left (hbox i).1 b0
    have m2 := mul_le_mul_of_nonneg_left (hbox i).2 b0
    have m3 := mul_le_mul_of_nonneg_left (hvu i).1 hm.1.le
    have m4 := mul_le_mul_of_nonneg_left (hvu i).2 hm.1.le
    have m5 := mul_nonneg hm.1.le k0
    rw [e1]
    push_cast
    constructor
    · linarith
    · nlinarith
  · obtain ⟨q1, q2⟩ := hbox i
    push_cast
    constructor <;> nlinarith
  · obtain ⟨p0, p1⟩ := prob_grad c r' d.sparse b' x'
    rw [← hal]
    congr 1
    · rw [Matrix.add_mulVec, Matrix.smul_mulVec, prob_C, prob_Q, dotProduct, Fin.sum_univ_two]
      simp only [Pi.add_apply, Pi.smul_apply, smul_eq_mul, Matrix.cons_val_zero, Matrix.cons_val_one]
      ring
    · rw [dotProduct, Fin.sum_univ_two, p0, p1]

theorem Good.head (hG : Good e o c R x0) {s0 s : St (Ext K)} (h0 : Enters e o d s0) {k : Nat} (h : Passes e d s0 k s) :
    ∃ (off : Nat) (r : K) (b : Bool) (x p : Fin 2 → K) (a : K) (y : Fin (off + two2.nA) → K),
      DataOK d two2 off ∧ DataIs d two2 (prob c) off ∧ d.opts = o.d.opts ∧ XSt d two2 (prob c) off s r b x p a y ∧ OutB s b ∧
      yBox (n := two2) y = 0 ∧ (b = false → r = 1 / 100) ∧ Head2 c R k r b x p a (yLin (n := two2) y) := by
  have ep : (0 : K) < epsK := epsK_pos
  induction h with
  | start =>
    obtain ⟨off, h1, h2, h3, h4, v, y, sub, la, ua, y0, h5, h6, hs, ha, hb, h7, h8⟩ :=
      enters_x hG.setup.ready hG.setup.holds hG.setup.x0 hG.setup.rho0 hG.setup.ans h0
    have hz : d.opts.zeroFirst = true := by rw [h3]; exact hG.zeroFirst
    simp only [hz, if_true] at h7 h8
    have hq := (hG.setup.sends hG.bounds ⟨s0, h0, .start⟩).is hs ha hb true (prob c).g o.s.xk y0
    obtain ⟨kw, kk⟩ := kkt_sub (ans_kkt hG.exact h1 hs hq h7 h8)
    have hv : ∀ i : Fin 2, v i = c + 1 ∧ yLin (n := two2) y i = 0 := by
      intro i
      obtain ⟨k1, k2, k3, k4⟩ := kk i
      have hg : (prob c).g i = -2 * (1 + c) := by fin_cases i <;> rfl
      rw [hg] at k4
      rcases k3 with k3 | k3
      · rw [k3] at k4
        exact ⟨by linarith, k3⟩
      · rw [k3] at k4
        exfalso
        linarith
    refine ⟨off, 1 / 100, false, x0, v - x0, 1, y, h1, h2, h3, h5, h6, kw, fun _ => rfl, ⟨one_pos, le_refl _, fun i => ?_, Or.inl ⟨rfl, rfl, rfl, rfl, fun i => ?_⟩⟩⟩
    · rw [one_smul, add_sub_cancel, (hv i).1]
      simp
    · rw [add_sub_cancel]
      exact hv i
  | @pass k s1 s2 hr hp ih =>
    obtain ⟨off, r, b, x, p, a, y, h1, h2, h3, h5, h6, _, hbr, hH⟩ := ih
    obtain ⟨r', b', x', p', a', y', _, k2, k3, k4, k5, k6, k7, k8, v, δ, k9⟩ := hG.next h0 hr hp h1 h2 h3 h5 h6 hbr hH.box
    exact ⟨off, r', b', x', p', a', y', h1, h2, h3, k2, k3, k4, k5, ⟨k6, k7, k8, Or.inr ⟨Nat.succ_pos _, _, v, δ, k9⟩⟩⟩

/-- the point reached at the head of the main loop passes the tests of the solver only near the points of the specification -/
theorem Good.near (hG : Good e o c R x0) (hR : R ≤ 10 ^ 8) (hc : c ≤ 1) {s0 s : St (Ext K)} (h0 : Enters e o d s0) {k : Nat}
    (h : Passes e d s0 k s) {q : RV × St (Ext K)} (hp : pass e d s = .ok (.inr q)) (hq : q.1 = .successfulReturn) :
    ∃ (x : Fin 2 → K) (r : K), q.2.xk = some (ev x) ∧ q.2.rho = some (fin r) ∧ r ≤ R ∧ Near2 r (x 0 - c) (x 1 - c) := by
  obtain ⟨off, r, b, x, p, a, y, h1, h2, h3, h5, h6, hbox, hbr, hH⟩ := hG.head h0 h
  obtain ⟨j, hj, hjR, hk, _⟩ := hG.rho h0 h h5.rho
  obtain ⟨g1, g2, _, g3, g4, _⟩ := pass_success h2 h5 h6 (by rw [h3]; exact hG.statTol) (by rw [h3]; exact hG.complTol) hp hq
  refine ⟨x + a • p, r, g4, g3, ?_⟩
  rw [prob_phi] at g1
  have hk' : (k : K) ≤ 1000 := by exact_mod_cast hk
  have he : epsK = (2221 / 10 ^ 19 : K) := rfl
  have ep : (0 : K) < epsK := epsK_pos
  have hr0 : 0 < r := by rw [hj]; positivity
  have st : ∀ i : Fin 2, (prob c).stat d.sparse r b (x + a • p) y i =
      (tr d.sparse ((prob c).Q + r • (prob c).C) *ᵥ (x + a • p) + (prob c).gT b r) i - yLin (n := two2) y i := by
    intro i
    show (tr d.sparse ((prob c).Q + r • (prob c).C) *ᵥ (x + a • p) + (prob c).gT b r) i - ((prob c).AAᵀ *ᵥ yLin (n := two2) y) i -
      yBox (n := two2) y i = _
    have hA : ((prob c).AAᵀ *ᵥ yLin (n := two2) y) i = yLin (n := two2) y i := congrFun (prob_AAt c (yLin (n := two2) y)) i
    rw [hbox, hA]
    exact sub_zero _
  have e0 := g2 0
  have e1 := g2 1
  rw [st] at e0 e1
  obtain ⟨p0, p1⟩ := prob_grad c r d.sparse b (x + a • p)
  rw [p0] at e0
  rw [p1] at e1
  have lo : ∀ t : K, -(k * epsK) ≤ t → -(2221 / 10 ^ 16) ≤ t := by
    intro t ht
    have := mul_le_mul_of_nonneg_right hk' ep.le
    rw [he] at this ht
    linarith
  have up : ∀ t : K, t ≤ 1 + k * (epsK * (1 + R)) → t ≤ 11 / 10 := by
    intro t ht
    have h1 : epsK * (1 + R) ≤ 2221 / 10 ^ 19 * (1 + 10 ^ 8) := by
      rw [he]
      exact mul_le_mul_of_nonneg_left (by linarith) (by positivity)
    have h2 : (k : K) * (epsK * (1 + R)) ≤ 1000 * (2221 / 10 ^ 19 * (1 + 10 ^ 8)) :=
      mul_le_mul hk' h1 (mul_nonneg ep.le (by linarith [hG.R0])) (by positivity)
    linarith
  rcases hH.last with ⟨rfl, _, _, rfl, hv⟩ | ⟨hk0, w, v, δ, hδ, hx, hpw, hs, hw, _⟩
  · exfalso
    rw [one_smul, (hv 0).1, (hv 1).1] at g1
    norm_num at g1
  · have hrR : r ≤ R := hjR.resolve_left (by omega)
    refine ⟨hrR, ?_⟩
    have hσ : sig c r b ≤ 1 / 100 := by
      unfold sig
      split
      · norm_num
      · rename_i hb
        rw [hbr (by simpa using hb)]
        linarith
    rcases Nat.lt_or_ge j 8 with hj8 | hj8
    · exfalso
      have hr1 : r ≤ 128 / 100 := by
        have : (2 : K) ^ j ≤ 2 ^ 7 := pow_le_pow_right₀ (by norm_num) (by omega)
        rw [hj]
        linarith
      have := far_small hs hr0.le hr1 (sig_nonneg hG.c0 hr0.le) hσ (up _ (hw 0).2) (up _ (hw 1).2) (up _ (hH.box 0).2) (up _ (hH.box 1).2) e0 e1
      linarith
    · have hr1 : 256 / 100 ≤ r := by
        have : (2 : K) ^ 8 ≤ 2 ^ j := pow_le_pow_right₀ (by norm_num) hj8
        rw [hj]
        linarith
      have hb : b = true := by
        cases b with
        | true => rfl
        | false =>
          exfalso
          rw [hbr rfl] at hr1
          norm_num at hr1
      have hs0 : sig c r b = 0 := by rw [hb]; rfl
      rw [hs0] at hs e0 e1
      rw [add_zero] at e0 e1
      refine near_of (a := a) (D0 := δ 0) (D1 := δ 1) hs hr1 (hrR.trans hR) hH.a0 hH.a1 (hδ 0) (hδ 1) ?_ ?_ (lo _ (hH.box 0).1) (lo _ (hH.box 1).1) e0 e1 g1
      · rw [hx, hpw]
        simp only [Pi.add_apply, Pi.smul_apply, Pi.sub_apply, smul_eq_mul]
        ring
      · rw [hx, hpw]
        simp only [Pi.add_apply, Pi.smul_apply, Pi.sub_apply, smul_eq_mul]
        ring

end LCQ.WarmUp
