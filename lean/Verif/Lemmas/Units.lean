import Verif.Spec.Units
import Mathlib.Algebra.Order.Field.Basic
import Mathlib.Tactic.Ring
import Mathlib.Tactic.FieldSimp
import Mathlib.Tactic.Linarith

/-!
# The reference algorithm commutes with changes of variables and units
-/

set_option linter.unusedSectionVars false

namespace LCQ.Ref
open scoped Matrix

variable {K : Type} [Field K] [LinearOrder K] [IsStrictOrderedRing K] {m : Nat} {z : Units K m} {A : Pb K m} {o : Par K}

namespace Units
variable (hz : z.Fit)
include hz

theorem Fit.TUv (v : Fin m → K) : z.T *ᵥ (z.U *ᵥ v) = v := by
  rw [Matrix.mulVec_mulVec, hz.TU, Matrix.one_mulVec]

theorem Fit.UTv (v : Fin m → K) : z.U *ᵥ (z.T *ᵥ v) = v := by
  rw [Matrix.mulVec_mulVec, hz.UT, Matrix.one_mulVec]

omit hz in
theorem dotT (v y : Fin m → K) : (z.Tᵀ *ᵥ v) ⬝ᵥ y = v ⬝ᵥ (z.T *ᵥ y) := by
  rw [Matrix.mulVec_transpose, Matrix.dotProduct_mulVec]

theorem Fit.dot (v y : Fin m → K) : (z.Tᵀ *ᵥ v) ⬝ᵥ (z.U *ᵥ y) = v ⬝ᵥ y := by
  rw [dotT, hz.TUv]

/-- a matrix in the new variables, applied to a vector in the new variables -/
theorem Fit.conj (M : Matrix (Fin m) (Fin m) K) (v : Fin m → K) :
    (z.Tᵀ * M * z.T) *ᵥ (z.U *ᵥ v) = z.Tᵀ *ᵥ (M *ᵥ v) := by
  rw [← Matrix.mulVec_mulVec, hz.TUv, ← Matrix.mulVec_mulVec]

theorem Fit.w0 : z.w ≠ 0 := hz.w.ne'

theorem Fit.lin (t : St K m) : Ref.lin (z.pb A) (z.st t) = z.c • (z.Tᵀ *ᵥ Ref.lin A t) := by
  have := hz.w0
  by_cases h : 0 < t.outer
  · simp only [Ref.lin, Units.st, Units.pb, h, if_true, Matrix.mulVec_add, Matrix.mulVec_smul, smul_add, smul_smul]
    congr 2
    field_simp
  · simp only [Ref.lin, Units.st, Units.pb, h, if_false]

theorem Fit.hess (t : St K m) : Ref.hess (z.pb A) (z.st t) = z.c • (z.Tᵀ * Ref.hess A t * z.T) := by
  have := hz.w0
  simp only [Ref.hess, Units.st, Units.pb, Matrix.mul_add, Matrix.add_mul, Matrix.mul_smul, Matrix.smul_mul, smul_add, smul_smul]
  congr 2
  field_simp

theorem Fit.grad (t : St K m) (x : Fin m → K) :
    Ref.grad (z.pb A) (z.st t) (z.U *ᵥ x) = z.c • (z.Tᵀ *ᵥ Ref.grad A t x) := by
  simp only [Ref.grad, hz.hess, hz.lin, Matrix.smul_mulVec, hz.conj, Matrix.mulVec_add, smul_add]

theorem Fit.sub (t : St K m) : Ref.sub (z.pb A) (z.st t) = z.c • (z.Tᵀ *ᵥ Ref.sub A t) := by
  have := hz.w0
  simp only [Ref.sub, hz.lin]
  simp only [Units.st, Units.pb, Matrix.smul_mulVec, hz.conj, Matrix.mulVec_add, Matrix.mulVec_smul, smul_add, smul_smul]
  congr 2
  field_simp

theorem Fit.phi (x : Fin m → K) : (z.pb A).phi (z.U *ᵥ x) = z.w * A.phi x := by
  simp only [Units.pb, hz.TUv]

theorem Fit.isMin {b v : Fin m → K} (h : IsMin A b v) : IsMin (z.pb A) (z.c • (z.Tᵀ *ᵥ b)) (z.U *ᵥ v) := by
  have key : ∀ y : Fin m → K, y ⬝ᵥ ((z.pb A).Q *ᵥ y) / 2 + (z.c • (z.Tᵀ *ᵥ b)) ⬝ᵥ y =
      z.c * ((z.T *ᵥ y) ⬝ᵥ (A.Q *ᵥ (z.T *ᵥ y)) / 2 + b ⬝ᵥ (z.T *ᵥ y)) := by
    intro y
    have : y ⬝ᵥ ((z.Tᵀ * A.Q * z.T) *ᵥ y) = (z.T *ᵥ y) ⬝ᵥ (A.Q *ᵥ (z.T *ᵥ y)) := by
      rw [← Matrix.mulVec_mulVec, ← Matrix.mulVec_mulVec, dotProduct_comm, dotT, dotProduct_comm]
    simp only [Units.pb, Matrix.smul_mulVec, dotProduct_smul, smul_dotProduct, smul_eq_mul, this, dotT]
    ring
  refine ⟨?_, fun y hy => ?_⟩
  · change A.X _
    rw [hz.TUv]
    exact h.1
  · rw [key, key, hz.TUv]
    exact mul_le_mul_of_nonneg_left (h.2 _ hy) hz.c.le

theorem Fit.len (q l : K) : Ref.len (z.c * q) (z.c * l) = Ref.len q l := by
  have h1 : 0 < z.c * q ↔ 0 < q := mul_pos_iff_of_pos_left hz.c
  have h2 : z.c * l < 0 ↔ l < 0 := by
    have := mul_lt_mul_iff_right₀ (b := l) (c := 0) hz.c
    rwa [mul_zero] at this
  have h3 : -(z.c * l) / (z.c * q) = -l / q := by
    rw [← mul_neg, mul_div_mul_left _ _ hz.c.ne']
  simp only [Ref.len, h1, h2, h3]

theorem Fit.cw : 0 < z.c / z.w := div_pos hz.c hz.w

theorem Fit.bump (t : St K m) : Ref.bump (z.par o) (z.st t) = z.st (Ref.bump o t) := by
  simp only [Ref.bump, Units.st, Units.par, St.mk.injEq, mul_assoc, true_and]
  by_cases h : 0 < o.nDyn <;> simp [h]

theorem Fit.move (t : St K m) : Ref.move (z.st t) = z.st (Ref.move t) := by
  simp only [Ref.move, Units.st, Matrix.mulVec_add, Matrix.mulVec_smul]

theorem Fit.push (t : St K m) (l : List K) : { z.st t with hist := l.map (z.w * ·) } = z.st { t with hist := l } := rfl

theorem Fit.dyn (t : St K m) : Ref.dyn (z.pb A) (z.par o) (z.st t) = z.st (Ref.dyn A o t) := by
  have hp : (z.pb A).phi (z.st t).x = z.w * A.phi t.x := hz.phi t.x
  have h1 : z.w * A.phi t.x < z.w * o.complTol ↔ A.phi t.x < o.complTol := mul_lt_mul_iff_right₀ hz.w
  have h2 : (∃ w ∈ (z.st t).hist, z.w * A.phi t.x < o.eta * w) ↔ ∃ w ∈ t.hist, A.phi t.x < o.eta * w := by
    constructor
    · rintro ⟨w, hw, h⟩
      obtain ⟨v, hv, rfl⟩ := List.mem_map.mp hw
      refine ⟨v, hv, ?_⟩
      have h : z.w * A.phi t.x < z.w * (o.eta * v) := by linarith [h, mul_left_comm o.eta z.w v]
      exact (mul_lt_mul_iff_right₀ hz.w).mp h
    · rintro ⟨v, hv, h⟩
      refine ⟨z.w * v, List.mem_map.mpr ⟨v, hv, rfl⟩, ?_⟩
      have h := (mul_lt_mul_iff_right₀ hz.w).mpr h
      linarith [h, mul_left_comm o.eta z.w v]
  have e1 : (z.st t).hist.tail ++ [z.w * A.phi t.x] = (t.hist.tail ++ [A.phi t.x]).map (z.w * ·) := by
    simp [Units.st, List.map_tail]
  have e2 : (z.st t).hist ++ [z.w * A.phi t.x] = (t.hist ++ [A.phi t.x]).map (z.w * ·) := by
    simp [Units.st]
  have e3 : (z.st t).hist.length = t.hist.length := by simp [Units.st]
  have o1 : (z.par o).nDyn = o.nDyn := rfl
  have o2 : (z.par o).complTol = z.w * o.complTol := rfl
  have o3 : (z.par o).eta = o.eta := rfl
  unfold Ref.dyn
  rw [hp, o1, o2, o3, e1, e2, e3, hz.push, hz.push, hz.bump]
  by_cases c1 : o.nDyn = 0
  · rw [if_pos c1, if_pos c1]
  rw [if_neg c1, if_neg c1]
  by_cases c2 : t.hist.length < o.nDyn
  · rw [if_pos c2, if_pos c2]
  rw [if_neg c2, if_neg c2]
  by_cases c3 : A.phi t.x < o.complTol ∨ ∃ w ∈ t.hist, A.phi t.x < o.eta * w
  · rw [if_pos c3, if_pos (by rw [h1, h2]; exact c3)]
  · rw [if_neg c3, if_neg (by rw [h1, h2]; exact c3)]

theorem Fit.stat (t : St K m) : Stat (z.pb A) (z.par o) (z.st t) ↔ Stat A o t := by
  have h : Ref.grad (z.pb A) (z.st t) (z.st t).x - (z.st t).c = z.c • (z.Tᵀ *ᵥ (Ref.grad A t t.x - t.c)) := by
    change Ref.grad (z.pb A) (z.st t) (z.U *ᵥ t.x) - z.c • (z.Tᵀ *ᵥ t.c) = _
    rw [hz.grad, Matrix.mulVec_sub, smul_sub]
  unfold Stat
  rw [h, ← hz.norm (Ref.grad A t t.x - t.c)]
  refine forall_congr' fun i => ?_
  rw [Pi.smul_apply, smul_eq_mul, abs_mul, abs_of_pos hz.c]
  exact mul_lt_mul_iff_right₀ hz.c

theorem Fit.head (t : St K m) : Ref.head (z.pb A) (z.par o) (z.st t) =
    (Ref.head A o t).map z.st (fun q => (q.1, z.st q.2)) := by
  have hs : Stat (z.pb A) (z.par o) (Ref.move (z.st t)) ↔ Stat A o (Ref.move t) := by
    rw [hz.move]
    exact hz.stat _
  have hd : Ref.dyn (z.pb A) (z.par o) (Ref.move (z.st t)) = z.st (Ref.dyn A o (Ref.move t)) := by
    rw [hz.move, hz.dyn]
  have hp : (z.pb A).phi (z.st (Ref.dyn A o (Ref.move t))).x < (z.par o).complTol ↔
      A.phi (Ref.dyn A o (Ref.move t)).x < o.complTol := by
    rw [show (z.pb A).phi (z.st (Ref.dyn A o (Ref.move t))).x = _ from hz.phi _]
    exact mul_lt_mul_iff_right₀ hz.w
  have hu : (if Stat A o (Ref.move t) then Ref.bump (z.par o) (z.st (Ref.dyn A o (Ref.move t))) else z.st (Ref.dyn A o (Ref.move t))) =
      z.st (if Stat A o (Ref.move t) then Ref.bump o (Ref.dyn A o (Ref.move t)) else Ref.dyn A o (Ref.move t)) := by
    rw [hz.bump]
    split <;> rfl
  unfold Ref.head
  simp only [hd, hs, hp, hu]
  generalize (if Stat A o (Ref.move t) then Ref.bump o (Ref.dyn A o (Ref.move t)) else Ref.dyn A o (Ref.move t)) = u
  have hr : (z.par o).maxRho < (z.st u).r ↔ o.maxRho < u.r := mul_lt_mul_iff_right₀ hz.cw
  have hm : (z.par o).maxIter < (z.st u).total ↔ o.maxIter < u.total := Iff.rfl
  simp only [hr, hm]
  split
  · rfl
  · split
    · rfl
    · split <;> rfl

theorem Fit.step (hp : Plain z o) (t : St K m) (v : Fin m → K) :
    Ref.step (z.pb A) (z.par o) (z.st t) (z.U *ᵥ v) = z.st (Ref.step A o t v) := by
  have hx : (if (z.par o).perturb then shake (z.par o) (z.st t).used (z.st t).x else (z.st t).x) =
      z.U *ᵥ (if o.perturb then shake o t.used t.x else t.x) := by
    rcases hp with hp | hp
    · rw [if_neg (by change ¬ o.perturb = true; rw [hp]; simp), if_neg (by rw [hp]; simp)]
      rfl
    · have : ∀ y, (z.U *ᵥ y) = y := fun y => by rw [hp, Matrix.one_mulVec]
      rw [this]
      have h2 : (z.st t).x = t.x := this _
      rw [h2]
      rfl
  have hv : z.U *ᵥ v - (z.st t).x = z.U *ᵥ (v - t.x) := by
    rw [Matrix.mulVec_sub]
    rfl
  unfold Ref.step
  simp only [hx, hv]
  simp only [hz.hess, hz.grad, hz.sub]
  have hq : (z.U *ᵥ (v - t.x)) ⬝ᵥ (z.c • (z.Tᵀ * Ref.hess A t * z.T)) *ᵥ (z.U *ᵥ (v - t.x)) =
      z.c * ((v - t.x) ⬝ᵥ (Ref.hess A t *ᵥ (v - t.x))) := by
    rw [Matrix.smul_mulVec, hz.conj, dotProduct_smul, smul_eq_mul, dotProduct_comm, hz.dot, dotProduct_comm]
  have hl : ∀ y, (z.U *ᵥ (v - t.x)) ⬝ᵥ (z.c • (z.Tᵀ *ᵥ y)) = z.c * ((v - t.x) ⬝ᵥ y) := by
    intro y
    rw [dotProduct_smul, smul_eq_mul, dotProduct_comm, hz.dot, dotProduct_comm]
  have hc : (z.pb A).Q *ᵥ (z.U *ᵥ v) + z.c • (z.Tᵀ *ᵥ Ref.sub A t) = z.c • (z.Tᵀ *ᵥ (A.Q *ᵥ v + Ref.sub A t)) := by
    simp only [Units.pb, Matrix.smul_mulVec, hz.conj, Matrix.mulVec_add, smul_add]
  rw [hq, hl, hz.len, hc]
  rfl

theorem Fit.first (r0 : K) (x0 : Fin m → K) :
    Ref.first (z.pb A) (z.par o) (z.c / z.w * r0) (z.U *ᵥ x0) = z.c • (z.Tᵀ *ᵥ Ref.first A o r0 x0) := by
  have := hz.w0
  unfold Ref.first
  change (if o.zeroFirst = true then _ else _) = _
  split
  · rfl
  · simp only [Units.pb, Matrix.smul_mulVec, hz.conj, Matrix.mulVec_add, Matrix.mulVec_smul, smul_add, smul_smul]
    congr 2
    field_simp

theorem Fit.start (r0 : K) (x0 : Fin m → K) (h0 : List K) (k : Nat) (v : Fin m → K) :
    Ref.start (z.pb A) (z.par o) (z.c / z.w * r0) (z.U *ᵥ x0) (h0.map (z.w * ·)) k (z.U *ᵥ v) =
      z.st (Ref.start A o r0 x0 h0 k v) := by
  have hc : (z.pb A).Q *ᵥ (z.U *ᵥ v) + z.c • (z.Tᵀ *ᵥ Ref.first A o r0 x0) = z.c • (z.Tᵀ *ᵥ (A.Q *ᵥ v + Ref.first A o r0 x0)) := by
    simp only [Units.pb, Matrix.smul_mulVec, hz.conj, Matrix.mulVec_add, smul_add]
  simp only [Ref.start, hz.first, hc, Units.st, Matrix.mulVec_sub]

theorem Fit.loop (hp : Plain z o) {k : Nat} {t : St K m} {q : Option (RV × St K m)} (h : Loop A o k t q) :
    Loop (z.pb A) (z.par o) k (z.st t) (q.map fun q => (q.1, z.st q.2)) := by
  induction h with
  | out s => exact .out _
  | stop h => exact .stop (by rw [hz.head, h]; rfl)
  | @next k s t v q h1 h2 _ ih =>
    refine .next (t := z.st t) (v := z.U *ᵥ v) (by rw [hz.head, h1]; rfl) ?_ ?_
    · rw [hz.sub]
      exact hz.isMin h2
    · rw [hz.step hp]
      exact ih

end Units

end LCQ.Ref
