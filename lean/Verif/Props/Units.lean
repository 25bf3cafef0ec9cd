import Verif.Lemmas.Units
import Verif.Props.Independent

/-!
# C83: runs do not depend on the units of the problem, the order and the sign of the variables
-/

set_option linter.unusedSectionVars false

namespace LCQ
open Scalar Ext
open scoped Matrix

variable {K : Type} [Field K] [LinearOrder K] [IsStrictOrderedRing K]

/-- C83: a run of the reference algorithm, written in other variables and units, is a run of the reference algorithm for
the problem in these variables and units. -/
theorem Ref.C83_run {m : Nat} {z : Units K m} {A : Pb K m} {o : Par K} (hz : z.Fit) (hp : z.Plain o) {r0 : K}
    {x0 : Fin m → K} {h0 : List K} {k fuel : Nat} {q : Option (RV × St K m)} (h : Run A o r0 x0 h0 k fuel q) :
    Run (z.pb A) (z.par o) (z.c / z.w * r0) (z.U *ᵥ x0) (h0.map (z.w * ·)) k fuel (q.map fun q => (q.1, z.st q.2)) := by
  obtain ⟨v, h1, h2⟩ := h
  refine ⟨z.U *ᵥ v, ?_, ?_⟩
  · rw [hz.first]
    exact hz.isMin h1
  · rw [hz.start]
    exact hz.loop hp h2

/-- the second state is the first one in other variables and units: points and steps are converted, the penalty parameter
is multiplied by `c / w` and stored values of the complementarity function by `w`; step length, counters and random
numbers are the same -/
structure Converted {m : Nat} (z : Ref.Units K m) (s s' : St (Ext K)) : Prop where
  x : ∃ x : Fin m → K, s.xk = some (ev x) ∧ s'.xk = some (ev (z.U *ᵥ x))
  p : ∃ p : Fin m → K, s.pk = some (ev p) ∧ s'.pk = some (ev (z.U *ᵥ p))
  r : ∃ r : K, s.rho = some (fin r) ∧ s'.rho = some (fin (z.c / z.w * r))
  hist : ∃ l : List K, s.hist = emb l ∧ s'.hist = emb (l.map (z.w * ·))
  a : s.alpha = s'.alpha
  outer : s.outer = s'.outer
  inner : s.inner = s'.inner
  total : s.total = s'.total
  used : s.rnd = s'.rnd

section
variable {m i j i' j' : Nat} {P : Prob K ⟨m, i, j⟩} {P' : Prob K ⟨m, i', j'⟩} {e e' : Env (Ext K)} {o o' : Obj (Ext K)}
  {x0 : Fin m → K} {r0 : K} {lA uA : Fin (Dims.nA ⟨m, i, j⟩) → Ext K} {lA' uA' : Fin (Dims.nA ⟨m, i', j'⟩) → Ext K}
  {l u l' u' : Fin m → Ext K} {a : Ref.Par K} {h0 : List K} {z : Ref.Units K m}

theorem conj_quad (B T : Matrix (Fin m) (Fin m) K) (y : Fin m → K) :
    y ⬝ᵥ ((Tᵀ * B * T) *ᵥ y) = (T *ᵥ y) ⬝ᵥ (B *ᵥ (T *ᵥ y)) := by
  rw [← Matrix.mulVec_mulVec, ← Matrix.mulVec_mulVec, dotProduct_comm, Matrix.mulVec_transpose, ← Matrix.dotProduct_mulVec,
    dotProduct_comm]

theorem conj_symm {B : Matrix (Fin m) (Fin m) K} (hB : Bᵀ = B) (T : Matrix (Fin m) (Fin m) K) (c : K) :
    (c • (Tᵀ * B * T))ᵀ = c • (Tᵀ * B * T) := by
  rw [Matrix.transpose_smul, Matrix.transpose_mul, Matrix.transpose_mul, Matrix.transpose_transpose, hB, Matrix.mul_assoc]

/-- the problem `P'` is the problem `P` in other variables and units -/
theorem ref_units (hz : z.Fit) (hQ : P.Qᵀ = P.Q) (hQ' : P'.Qᵀ = P'.Q) (hobj : ∀ y, P'.obj y = z.c * P.obj (z.T *ᵥ y))
    (hphi : ∀ y, P'.phi y = z.w * P.phi (z.T *ᵥ y))
    (hX : ∀ y, Feasible P' lA' uA' l' u' y ↔ Feasible P lA uA l u (z.T *ᵥ y)) :
    P'.ref lA' uA' l' u' = z.pb (P.ref lA uA l u) := by
  have lin : ∀ (c : K) (g y : Fin m → K), (c • (z.Tᵀ *ᵥ g)) ⬝ᵥ y = c * (g ⬝ᵥ (z.T *ᵥ y)) := by
    intro c g y
    rw [smul_dotProduct, smul_eq_mul, Matrix.mulVec_transpose, Matrix.dotProduct_mulVec]
  have quad : ∀ (c : K) (B : Matrix (Fin m) (Fin m) K) (y : Fin m → K),
      y ⬝ᵥ ((c • (z.Tᵀ * B * z.T)) *ᵥ y) = c * ((z.T *ᵥ y) ⬝ᵥ (B *ᵥ (z.T *ᵥ y))) := by
    intro c B y
    rw [Matrix.smul_mulVec, dotProduct_smul, conj_quad, smul_eq_mul]
  obtain ⟨q1, q2⟩ := quad_unique (c := 0) (c' := 0) (h := P'.g) (h' := z.c • (z.Tᵀ *ᵥ P.g)) hQ' (conj_symm hQ z.T z.c) fun y => by
    have := hobj y
    simp only [Prob.obj] at this
    rw [zero_add, zero_add, lin, quad, this]
    ring
  obtain ⟨q3, q4⟩ := quad_unique (h := P'.gPhi) (h' := z.w • (z.Tᵀ *ᵥ P.gPhi)) (c := P'.lbL ⬝ᵥ P'.lbR)
      (c' := z.w * (P.lbL ⬝ᵥ P.lbR)) P'.C_symm (conj_symm P.C_symm z.T z.w) fun y => by
    have := hphi y
    rw [P.phi_eq, P'.phi_eq] at this
    rw [lin, quad, this]
    ring
  simp only [Prob.ref, Ref.Units.pb, Ref.Pb.mk.injEq]
  exact ⟨q1, q2, q3, q4, funext hphi, funext fun x => propext (hX x)⟩

/-- C83: two runs, the second one for the problem of the first one in other variables and units.  Tolerances, limit of the
penalty parameter, initial guess and initial penalty parameter are converted, all other options are the same.  If the
objective is strictly convex and the QP solvers solve the subproblems exactly, both runs return the same code and take the
same number of passes and penalty updates, and the second one ends in the converted point, unless a QP call fails. -/
theorem C83_same (hz : z.Fit) (hp : z.Plain a) (hJ : Job e o ⟨m, i, j⟩ P lA uA l u x0 r0 a h0)
    (hJ' : Job e' o' ⟨m, i', j'⟩ P' lA' uA' l' u' (z.U *ᵥ x0) (z.c / z.w * r0) (z.par a) (h0.map (z.w * ·)))
    (hQ : P.Qᵀ = P.Q) (hQ' : P'.Qᵀ = P'.Q) (hpd : ∀ v, v ≠ 0 → 0 < v ⬝ᵥ (P.Q *ᵥ v))
    (hobj : ∀ y, P'.obj y = z.c * P.obj (z.T *ᵥ y)) (hphi : ∀ y, P'.phi y = z.w * P.phi (z.T *ᵥ y))
    (hX : ∀ y, Feasible P' lA' uA' l' u' y ↔ Feasible P lA uA l u (z.T *ᵥ y)) (hrnd : o.s.rnd = o'.s.rnd)
    {fuel fuel' : Nat} {rv rv' : RV} {o1 o1' : Obj (Ext K)} (h : runSolver e fuel o = .ok (some (rv, o1)))
    (h' : runSolver e' fuel' o' = .ok (some (rv', o1'))) (hown : Ref.Own rv) (hown' : Ref.Own rv') :
    rv = rv' ∧ Converted z o1.s o1'.s := by
  have hpsd : ∀ v, 0 ≤ v ⬝ᵥ (P.Q *ᵥ v) := by
    intro v
    by_cases hv : v = 0
    · rw [hv]; simp
    · exact (hpd v hv).le
  have hA := ref_units hz hQ hQ' hobj hphi hX
  have hq : P'.Q = z.c • (z.Tᵀ * P.Q * z.T) := congrArg Ref.Pb.Q hA
  have hpd' : ∀ v, v ≠ 0 → 0 < v ⬝ᵥ (P'.Q *ᵥ v) := by
    intro v hv
    rw [hq, Matrix.smul_mulVec, dotProduct_smul, conj_quad]
    refine mul_pos hz.c (hpd _ fun h0 => hv ?_)
    rw [← hz.UTv v, h0, Matrix.mulVec_zero]
  have hpsd' : ∀ v, 0 ≤ v ⬝ᵥ (P'.Q *ᵥ v) := by
    intro v
    by_cases hv : v = 0
    · rw [hv]; simp
    · exact (hpd' v hv).le
  obtain ⟨t, h1, h2⟩ := (C70_reference hJ hQ hpsd).1 _ _ h hown
  obtain ⟨t', h3, h4⟩ := (C70_reference hJ' hQ' hpsd').1 _ _ h' hown'
  have h5 := Ref.C83_run hz hp h1
  rw [← hA, hrnd] at h5
  have := Ref.run_unique (A := P'.ref lA' uA' l' u') hpd' (fun x y hx hy => feasible_mid hx hy) h5 h3
  injection this with this1 this2
  dsimp only at this1 this2
  subst this1 this2
  exact ⟨rfl, ⟨_, h2.x, h4.x⟩, ⟨_, h2.p, h4.p⟩, ⟨_, h2.r, h4.r⟩, ⟨_, h2.hist, h4.hist⟩, h2.a.trans h4.a.symm,
    h2.outer.trans h4.outer.symm, h2.inner.trans h4.inner.symm, h2.total.trans h4.total.symm, h2.used.trans h4.used.symm⟩

variable {o1 o1' : Obj (Ext K)} {b b' : Bnds (Ext K)}

/-- C83 for two new objects, each loaded (densely or sparsely) with its problem. -/
theorem C83_loads (hz : z.Fit) (hp : z.Plain a) (ho : Fresh o ⟨m, i, j⟩) (ho' : Fresh o' ⟨m, i', j'⟩)
    (hl : Loads e o o1 ⟨m, i, j⟩ P x0 b) (hl' : Loads e' o' o1' ⟨m, i', j'⟩ P' (z.U *ᵥ x0) b')
    (he : SolvesExactly e ⟨m, i, j⟩ P b) (he' : SolvesExactly e' ⟨m, i', j'⟩ P' b')
    (ha : a.Of e o.d.opts) (ha' : (z.par a).Of e' o'.d.opts) (f0 : a.factor ≠ 0) (hr : o.d.opts.rho0 = fin r0)
    (hr' : o'.d.opts.rho0 = fin (z.c / z.w * r0)) (hQ : P.Qᵀ = P.Q) (hQ' : P'.Qᵀ = P'.Q)
    (hpd : ∀ v, v ≠ 0 → 0 < v ⬝ᵥ (P.Q *ᵥ v)) (hobj : ∀ y, P'.obj y = z.c * P.obj (z.T *ᵥ y))
    (hphi : ∀ y, P'.phi y = z.w * P.phi (z.T *ᵥ y)) (hX : ∀ y, b'.Feas P' y ↔ b.Feas P (z.T *ᵥ y))
    {fuel fuel' : Nat} {rv rv' : RV} {o2 o2' : Obj (Ext K)} (h : runSolver e fuel o1 = .ok (some (rv, o2)))
    (h' : runSolver e' fuel' o1' = .ok (some (rv', o2'))) (hown : Ref.Own rv) (hown' : Ref.Own rv') :
    rv = rv' ∧ Converted z o2.s o2'.s := by
  obtain ⟨j1, s1, k1⟩ := hl.job ho he hr ha f0
  obtain ⟨j2, s2, k2⟩ := hl'.job ho' he' hr' ha' f0
  refine C83_same hz hp j1 j2 hQ hQ' hpd hobj hphi (fun y => ⟨fun hx => ?_, fun hx => ?_⟩) (k1.trans k2.symm) h h' hown hown'
  · exact s1.feasible j1.bounds ((hX y).mp (s2.feas j2.bounds hx))
  · exact s2.feasible j2.bounds ((hX y).mpr (s1.feas j1.bounds hx))

end

/-! ## which changes of variables are allowed -/

namespace Ref
variable {m : Nat}

/-- other units for the objective and the complementarity function, with the same variables -/
def Units.scale (m : Nat) (c w : K) : Units K m := ⟨1, 1, c, w, 1⟩

theorem C83_scale {c w : K} (hc : 0 < c) (hw : 0 < w) : (Units.scale m c w).Fit ∧ ∀ o, (Units.scale m c w).Plain o := by
  refine ⟨⟨by simp [Units.scale], by simp [Units.scale], hc, hw, one_pos, fun v b => ?_⟩, fun o => Or.inr rfl⟩
  simp [Units.scale]

/-- the variables in another order, with other signs and another common unit: old variable number `i` is `d i` times new
variable number `σ i` -/
def Units.reorder (σ : Equiv.Perm (Fin m)) (d : Fin m → K) (s c w : K) : Units K m where
  T := Matrix.of fun i k => if k = σ i then d i else 0
  U := Matrix.of fun k i => if k = σ i then (d i)⁻¹ else 0
  c := c
  w := w
  s := s

theorem Units.reorder_T (σ : Equiv.Perm (Fin m)) (d : Fin m → K) (s c w : K) (y : Fin m → K) (i : Fin m) :
    ((reorder σ d s c w).T *ᵥ y) i = d i * y (σ i) := by
  simp [reorder, Matrix.mulVec, dotProduct]

theorem Units.reorder_U (σ : Equiv.Perm (Fin m)) (d : Fin m → K) (s c w : K) (x : Fin m → K) (i : Fin m) :
    ((reorder σ d s c w).U *ᵥ x) (σ i) = (d i)⁻¹ * x i := by
  simp [reorder, Matrix.mulVec, dotProduct, σ.injective.eq_iff]

/-- C83: the order and the signs of the variables and a common unit of all variables can be changed -/
theorem C83_reorder (σ : Equiv.Perm (Fin m)) {d : Fin m → K} {s c w : K} (hs : 0 < s) (hc : 0 < c) (hw : 0 < w) (hd : ∀ i, |d i| = s) :
    (Units.reorder σ d s c w).Fit := by
  have hd0 : ∀ i, d i ≠ 0 := fun i h => by
    have := hd i
    rw [h, abs_zero] at this
    exact hs.ne this
  have hT : ∀ (v : Fin m → K) (i : Fin m), ((Units.reorder σ d s c w).Tᵀ *ᵥ v) (σ i) = d i * v i := by
    intro v i
    simp [Units.reorder, Matrix.mulVec, dotProduct, σ.injective.eq_iff]
  refine ⟨?_, ?_, hc, hw, hs, fun v b => ?_⟩
  · ext i k
    simp only [Units.reorder, Matrix.mul_apply, Matrix.one_apply, Matrix.of_apply]
    rw [Finset.sum_eq_single (σ i) (fun x _ hx => by simp [hx]) (by simp)]
    by_cases h : i = k
    · subst h; simp [hd0]
    · simp [h]
  · ext k l
    simp only [Units.reorder, Matrix.mul_apply, Matrix.one_apply, Matrix.of_apply]
    rw [Finset.sum_eq_single (σ.symm k) (fun x _ hx => ?_) (by simp)]
    · by_cases h : k = l
      · subst h; simp [hd0]
      · simp [h, Ne.symm h]
    · rw [if_neg, zero_mul]
      rintro rfl
      exact hx (σ.symm_apply_apply x).symm
  · have key : ∀ i, |((Units.reorder σ d s c w).Tᵀ *ᵥ v) (σ i)| < s * b ↔ |v i| < b := by
      intro i
      rw [hT, abs_mul, hd]
      exact mul_lt_mul_iff_right₀ hs
    constructor
    · exact fun h i => (key i).mp (h (σ i))
    · intro h k
      have := (key (σ.symm k)).mpr (h _)
      rwa [σ.apply_symm_apply] at this

end Ref

end LCQ
