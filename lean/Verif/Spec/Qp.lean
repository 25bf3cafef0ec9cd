import Verif.Spec.Lcqp
import Verif.Lemmas.ExactDS
import Mathlib.Tactic.Linarith

/-!
# Quadratic programs and their solutions (specification)

What it means that a request sent to the QP solver describes a certain quadratic program, and that an answer solves it.
-/

namespace LCQ
open Scalar Ext
open scoped Matrix

/-- `min ½x'Hx + g'x` subject to `lA ≤ Ax ≤ uA` and `l ≤ x ≤ u`; the bounds may be infinite. -/
structure Qp (K : Type) (n : Dims) where
  /-- Hessian -/
  H : Matrix (Fin n.nV) (Fin n.nV) K
  /-- linear term -/
  g : Fin n.nV → K
  /-- constraint matrix -/
  A : Matrix (Fin n.nA) (Fin n.nV) K
  /-- lower constraint bounds -/
  lA : Fin n.nA → Ext K
  /-- upper constraint bounds -/
  uA : Fin n.nA → Ext K
  /-- lower bounds -/
  l : Fin n.nV → Ext K
  /-- upper bounds -/
  u : Fin n.nV → Ext K

section
variable {K : Type} [Field K] [LinearOrder K] {n : Dims}

namespace Qp
variable (p : Qp K n)

/-- objective -/
def obj (x : Fin n.nV → K) : K := p.g ⬝ᵥ x + x ⬝ᵥ (p.H *ᵥ x) / 2

/-- gradient of the objective (for symmetric `H`) -/
def grad (x : Fin n.nV → K) : Fin n.nV → K := p.H *ᵥ x + p.g

/-- feasibility -/
structure Feas (x : Fin n.nV → K) : Prop where
  lA : ∀ i, (p.lA i <=. fin ((p.A *ᵥ x) i)) = true
  uA : ∀ i, (fin ((p.A *ᵥ x) i) <=. p.uA i) = true
  l : ∀ i, (p.l i <=. fin (x i)) = true
  u : ∀ i, (fin (x i) <=. p.u i) = true

/-- first order optimality with the multipliers `z` of the constraints and `w` of the bounds; a multiplier is
positive only at the lower and negative only at the upper bound -/
structure Kkt (x : Fin n.nV → K) (z : Fin n.nA → K) (w : Fin n.nV → K) : Prop where
  feas : p.Feas x
  stat : p.grad x = p.Aᵀ *ᵥ z + w
  zpos : ∀ i, 0 < z i → p.lA i = fin ((p.A *ᵥ x) i)
  zneg : ∀ i, z i < 0 → p.uA i = fin ((p.A *ᵥ x) i)
  wpos : ∀ i, 0 < w i → p.l i = fin (x i)
  wneg : ∀ i, w i < 0 → p.u i = fin (x i)

end Qp

/-- Approximate weak stationarity of a point of the problem `P` with constraint bounds `lA`, `uA` (those of the linear
constraints followed by those of both sides of the complementarity pairs) and bounds `l`, `u`: the gradient of the
objective is, up to `t`, a combination of gradients of active constraints.  (All stationarity notions for problems with
complementarity constraints - weak, C-, M-, S-stationarity - require this.) -/
def Prob.WeakStat (P : Prob K n) (lA uA : Fin n.nA → Ext K) (l u : Fin n.nV → Ext K) (t : K) (x : Fin n.nV → K) : Prop :=
  ∃ (z : Fin n.nA → K) (w : Fin n.nV → K), (∀ i, |(P.gradObj x - P.AAᵀ *ᵥ z - w) i| < t) ∧
    (∀ i, lA i ≠ fin ((P.AA *ᵥ x) i) → uA i ≠ fin ((P.AA *ᵥ x) i) → z i = 0) ∧
    ∀ i, l i ≠ fin (x i) → u i ≠ fin (x i) → w i = 0

/-- the wrapper holds the Hessian `H` and the constraint matrix `A`; OSQP gets the upper triangle of `H` -/
def Sub.Holds (s : Sub (Ext K)) (n : Dims) (H : Matrix (Fin n.nV) (Fin n.nV) K) (A : Matrix (Fin n.nA) (Fin n.nV) K) : Prop :=
  match s with
  | .dense v c Q B => v = n.nV ∧ c = n.nA ∧ DnsIs (some Q) n.nV n.nV H ∧ DnsIs (some B) n.nA n.nV A
  | .sparse v c Q B => v = n.nV ∧ c = n.nA ∧ SpIs (some Q) n.nV n.nV H ∧ SpIs (some B) n.nA n.nV A
  | .osqp Q B => SpIs (some Q) n.nV n.nV (fun i j => if i ≤ j then H i j else 0) ∧ SpIs (some B) n.nA n.nV A

/-- box bounds of a request; OSQP knows none -/
def BoxIs (b : Option (List (Ext K))) (none' : Ext K) (v : Fin n.nV → Ext K) : Prop :=
  b = some (List.ofFn v) ∨ (b = none ∧ v = fun _ => none')

/-- the request describes the program `p` -/
structure Req.Is (q : Req (Ext K)) (n : Dims) (p : Qp K n) : Prop where
  sub : q.sub.Holds n p.H p.A
  g : q.g = ev p.g
  lbA : q.lbA = List.ofFn p.lA
  ubA : q.ubA = List.ofFn p.uA
  lb : BoxIs q.lb ninf p.l
  ub : BoxIs q.ub pinf p.u

/-- the answer consists of the point `x` and the multipliers `z`, `w`: qpOASES returns those of the bounds followed by
those of the constraints, OSQP the negatives of those of the constraints -/
def Resp.Is (r : Resp (Ext K)) (s : Sub (Ext K)) (n : Dims) (x : Fin n.nV → K) (z : Fin n.nA → K) (w : Fin n.nV → K) : Prop :=
  (∀ i, r.x i.1 = fin (x i)) ∧
  match s with
  | .osqp _ _ => (∀ i, r.y i.1 = fin (-z i)) ∧ w = 0
  | _ => (∀ i, r.y i.1 = fin (w i)) ∧ ∀ i, r.y (n.nV + i.1) = fin (z i)

/-- Every successfully answered request for a program in `S` is answered by a point satisfying the first order
conditions. -/
def ExactOn (e : Env (Ext K)) (n : Dims) (S : Qp K n → Prop) : Prop :=
  ∀ k q p, q.Is n p → S p → QpOk q.sub (e.qp k q) → ∃ x z w, (e.qp k q).Is q.sub n x z w ∧ p.Kkt x z w

/-- Every successfully answered request for a program in `S` is answered by a feasible point. -/
def FeasOn (e : Env (Ext K)) (n : Dims) (S : Qp K n → Prop) : Prop :=
  ∀ k q p, q.Is n p → S p → QpOk q.sub (e.qp k q) → ∀ x : Fin n.nV → K, (∀ i, (e.qp k q).x i.1 = fin (x i)) → p.Feas x

end

/-! ## adequacy of the first order conditions -/

section
variable {K : Type} [Field K] [LinearOrder K] [IsStrictOrderedRing K] {n : Dims} {p : Qp K n}

/-- variational inequality at a point satisfying the first order conditions -/
theorem Qp.Kkt.vi {x : Fin n.nV → K} {z : Fin n.nA → K} {w : Fin n.nV → K} (h : p.Kkt x z w) {y : Fin n.nV → K}
    (hy : p.Feas y) : 0 ≤ p.grad x ⬝ᵥ (y - x) := by
  rw [h.stat, add_dotProduct, Matrix.mulVec_transpose, ← Matrix.dotProduct_mulVec, Matrix.mulVec_sub]
  have key : ∀ (l u : Ext K) (a b c : K), (0 < c → l = fin a) → (c < 0 → u = fin a) → (l <=. fin b) = true →
      (fin b <=. u) = true → 0 ≤ c * (b - a) := by
    intro l u a b c h1 h2 h3 h4
    rcases lt_trichotomy 0 c with hc | hc | hc
    · rw [h1 hc] at h3
      have : a ≤ b := by simpa using h3
      exact mul_nonneg hc.le (by linarith)
    · rw [← hc, zero_mul]
    · rw [h2 hc] at h4
      have : b ≤ a := by simpa using h4
      exact mul_nonneg_of_nonpos_of_nonpos hc.le (by linarith)
  refine add_nonneg (Finset.sum_nonneg fun i _ => ?_) (Finset.sum_nonneg fun i _ => ?_)
  · exact key _ _ _ _ _ (h.zpos i) (h.zneg i) (hy.lA i) (hy.uA i)
  · exact key _ _ _ _ _ (h.wpos i) (h.wneg i) (hy.l i) (hy.u i)

/-- for a symmetric positive semidefinite Hessian the first order conditions characterise global solutions -/
theorem Qp.Kkt.min {x : Fin n.nV → K} {z : Fin n.nA → K} {w : Fin n.nV → K} (h : p.Kkt x z w) (hs : p.Hᵀ = p.H)
    (hp : ∀ v, 0 ≤ v ⬝ᵥ (p.H *ᵥ v)) {y : Fin n.nV → K} (hy : p.Feas y) : p.obj x ≤ p.obj y := by
  have h1 := h.vi hy
  have h2 := hp (y - x)
  have h3 : x ⬝ᵥ (p.H *ᵥ y) = y ⬝ᵥ (p.H *ᵥ x) := by
    rw [Matrix.dotProduct_mulVec, ← Matrix.mulVec_transpose, hs, dotProduct_comm]
  simp only [Qp.grad, add_dotProduct, dotProduct_sub, Matrix.mulVec_sub, sub_dotProduct] at h1 h2
  rw [dotProduct_comm (p.H *ᵥ x) y, dotProduct_comm (p.H *ᵥ x) x] at h1
  simp only [Qp.obj]
  linarith

/-- a convex combination of feasible points is feasible -/
theorem Qp.Feas.comb {x y : Fin n.nV → K} (hx : p.Feas x) (hy : p.Feas y) {a : K} (h0 : 0 ≤ a) (h1 : a ≤ 1) :
    p.Feas (x + a • (y - x)) := by
  have lo : ∀ (l : Ext K) (u v : K), (l <=. fin u) = true → (l <=. fin v) = true → (l <=. fin (u + a * (v - u))) = true := by
    intro l u v hu hv
    cases l with
    | fin l =>
      have hu : l ≤ u := by simpa using hu
      have hv : l ≤ v := by simpa using hv
      have : l ≤ u + a * (v - u) := by nlinarith
      simpa using this
    | pinf => exact hu
    | ninf => exact hu
    | nan => exact hu
  have hi : ∀ (l : Ext K) (u v : K), (fin u <=. l) = true → (fin v <=. l) = true → (fin (u + a * (v - u)) <=. l) = true := by
    intro l u v hu hv
    cases l with
    | fin l =>
      have hu : u ≤ l := by simpa using hu
      have hv : v ≤ l := by simpa using hv
      have : u + a * (v - u) ≤ l := by nlinarith
      simpa using this
    | pinf => exact hu
    | ninf => exact hu
    | nan => exact hu
  have hA : ∀ i, (p.A *ᵥ (x + a • (y - x))) i = (p.A *ᵥ x) i + a * ((p.A *ᵥ y) i - (p.A *ᵥ x) i) := by
    intro i
    rw [Matrix.mulVec_add, Matrix.mulVec_smul, Matrix.mulVec_sub]
    simp
  refine ⟨fun i => ?_, fun i => ?_, fun i => ?_, fun i => ?_⟩
  · rw [hA]; exact lo _ _ _ (hx.lA i) (hy.lA i)
  · rw [hA]; exact hi _ _ _ (hx.uA i) (hy.uA i)
  · exact lo _ _ _ (hx.l i) (hy.l i)
  · exact hi _ _ _ (hx.u i) (hy.u i)

end

end LCQ
