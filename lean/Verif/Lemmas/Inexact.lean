import Verif.Spec.Inexact
import Verif.Props.Local
import Verif.Props.Perturb
import Verif.Props.Independent

/-!
# Helper lemmas for C86: inexact solutions of the subproblems
-/

set_option linter.unusedSectionVars false

namespace LCQ
open Scalar Ext
open scoped Matrix

variable {K : Type} [Field K] [LinearOrder K] [IsStrictOrderedRing K] {n : Dims} {P : Prob K n} {e : Env (Ext K)}
  {o : Obj (Ext K)} {x0 : Fin n.nV → K} {r0 f : K} {d : Data (Ext K)} {lA uA : Fin n.nA → Ext K} {l u : Fin n.nV → Ext K}

theorem near_lo {t : Ext K} {a b : K} (h1 : (fin a <=. t) = true) (h2 : (t <=. fin b) = true) : a ≤ b := by
  cases t with
  | fin t =>
    have h1 : a ≤ t := by simpa using h1
    have h2 : t ≤ b := by simpa using h2
    exact h1.trans h2
  | pinf => cases h2
  | ninf => cases h1
  | nan => cases h1

theorem near_mono {t : Ext K} {a b : K} (h : a ≤ b) : ((t <=. fin a) = true → (t <=. fin b) = true) ∧
    ((fin b <=. t) = true → (fin a <=. t) = true) := by
  cases t with
  | fin t =>
    constructor
    · intro h1
      have h1 : t ≤ a := by simpa using h1
      simpa using h1.trans h
    · intro h1
      have h1 : b ≤ t := by simpa using h1
      simpa using h.trans h1
  | pinf => exact ⟨id, id⟩
  | ninf => exact ⟨id, id⟩
  | nan => exact ⟨id, id⟩

/-- variational inequality for inexact solutions -/
theorem Qp.Near.vi {p : Qp K n} {ε : K} {x y : Fin n.nV → K} {z : Fin n.nA → K} {w : Fin n.nV → K} (h : p.Near ε x z w)
    (hy : p.Feas y) : -(ε * (l1 z + l1 w)) ≤ (p.Aᵀ *ᵥ z + w) ⬝ᵥ (y - x) := by
  rw [add_dotProduct, Matrix.mulVec_transpose, ← Matrix.dotProduct_mulVec, Matrix.mulVec_sub]
  have key : ∀ (l u : Ext K) (a b c : K), (0 < c → (fin (a - ε) <=. l) = true) → (c < 0 → (u <=. fin (a + ε)) = true) →
      (l <=. fin b) = true → (fin b <=. u) = true → -(ε * |c|) ≤ c * (b - a) := by
    intro l u a b c h1 h2 h3 h4
    rcases lt_trichotomy 0 c with hc | hc | hc
    · have := near_lo (h1 hc) h3
      rw [abs_of_pos hc]
      have := mul_le_mul_of_nonneg_left this hc.le
      linarith
    · rw [← hc]; simp
    · have := near_lo h4 (h2 hc)
      rw [abs_of_neg hc]
      have := mul_le_mul_of_nonpos_left this hc.le
      linarith
  have e : -(ε * (l1 z + l1 w)) = ∑ i, -(ε * |z i|) + ∑ i, -(ε * |w i|) := by
    rw [l1, l1, Finset.sum_neg_distrib, Finset.sum_neg_distrib, ← Finset.mul_sum, ← Finset.mul_sum]
    ring
  rw [e]
  refine add_le_add (Finset.sum_le_sum fun i _ => ?_) (Finset.sum_le_sum fun i _ => ?_)
  · exact key _ _ _ _ _ (h.zpos i) (h.zneg i) (hy.lA i) (hy.uA i)
  · exact key _ _ _ _ _ (h.wpos i) (h.wneg i) (hy.l i) (hy.u i)

theorem Qp.Kkt.near {p : Qp K n} {x : Fin n.nV → K} {z : Fin n.nA → K} {w : Fin n.nV → K} (h : p.Kkt x z w) : p.Near 0 x z w := by
  have self : ∀ a : K, (fin a <=. fin a) = true := fun a => by simp
  refine ⟨?_, ?_, ?_, ?_, fun i hi => ?_, fun i hi => ?_, fun i hi => ?_, fun i hi => ?_⟩
  · simpa using h.feas.lA
  · simpa using h.feas.uA
  · simpa using h.feas.l
  · simpa using h.feas.u
  · rw [h.zpos i hi, sub_zero]; exact self _
  · rw [h.zneg i hi, add_zero]; exact self _
  · rw [h.wpos i hi, sub_zero]; exact self _
  · rw [h.wneg i hi, add_zero]; exact self _

theorem Qp.Osqp.solves {p : Qp K n} {ε : K} {x : Fin n.nV → K} {y s : Fin n.nA → K} (h : p.Osqp ε x y s) : p.Near ε x (-y) 0 := by
  have a1 : ∀ i, s i ≤ (p.A *ᵥ x) i + ε ∧ (p.A *ᵥ x) i - ε ≤ s i := fun i => by
    have := abs_le.mp (h.near i)
    constructor <;> linarith [this.1, this.2]
  refine ⟨fun i => (near_mono (a1 i).1).1 (h.lA i), fun i => (near_mono (a1 i).2).2 (h.uA i), fun i => ?_, fun i => ?_, fun i hi => ?_,
    fun i hi => ?_, fun i hi => absurd hi (lt_irrefl _), fun i hi => absurd hi (lt_irrefl _)⟩
  · rw [h.free.1]; rfl
  · rw [h.free.2]; rfl
  · rw [h.neg i (by simpa using hi)]
    simpa using (a1 i).2
  · rw [h.pos i (by simpa using hi)]
    simpa using (a1 i).1

theorem slack_nonneg : 0 ≤ slack o := by
  rw [slack]
  split
  · exact epsK_pos.le
  · exact le_refl 0

/-- A linear inequality that holds for all answers of the QP solver holds for all iterates, up to the perturbation of the
steps. -/
theorem drift_row {c : Fin n.nV → K} {β : K} (hS : Setup e o n P x0 r0 f) (hB : BoundsAre o n lA uA l u)
    (hF : ∀ k q p, q.Is n p → IsSub P lA uA l u p → QpOk q.sub (e.qp k q) → ∀ x : Fin n.nV → K,
      (∀ i, (e.qp k q).x i.1 = fin (x i)) → c ⬝ᵥ x ≤ β)
    {s0 : St (Ext K)} (h0 : Enters e o d s0) (k : Nat) (s : St (Ext K)) (h : Passes e d s0 k s) :
    ∃ (x p : Fin n.nV → K) (a : K), s.xk = some (ev x) ∧ s.pk = some (ev p) ∧
      s.alpha = some (fin a) ∧ 0 < a ∧ a ≤ 1 ∧ (k = 0 → a = 1 ∧ c ⬝ᵥ (x + p) ≤ β) ∧
      (0 < k → c ⬝ᵥ (x + p) ≤ β + slack o * l1 c ∧ c ⬝ᵥ x ≤ β + k * (slack o * l1 c)) ∧
      c ⬝ᵥ (x + a • p) ≤ β + k * (slack o * l1 c) := by
  have ep : 0 ≤ slack o * l1 c := mul_nonneg slack_nonneg (l1_nonneg _)
  generalize hη : slack o * l1 c = η at ep
  have step : ∀ (k : Nat) (xs ps : Fin n.nV → K) (a' : K), 0 < a' → a' ≤ 1 →
      (k = 0 → a' = 1 ∧ c ⬝ᵥ (xs + ps) ≤ β) →
      (0 < k → c ⬝ᵥ (xs + ps) ≤ β + η ∧ c ⬝ᵥ xs ≤ β + k * η) → c ⬝ᵥ (xs + a' • ps) ≤ β + k * η := by
    intro k xs ps a' a0 a1 hz hpos
    rcases Nat.eq_zero_or_pos k with h | h
    · obtain ⟨rfl, hv2⟩ := hz h
      rw [one_smul, h]
      simpa using hv2
    · obtain ⟨hxp, hx⟩ := hpos h
      have k1 : (1 : K) ≤ k := by exact_mod_cast h
      have k2 : (1 : K) * η ≤ k * η := mul_le_mul_of_nonneg_right k1 ep
      have b0 : 0 ≤ 1 - a' := by linarith
      have e4 : c ⬝ᵥ (xs + a' • ps) = (1 - a') * (c ⬝ᵥ xs) + a' * (c ⬝ᵥ (xs + ps)) := by
        simp only [dotProduct_add, dotProduct_smul, smul_eq_mul]
        ring
      have c1 := mul_le_mul_of_nonneg_left (hxp.trans (add_le_add_right ((one_mul η).symm.le.trans k2) β)) a0.le
      have c2 := mul_le_mul_of_nonneg_left hx b0
      rw [e4]
      linarith
  induction h with
  | start =>
    obtain ⟨q, w, hq, _, hok, hw, hx, hp, ha, _⟩ := C48_first hS hB h0
    have hz : (0 : Nat) = 0 → (1 : K) = 1 ∧ c ⬝ᵥ (x0 + (w - x0)) ≤ β := fun _ => ⟨rfl, by
      rw [add_sub_cancel]; exact hF _ _ _ hq ⟨_, rfl⟩ hok w hw⟩
    exact ⟨x0, w - x0, 1, hx, hp, ha, one_pos, le_refl 1, hz,
      fun h => absurd h (lt_irrefl _), step 0 _ _ _ one_pos (le_refl 1) hz fun h => absurd h (lt_irrefl _)⟩
  | @pass k s1 s2 hr hp ih =>
    obtain ⟨x, p, a, h1, h2, h3, a0, a1, hz, hpos, hf⟩ := ih
    obtain ⟨q, xs, ps, w, a', r, b, e1, e2, e3, _, _, hq, _, hok, hw, hpk, hno, x', hx', hnear⟩ := C48_next hS hB ⟨s0, h0, hr.reach⟩ hp
    rw [e1] at h1
    rw [e2] at h2
    rw [e3] at h3
    have h1 : xs = x := ev_inj (Option.some.inj h1)
    have h2 : ps = p := ev_inj (Option.some.inj h2)
    have h3 : a' = a := by injection h3 with h3; injection h3
    subst h1 h2 h3
    obtain ⟨a2, ha2, p2, l2⟩ := C26_range hS ⟨s0, h0, (hr.pass hp).reach⟩
    have hd : ∀ i, |(x' - (xs + a' • ps)) i| ≤ slack o := by
      intro i
      rw [slack, Pi.sub_apply]
      by_cases hper : o.d.opts.perturb
      · rw [if_pos hper, abs_le]
        have := epsK_pos (K := K)
        rcases hnear i with h | h | h <;> rw [h] <;> constructor <;> linarith
      · have := hno (by simpa using hper)
        rw [hx'] at this
        have : x' = xs + a' • ps := ev_inj (Option.some.inj this)
        rw [if_neg hper, this, sub_self, abs_zero]
    have hd2 : c ⬝ᵥ (x' - (xs + a' • ps)) ≤ η := by
      rw [dotProduct_comm, ← hη]
      exact (abs_le.mp (dot_le hd)).2
    have hw2 := hF _ _ _ hq ⟨_, rfl⟩ hok w hw
    have hz2 : k + 1 = 0 → a2 = 1 ∧ c ⬝ᵥ (x' + (w - (xs + a' • ps))) ≤ β := fun h => by omega
    have hp2 : 0 < k + 1 → c ⬝ᵥ (x' + (w - (xs + a' • ps))) ≤ β + η ∧ c ⬝ᵥ x' ≤ β + (k + 1 : Nat) * η := by
      refine fun _ => ⟨?_, ?_⟩
      · have : x' + (w - (xs + a' • ps)) = w + (x' - (xs + a' • ps)) := by abel
        rw [this, dotProduct_add]
        linarith
      · have : x' = (xs + a' • ps) + (x' - (xs + a' • ps)) := by abel
        rw [this, dotProduct_add]
        push_cast
        linarith
    exact ⟨x', _, a2, hx', hpk, ha2, p2, l2, hz2, hp2, step _ _ _ _ p2 l2 hz2 hp2⟩

/-- the same for the point left by a run -/
theorem run_row (hS : Setup e o n P x0 r0 f) (hB : BoundsAre o n lA uA l u) {fuel : Nat} {rv : RV} {o' : Obj (Ext K)}
    (h : runSolver e fuel o = .ok (some (rv, o'))) {s0 : St (Ext K)} (h0 : Enters e o d s0) :
    ∃ (k : Nat) (x : Fin n.nV → K), o'.s.stats.iterTotal = k + 1 ∧ (k : Int) ≤ max 0 o.d.opts.maxIter ∧ o'.s.xk = some (ev x) ∧
      ∀ (c : Fin n.nV → K) (β : K), (∀ k q p, q.Is n p → IsSub P lA uA l u p → QpOk q.sub (e.qp k q) → ∀ x : Fin n.nV → K,
        (∀ i, (e.qp k q).x i.1 = fin (x i)) → c ⬝ᵥ x ≤ β) → c ⬝ᵥ x ≤ β + k * (slack o * l1 c) := by
  obtain ⟨rfl, s, hs, hp⟩ := run_end h h0
  obtain ⟨xs, ps, a', e1, e2, e3, hx⟩ := pass_end hS hs hp
  obtain ⟨off, h0', hd, ho, _⟩ := hS.head hs
  obtain ⟨s0, h0, hr⟩ := hs
  obtain ⟨k, hk⟩ := hr.passes
  obtain ⟨j, hl, hj, hm⟩ := hk.live h0
  refine ⟨k, _, ?_, by rw [← ho]; exact hm, hx, fun c β hF => ?_⟩
  · rcases hl.pass hj hp with ⟨s', k', he, _⟩ | ⟨q, k', he, hE, _⟩
    · cases he
    · injection he with he
      subst he
      exact_mod_cast hE.counts.2.1
  · obtain ⟨x, p, a, h1, h2, h3, _, _, _, _, hn⟩ := drift_row hS hB hF h0 _ _ hk
    rw [e1] at h1
    rw [e2] at h2
    rw [e3] at h3
    have h1 : xs = x := ev_inj (Option.some.inj h1)
    have h2 : ps = p := ev_inj (Option.some.inj h2)
    have h3 : a' = a := by injection h3 with h3; injection h3
    subst h1 h2 h3
    exact hn

end LCQ
