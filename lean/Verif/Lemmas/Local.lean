import Verif.Props.Feasible

/-!
# Helper lemmas for C68: the subproblem solved last, and the variational inequality it implies
-/

set_option linter.unusedSectionVars false

namespace LCQ
open Scalar Ext
open scoped Matrix

/-- sum of the absolute values -/
def l1 {K : Type} [Field K] [LinearOrder K] {m : Nat} (v : Fin m → K) : K := ∑ i, |v i|

variable {K : Type} [Field K] [LinearOrder K] [IsStrictOrderedRing K] {n : Dims} {P : Prob K n} {e : Env (Ext K)}
  {o : Obj (Ext K)} {x0 : Fin n.nV → K} {r0 f : K} {d : Data (Ext K)} {lA uA : Fin n.nA → Ext K} {l u : Fin n.nV → Ext K}

theorem l1_nonneg {m : Nat} (v : Fin m → K) : 0 ≤ l1 v := Finset.sum_nonneg fun _ _ => abs_nonneg _

theorem l1_add {m : Nat} (v w : Fin m → K) : l1 (v + w) ≤ l1 v + l1 w := by
  rw [l1, l1, l1, ← Finset.sum_add_distrib]
  exact Finset.sum_le_sum fun i _ => abs_add_le _ _

theorem l1_smul {m : Nat} (a : K) (v : Fin m → K) : l1 (a • v) = |a| * l1 v := by
  rw [l1, l1, Finset.mul_sum]
  exact Finset.sum_congr rfl fun i _ => by simp [abs_mul]

theorem l1_bound {m : Nat} {v : Fin m → K} {t : K} (h : ∀ i, |v i| ≤ t) : l1 v ≤ m * t := by
  have := Finset.sum_le_sum fun i (_ : i ∈ Finset.univ) => h i
  simpa [l1] using this

/-- a scalar product with a vector of small entries -/
theorem dot_le {m : Nat} {v w : Fin m → K} {t : K} (h : ∀ i, |v i| ≤ t) : |v ⬝ᵥ w| ≤ t * l1 w := by
  rw [dotProduct, l1, Finset.mul_sum]
  refine (Finset.abs_sum_le_sum_abs _ _).trans (Finset.sum_le_sum fun i _ => ?_)
  rw [abs_mul]
  exact mul_le_mul_of_nonneg_right (h i) (abs_nonneg _)

/-- The variational inequality.  `G` is a gradient, `c` a vector with `c (y - v) ≥ -η`, and `G - c` is small; the point
`x + a p` lies on the way from `x` to `x + p`, which is close to `v`. -/
theorem vi_near {m : Nat} {v c G x p y : Fin m → K} {a t δ η : K} (hvi : -η ≤ c ⬝ᵥ (y - v)) (hG : ∀ i, |(G - c) i| ≤ t)
    (h1 : a ≤ 1) (hv : ∀ i, |(v - (x + p)) i| ≤ δ) (hδ : 0 ≤ δ) (hstep : a = 1 ∨ G ⬝ᵥ p = 0) :
    -(t * (l1 (y - (x + a • p)) + (1 - a) * l1 p)) - δ * (l1 G + m * t) - η ≤ G ⬝ᵥ (y - (x + a • p)) := by
  have e1 : G ⬝ᵥ (y - (x + a • p)) = (G - c) ⬝ᵥ (y - (x + a • p)) + c ⬝ᵥ (y - v) + c ⬝ᵥ (v - (x + p)) + (1 - a) * (c ⬝ᵥ p) := by
    simp only [sub_dotProduct, dotProduct_sub, dotProduct_add, dotProduct_smul, smul_eq_mul]
    ring
  have b1 := abs_le.mp (dot_le hG (w := y - (x + a • p)))
  have hc : l1 c ≤ l1 G + m * t := by
    have h2 := l1_add G (-(G - c))
    have h3 : l1 (-(G - c)) ≤ m * t := l1_bound fun i => by rw [Pi.neg_apply, abs_neg]; exact hG i
    have e2 : G + -(G - c) = c := by abel
    rw [e2] at h2
    linarith
  have b2 := abs_le.mp (dot_le hv (w := c))
  rw [dotProduct_comm] at b2
  have b2' : δ * l1 c ≤ δ * (l1 G + m * t) := mul_le_mul_of_nonneg_left hc hδ
  have b3 : -((1 - a) * (t * l1 p)) ≤ (1 - a) * (c ⬝ᵥ p) := by
    rcases hstep with rfl | hs
    · simp
    · have h2 := abs_le.mp (dot_le hG (w := p))
      have e2 : c ⬝ᵥ p = -((G - c) ⬝ᵥ p) := by rw [sub_dotProduct, hs]; ring
      have h3 : -(t * l1 p) ≤ c ⬝ᵥ p := by rw [e2]; linarith [h2.2]
      have := mul_le_mul_of_nonneg_left h3 (by linarith : 0 ≤ 1 - a)
      linarith
  rw [e1]
  have e4 : (1 - a) * (t * l1 p) = t * ((1 - a) * l1 p) := by ring
  rw [mul_add t]
  rw [e4] at b3
  linarith [b1.1, b2.1]

/-- The variational inequality.  `G` is a gradient, `c` the combination of the constraint gradients at the solution `v` of
a subproblem, and `G - c` is small; the point `x'` lies on the way from `x` to `x + p`, which is close to `v`. -/
theorem vi_of {q : Qp K n} {v w : Fin n.nV → K} {z : Fin n.nA → K} (hk : q.Kkt v z w) {G x p : Fin n.nV → K} {a t δ : K}
    (hG : ∀ i, |(G - q.Aᵀ *ᵥ z - w) i| ≤ t) (_h0 : 0 ≤ a) (h1 : a ≤ 1) (hv : ∀ i, |(v - (x + p)) i| ≤ δ)
    (hstep : a = 1 ∨ G ⬝ᵥ p = 0) {y : Fin n.nV → K} (hy : q.Feas y) (_ht : 0 ≤ t) :
    -(t * (l1 (y - (x + a • p)) + (1 - a) * l1 p)) - δ * (l1 G + n.nV * t) ≤ G ⬝ᵥ (y - (x + a • p)) := by
  have hvi := hk.vi hy
  rw [hk.stat] at hvi
  have hG : ∀ i, |(G - (q.Aᵀ *ᵥ z + w)) i| ≤ t := fun i => by rw [← sub_sub]; exact hG i
  rcases Nat.eq_zero_or_pos n.nV with hn | hn
  · have em : IsEmpty (Fin n.nV) := by rw [hn]; infer_instance
    have : ∀ s : Fin n.nV → K, l1 s = 0 := fun s => by simp [l1]
    have d0 : ∀ s s' : Fin n.nV → K, s ⬝ᵥ s' = 0 := fun s s' => by simp [dotProduct]
    rw [this, this, this, d0, hn]
    simp
  have hδ : 0 ≤ δ := (abs_nonneg _).trans (hv ⟨0, hn⟩)
  have := vi_near (η := 0) (by rw [neg_zero]; exact hvi) hG h1 hv hδ hstep
  rwa [sub_zero] at this

/-- how far a perturbation moves each coordinate -/
def slack (o : Obj (Ext K)) : K := if o.d.opts.perturb then epsK else 0

theorem epsK_pos : (0 : K) < epsK := by rw [epsK]; positivity

theorem perturbed_le {k : Nat} (x : Fin n.nV → K) (i : Fin n.nV) : |(x - perturbed e k x) i| ≤ epsK := by
  have := epsK_pos (K := K)
  rw [Pi.sub_apply]
  rcases perturbed_cases (e := e) (k := k) x i with h | h | h <;> rw [h]
  · rw [sub_sub_cancel, abs_of_pos this]
  · rw [sub_self, abs_zero]; exact this.le
  · rw [sub_add_cancel_left, abs_neg, abs_of_pos this]

/-- Every successfully answered request for a program in `S` is answered by point and multipliers in the relation `R`. -/
def AnsOn (e : Env (Ext K)) (n : Dims) (S : Qp K n → Prop) (R : Qp K n → (Fin n.nV → K) → (Fin n.nA → K) → (Fin n.nV → K) → Prop) :
    Prop :=
  ∀ k q p, q.Is n p → S p → QpOk q.sub (e.qp k q) → ∃ x z w, (e.qp k q).Is q.sub n x z w ∧ R p x z w

/-- a successful call for a subproblem leaves its solution and multipliers -/
theorem ans_rel {R : Qp K n → (Fin n.nV → K) → (Fin n.nA → K) → (Fin n.nV → K) → Prop} (hE : AnsOn e n (IsSub P lA uA l u) R) {off : Nat} (hd : DataOK d n off) {c : Nat} {q : Req (Ext K)}
    {g v : Fin n.nV → K} {y : Fin (off + n.nA) → K} (hsub : d.sub = some q.sub) (hq : q.Is n (P.subQp lA uA l u g))
    (hok : QpOk q.sub (e.qp c q)) (hans : AnsIs q.sub (e.qp c q) v y) :
    R (P.subQp lA uA l u g) v (yLin y) (yBox y) := by
  obtain ⟨v', z, w, hr, hk⟩ := hE c q _ hq ⟨g, rfl⟩ hok
  have ev : v' = v := by
    funext i
    have := (hr.1 i).symm.trans (hans.1 i)
    injection this
  have ez : yLin y = z ∧ yBox y = w := by
    have h1 := hr.2
    have h2 := hans.2
    rcases hd.sub with ⟨Q, A, hs, hoff⟩ | ⟨Q, A, hs, hoff⟩ | ⟨Q, A, hs, _, hAm, hoff, _⟩
    · rw [hsub] at hs
      injection hs with hs
      rw [hs] at h1 h2
      dsimp only at h1 h2
      subst hoff
      constructor
      · funext i
        have := (h1.2 i).symm.trans (h2 ⟨n.nV + i, by have := i.2; omega⟩)
        injection this with this
        exact this.symm
      · funext i
        have := (h1.1 i).symm.trans (h2 ⟨i, by have := i.2; omega⟩)
        injection this with this
        simp only [yBox, dif_pos]
        exact this.symm
    · rw [hsub] at hs
      injection hs with hs
      rw [hs] at h1 h2
      dsimp only at h1 h2
      subst hoff
      constructor
      · funext i
        have := (h1.2 i).symm.trans (h2 ⟨n.nV + i, by have := i.2; omega⟩)
        injection this with this
        exact this.symm
      · funext i
        have := (h1.1 i).symm.trans (h2 ⟨i, by have := i.2; omega⟩)
        injection this with this
        simp only [yBox, dif_pos]
        exact this.symm
    · rw [hsub] at hs
      injection hs with hs
      rw [hs] at h1 h2
      dsimp only at h1 h2
      have hoff : off = 0 := by omega
      subst hoff
      constructor
      · funext i
        have h3 := h2 ⟨0 + i, by have := i.2; omega⟩
        dsimp only at h3
        have h4 : (e.qp c q).y (0 + i.1) = fin (-z i) := by rw [Nat.zero_add]; exact h1.1 i
        rw [h4, fin_neg, neg_neg] at h3
        injection h3 with h3
        exact h3.symm
      · rw [h1.2]
        funext i
        have := i.2
        simp only [yBox]
        rw [dif_neg (by omega)]
        rfl
  obtain ⟨ez1, ez2⟩ := ez
  subst ev ez1 ez2
  exact hk

/-- the same for exact solutions -/
theorem ans_kkt (hE : ExactOn e n (IsSub P lA uA l u)) {off : Nat} (hd : DataOK d n off) {c : Nat} {q : Req (Ext K)}
    {g v : Fin n.nV → K} {y : Fin (off + n.nA) → K} (hsub : d.sub = some q.sub) (hq : q.Is n (P.subQp lA uA l u g))
    (hok : QpOk q.sub (e.qp c q)) (hans : AnsIs q.sub (e.qp c q) v y) :
    (P.subQp lA uA l u g).Kkt v (yLin y) (yBox y) := ans_rel (R := Qp.Kkt) hE hd hsub hq hok hans

/-- The state at the head of the main loop and the subproblem solved last: point and multipliers of the
answer `v` are in the relation `R`, the full step leads to `v` (up to the perturbation), and a shorter step is the one on which the solver's
directional derivative vanishes. -/
theorem head_rel {R : Qp K n → (Fin n.nV → K) → (Fin n.nA → K) → (Fin n.nV → K) → Prop} (hS : Setup e o n P x0 r0 f)
    (hB : BoundsAre o n lA uA l u) (hE : AnsOn e n (IsSub P lA uA l u) R)
    {s : St (Ext K)} (h : AtHead e o d s) :
    ∃ (off : Nat) (r : K) (b : Bool) (x p : Fin n.nV → K) (a : K) (y : Fin (off + n.nA) → K) (v g : Fin n.nV → K),
      DataOK d n off ∧ DataIs d n P off ∧ d.opts = o.d.opts ∧ d.sparse = o.d.sparse ∧ XSt d n P off s r b x p a y ∧ OutB s b ∧
      R (P.subQp lA uA l u g) v (yLin y) (yBox y) ∧ (∀ i, |(v - (x + p)) i| ≤ slack o) ∧ 0 < a ∧ a ≤ 1 ∧
      (a = 1 ∨ p ⬝ᵥ (tr d.sparse (P.Q + r • P.C) *ᵥ x + P.gT b r) + a * (p ⬝ᵥ ((P.Q + r • P.C) *ᵥ p)) = 0) := by
  have hh := h
  obtain ⟨s0, h0, h⟩ := h
  cases h with
  | start =>
    obtain ⟨off, h1, h2, h3, h4, v, y, sub, a, b, y0, h5, h6, hs, ha, hb, h7, h8⟩ :=
      enters_x hS.ready hS.holds hS.x0 hS.rho0 hS.ans h0
    have hq := (hS.sends hB hh).is hs ha hb true (if d.opts.zeroFirst then P.g else r0 • (P.C *ᵥ x0) + P.g) o.s.xk y0
    refine ⟨off, r0, false, x0, v - x0, 1, y, v, _, h1, h2, h3, h4, h5, h6, ans_rel hE h1 hs hq h7 h8, ?_, one_pos, le_refl 1, Or.inl rfl⟩
    intro i
    rw [add_sub_cancel, sub_self, Pi.zero_apply, abs_zero, slack]
    split
    · exact epsK_pos.le
    · exact le_refl 0
  | pass hr hp =>
    obtain ⟨off, h0', hd, ho, hsp, r, b, x, p, a, y, hx, hb⟩ := hS.head ⟨s0, h0, hr⟩
    obtain ⟨r', b', c, k, x', v, y', sub, la, ua, _, hb', hs, hla, hua, hxe, hx', hok, hv, rfl, _⟩ :=
      pass_x h0' hd hS.ans (by rw [ho]; exact hS.factor) hS.f0 hx hb hp
    have hq := (hS.sends hB hh).is hs hla hua false (r' • (P.C *ᵥ (x + a • p)) + P.gT b' r') none none
    refine ⟨off, r', b', x', _, _, y', v, _, h0', hd, ho, hsp, hx', hb', ans_rel hE h0' hs hq hok hv, ?_, (alphaOf_mem _ _).1,
      (alphaOf_mem _ _).2, ?_⟩
    · intro i
      have e1 : v - (x' + (v - (x + a • p))) = (x + a • p) - x' := by abel
      rw [e1, hxe, slack, ho]
      split
      · exact perturbed_le _ _
      · rw [sub_self, Pi.zero_apply, abs_zero]
    · unfold alphaOf
      split
      · rename_i hc
        rcases le_total 1 (-((v - (x + a • p)) ⬝ᵥ (tr d.sparse (P.Q + r' • P.C) *ᵥ x' + P.gT b' r')) /
          ((v - (x + a • p)) ⬝ᵥ ((P.Q + r' • P.C) *ᵥ (v - (x + a • p))))) with hm | hm
        · exact Or.inl (min_eq_right hm)
        · right
          rw [min_eq_left hm, div_mul_cancel₀ _ hc.1.ne']
          ring
      · exact Or.inl rfl

/-- the same for exact solutions -/
theorem head_last (hS : Setup e o n P x0 r0 f) (hB : BoundsAre o n lA uA l u) (hE : ExactOn e n (IsSub P lA uA l u))
    {s : St (Ext K)} (h : AtHead e o d s) :
    ∃ (off : Nat) (r : K) (b : Bool) (x p : Fin n.nV → K) (a : K) (y : Fin (off + n.nA) → K) (v g : Fin n.nV → K),
      DataOK d n off ∧ DataIs d n P off ∧ d.opts = o.d.opts ∧ d.sparse = o.d.sparse ∧ XSt d n P off s r b x p a y ∧ OutB s b ∧
      (P.subQp lA uA l u g).Kkt v (yLin y) (yBox y) ∧ (∀ i, |(v - (x + p)) i| ≤ slack o) ∧ 0 < a ∧ a ≤ 1 ∧
      (a = 1 ∨ p ⬝ᵥ (tr d.sparse (P.Q + r • P.C) *ᵥ x + P.gT b r) + a * (p ⬝ᵥ ((P.Q + r • P.C) *ᵥ p)) = 0) :=
  head_rel (R := Qp.Kkt) hS hB hE h

/-- a successful pass leaves step and step length as they were -/
theorem pass_success_step {off : Nat} {s : St (Ext K)} {r : K} {b : Bool} {x p : Fin n.nV → K} {a : K} {y : Fin (off + n.nA) → K}
    (hd : DataIs d n P off) (hs : XSt d n P off s r b x p a y) {q : RV × St (Ext K)}
    (h : pass e d s = .ok (.inr q)) (hq : q.1 = .successfulReturn) : q.2.pk = some (ev p) ∧ q.2.alpha = some (fin a) := by
  obtain ⟨s1, s2, s3, h1, h2, h3, ⟨_, hco, q', hq', hqq⟩ | ⟨s4, t, rho, h4, _, _, h5⟩⟩ := pass_inv h
  · injection hqq with hqq
    subst hqq
    obtain ⟨x1, _, _, _⟩ := advance_x hd hs h1
    obtain ⟨hh, gk, rfl⟩ := no_update_before_success h2 h3 hco
    rw [accept, transformDuals_x hd (by exact x1.rho) (by exact x1.xk) (by exact x1.yk)] at hq'
    simp only [ok_bind, bind_eq_ok, initd_eq_ok] at hq'
    obtain ⟨s6, h6, t, ht, hq'⟩ := hq'
    obtain ⟨t', _, rfl⟩ := determine_inv h6
    injection hq' with hq'
    rw [← hq']
    split
    · exact ⟨x1.pk, x1.alpha⟩
    · exact ⟨x1.pk, x1.alpha⟩
  · exfalso
    rcases h5 with ⟨_, h5⟩ | ⟨_, _, h5⟩ | ⟨_, _, h5⟩
    · injection h5 with h5; rw [h5] at hq; cases hq
    · injection h5 with h5; rw [h5] at hq; cases hq
    · obtain ⟨gk, q', _, ⟨hne, h6⟩ | ⟨_, _, _, _, _, ⟨⟩⟩⟩ := nextStep_inv h5
      injection h6 with h6
      rw [h6] at hq
      exact hne hq

end LCQ
