import Verif.Lemmas.Apex
import Verif.Props.Guess

/-!
# The penalty parameter stays bounded
-/

set_option linter.unusedSectionVars false

namespace LCQ.Ref
open scoped Matrix

variable {K : Type} [Field K] [LinearOrder K] [IsStrictOrderedRing K] {m : Nat} {A : Pb K m} {o : Par K} {c0 : K} {y : Fin m → K}

/-- the state that goes on keeps the penalty parameter or has a larger one, and keeps it where the complementarity function
is below its tolerance -/
structure Grows (A : Pb K m) (o : Par K) (s t : St K m) : Prop where
  x : t.x = (move s).x
  low : s.r ≤ t.r
  high : t.r ≤ s.r * o.factor * o.factor
  keep : t.outer = s.outer → t.r = s.r
  more : s.outer ≤ t.outer
  tol : A.phi (move s).x < o.complTol → t.r = s.r ∧ t.outer = s.outer

theorem dyn_cases (t : St K m) : (dyn A o t).x = t.x ∧ (((dyn A o t).r = t.r ∧ (dyn A o t).outer = t.outer) ∨
    ((dyn A o t).r = t.r * o.factor ∧ (dyn A o t).outer = t.outer + 1 ∧ ¬ A.phi t.x < o.complTol)) := by
  unfold dyn
  split_ifs with h1 h2 h3
  · exact ⟨rfl, Or.inl ⟨rfl, rfl⟩⟩
  · exact ⟨rfl, Or.inl ⟨rfl, rfl⟩⟩
  · exact ⟨rfl, Or.inl ⟨rfl, rfl⟩⟩
  · exact ⟨rfl, Or.inr ⟨rfl, rfl, fun h => h3 (Or.inl h)⟩⟩

theorem head_grows (hf : 1 < o.factor) {s : St K m} (hr : 0 < s.r) :
    (∀ t, head A o s = .inl t → Grows A o s t) ∧
    ∀ u, head A o s = .inr (.maxPenaltyReached, u) → Grows A o s u ∧ o.maxRho < u.r := by
  obtain ⟨d1, d2⟩ := dyn_cases (A := A) (o := o) (move s)
  have e1 : (move s).r = s.r := rfl
  have e2 : (move s).outer = s.outer := rfl
  rw [e1, e2] at d2
  have k1 : s.r ≤ s.r * o.factor := by nlinarith
  have k2 : s.r * o.factor ≤ s.r * o.factor * o.factor := by nlinarith [mul_pos hr (lt_trans one_pos hf)]
  have main : ∀ w, w = (if Stat A o (move s) then bump o (dyn A o (move s)) else dyn A o (move s)) →
      ¬ (Stat A o (move s) ∧ A.phi (dyn A o (move s)).x < o.complTol) → Grows A o s w := by
    rintro w rfl hn
    rw [d1] at hn
    by_cases hS : Stat A o (move s)
    · rw [if_pos hS]
      have hp : ¬ A.phi (move s).x < o.complTol := fun h => hn ⟨hS, h⟩
      refine ⟨d1, ?_, ?_, fun h => ?_, ?_, fun h => absurd h hp⟩
      · change s.r ≤ (dyn A o (move s)).r * o.factor
        rcases d2 with ⟨e, _⟩ | ⟨e, _, _⟩ <;> rw [e] <;> linarith
      · change (dyn A o (move s)).r * o.factor ≤ _
        rcases d2 with ⟨e, _⟩ | ⟨e, _, _⟩ <;> rw [e]
        exact k2
      · exfalso
        change (dyn A o (move s)).outer + 1 = s.outer at h
        rcases d2 with ⟨_, e⟩ | ⟨_, e, _⟩ <;> rw [e] at h <;> omega
      · change s.outer ≤ (dyn A o (move s)).outer + 1
        rcases d2 with ⟨_, e⟩ | ⟨_, e, _⟩ <;> rw [e] <;> omega
    · rw [if_neg hS]
      rcases d2 with ⟨e, e'⟩ | ⟨e, e', hp⟩
      · exact ⟨d1, e.ge, by rw [e]; linarith, fun _ => e, e'.ge, fun _ => ⟨e, e'⟩⟩
      · refine ⟨d1, by rw [e]; exact k1, by rw [e]; exact k2, fun h => ?_, by omega, fun h => absurd h hp⟩
        omega
  simp only [head]
  generalize hw : (if Stat A o (move s) then bump o (dyn A o (move s)) else dyn A o (move s)) = w
  constructor
  · intro t ht
    split_ifs at ht with h1 h2 h3
    injection ht with ht
    rw [← ht]
    exact main w hw.symm h1
  · intro u hu
    split_ifs at hu with h1 h2 h3
    all_goals injection hu with hu; injection hu with hu1 hu2
    · cases hu1
    · cases hu1
    · rw [← hu2]
      exact ⟨main w hw.symm h1, h3⟩

/-- constants -/
structure Consts (A : Pb K m) (y : Fin m → K) (f τ r0 G M D F δ r1 : K) (N : Nat) : Prop where
  pd : ∀ v, v ≠ 0 → 0 < v ⬝ᵥ (A.Q *ᵥ v)
  f1 : 1 < f
  tau : 0 < τ
  pos : 0 < r0
  atY : A.obj y ≤ M
  level : ∀ x, A.X x → A.obj x + r0 * (x ⬝ᵥ (A.C *ᵥ x) / 2) ≤ G → A.obj x ≤ M
  diff : ∀ x z, A.X x → A.X z → A.obj x ≤ M → A.obj z ≤ M → A.obj x - A.obj z ≤ D
  compl : ∀ x, A.X x → A.obj x ≤ M → A.phi x ≤ F
  tF : τ ≤ F
  delta : δ * (16 * F) = τ * τ
  r01 : r0 < r1
  rD : 2 * D ≤ δ * r1
  steps : F ≤ N * δ

/-- what holds at the head of the loop -/
structure Inv (A : Pb K m) (f τ r0 G M F δ r1 : K) (N : Nat) (s : St K m) : Prop where
  x : A.X (move s).x
  obj : A.obj (move s).x ≤ M
  r : 0 < s.r
  outer : 0 ≤ s.outer
  early : s.outer = 0 → s.r = r0 ∧ A.obj (move s).x + r0 * ((move s).x ⬝ᵥ (A.C *ᵥ (move s).x) / 2) ≤ G
  pen : s.r < r1 ∨ (∃ k : Nat, k * δ + A.phi (move s).x ≤ F ∧ s.r ≤ r1 * f * f * (f * f) ^ k) ∨
    (A.phi (move s).x < τ ∧ s.r ≤ r1 * f * f * (f * f) ^ N)

variable {f τ r0 G M D F δ r1 : K} {N : Nat}

theorem Consts.dpos (c : Consts A y f τ r0 G M D F δ r1 N) : 0 < δ := by
  have h1 : 0 < τ * τ := mul_pos c.tau c.tau
  rw [← c.delta] at h1
  exact pos_of_mul_pos_left h1 (by linarith [c.tau, c.tF])

theorem Inv.next (h : Apex A c0 y) (c : Consts A y f τ r0 G M D F δ r1 N) (hf : o.factor = f) (ht : o.complTol = τ)
    (hp : o.perturb = false) {s t : St K m} (i : Inv A f τ r0 G M F δ r1 N s) (g : Grows A o s t) {v : Fin m → K}
    (hv : IsMin A (sub A t) v) : Inv A f τ r0 G M F δ r1 N (step A o t v) := by
  subst hf ht
  have hx : A.X t.x := by rw [g.x]; exact i.x
  have hxM : A.obj t.x ≤ M := by rw [g.x]; exact i.obj
  have hr : 0 < t.r := lt_of_lt_of_le i.r g.low
  have hr1 : 0 < r1 := lt_trans c.pos c.r01
  have hf0 : 0 < o.factor := lt_trans one_pos c.f1
  have ex : (move (step A o t v)).x = t.x + (step A o t v).a • (v - t.x) := by
    simp only [move, step, hp, Bool.false_eq_true, if_false]
  have ea : (step A o t v).a = len ((v - t.x) ⬝ᵥ ((A.Q + t.r • A.C) *ᵥ (v - t.x))) ((v - t.x) ⬝ᵥ ((A.Q + t.r • A.C) *ᵥ t.x + lin A t)) := by
    simp only [step, hp, Bool.false_eq_true, if_false, hess, grad]
  have er : (step A o t v).r = t.r := rfl
  have eo : (step A o t v).outer = t.outer := rfl
  by_cases h0 : t.outer = 0
  · have hs0 : s.outer = 0 := by have := g.more; have := i.outer; omega
    obtain ⟨j1, j2⟩ := i.early hs0
    have htr : t.r = r0 := (g.keep (h0.trans hs0.symm)).trans j1
    have hl : lin A t = A.g := by simp [lin, h0]
    rw [hl] at ea
    rw [sub, hl] at hv
    obtain ⟨k1, k2⟩ := h.early c.pd hx hv ea
    rw [← ex] at k1 k2
    rw [htr, g.x] at k2
    have k3 := k2.trans j2
    exact ⟨k1, c.level _ k1 k3, hr, by rw [eo]; omega, fun _ => ⟨htr, k3⟩, Or.inl (by rw [er, htr]; exact c.r01)⟩
  · have hpos : 0 < t.outer := by have := g.more; have := i.outer; omega
    have hl : lin A t = A.g + t.r • A.h := by simp [lin, hpos]
    rw [hl] at ea
    rw [sub, hl] at hv
    obtain ⟨k1, k2, k3⟩ := h.decrease c.pd hr c.atY c.diff c.compl (lt_of_lt_of_le c.tau c.tF) hx hxM hv ea
    rw [← ex] at k1 k2 k3
    refine ⟨k1, k2, hr, by rw [eo]; omega, fun h1 => absurd h1 h0, ?_⟩
    rw [er]
    by_cases hlt : t.r < r1
    · exact Or.inl hlt
    right
    have hge : r1 ≤ t.r := not_lt.mp hlt
    have hδ := c.dpos
    have hF0 : 0 < F := lt_of_lt_of_le c.tau c.tF
    have h2D : 2 * D / t.r ≤ δ := by
      rw [div_le_iff₀ hr]
      exact c.rD.trans (mul_le_mul_of_nonneg_left hge hδ.le)
    have hφ := h.phi_nonneg hx
    -- decrease above half of the tolerance
    have dec : o.complTol / 2 ≤ A.phi t.x → A.phi (move (step A o t v)).x ≤ A.phi t.x - δ := by
      intro hh
      have h1 : 2 * δ ≤ A.phi t.x * A.phi t.x / (2 * F) := by
        rw [le_div_iff₀ (by linarith)]
        have h2 : o.complTol / 2 * (o.complTol / 2) ≤ A.phi t.x * A.phi t.x :=
          mul_le_mul hh hh (by linarith [c.tau]) hφ
        have h3 := c.delta
        linarith
      linarith
    have stay : A.phi t.x < o.complTol → A.phi (move (step A o t v)).x < o.complTol := by
      intro hh
      rcases le_or_gt (o.complTol / 2) (A.phi t.x) with h1 | h1
      · linarith [dec h1]
      · have h2 : 0 ≤ A.phi t.x * A.phi t.x / (2 * F) := div_nonneg (mul_self_nonneg _) (by linarith)
        have h3 : δ * 16 ≤ o.complTol := by
          have h4 : δ * 16 * F ≤ o.complTol * F := by
            calc δ * 16 * F = o.complTol * o.complTol := by rw [← c.delta]; ring
              _ ≤ o.complTol * F := mul_le_mul_of_nonneg_left c.tF c.tau.le
          exact le_of_mul_le_mul_right h4 hF0
        linarith [c.tau]
    have big : ∀ {k : Nat}, k ≤ N → r1 * o.factor * o.factor * (o.factor * o.factor) ^ k ≤ r1 * o.factor * o.factor * (o.factor * o.factor) ^ N := by
      intro k hk
      refine mul_le_mul_of_nonneg_left (pow_le_pow_right₀ ?_ hk) (by positivity)
      nlinarith [c.f1]
    have tr : t.r ≤ s.r * (o.factor * o.factor) := by rw [← mul_assoc]; exact g.high
    have hff : 0 ≤ o.factor * o.factor := mul_self_nonneg _
    have key : ∀ k : Nat, k * δ + A.phi t.x ≤ F → s.r ≤ r1 * o.factor * o.factor * (o.factor * o.factor) ^ k →
        ((∃ k : Nat, k * δ + A.phi (move (step A o t v)).x ≤ F ∧ t.r ≤ r1 * o.factor * o.factor * (o.factor * o.factor) ^ k) ∨
          (A.phi (move (step A o t v)).x < o.complTol ∧ t.r ≤ r1 * o.factor * o.factor * (o.factor * o.factor) ^ N)) := by
      intro k hk hs
      by_cases hh : A.phi t.x < o.complTol
      · right
        have e := (g.tol (by rw [← g.x]; exact hh)).1
        refine ⟨stay hh, ?_⟩
        rw [e]
        refine hs.trans (big ?_)
        have h1 : (k : K) * δ ≤ N * δ := by linarith [c.steps]
        exact_mod_cast le_of_mul_le_mul_right h1 hδ
      · left
        have h1 := dec (by linarith [c.tau])
        refine ⟨k + 1, by push_cast; linarith, tr.trans ?_⟩
        refine (mul_le_mul_of_nonneg_right hs hff).trans (le_of_eq ?_)
        ring
    rcases i.pen with hA | ⟨k, hk, hs⟩ | ⟨hC, hs⟩
    · left
      refine ⟨0, by simpa using c.compl _ k1 k2, ?_⟩
      rw [pow_zero, mul_one]
      refine tr.trans ?_
      rw [mul_assoc r1]
      exact mul_le_mul_of_nonneg_right hA.le hff
    · exact key k (by rw [g.x]; exact hk) hs
    · right
      have e := (g.tol hC).1
      exact ⟨stay (by rw [g.x]; exact hC), by rw [e]; exact hs⟩

/-- the loop does not reach the limit of the penalty parameter -/
theorem Inv.loop (h : Apex A c0 y) (c : Consts A y f τ r0 G M D F δ r1 N) (hf : o.factor = f) (ht : o.complTol = τ)
    (hp : o.perturb = false) (hR : r1 * f * f * (f * f) ^ N * (f * f) ≤ o.maxRho) {k : Nat} {s : St K m} {q : RV × St K m}
    (i : Inv A f τ r0 G M F δ r1 N s) (hl : Loop A o k s (some q)) : q.1 ≠ .maxPenaltyReached := by
  generalize hq : some q = Q at hl
  induction hl with
  | out => cases hq
  | @stop _ s q' h1 =>
    injection hq with hq
    subst hq
    intro hc
    obtain ⟨rv, u⟩ := q
    dsimp only at hc
    subst hc
    have f1 : 1 < o.factor := by rw [hf]; exact c.f1
    obtain ⟨g, hm⟩ := (head_grows f1 i.r).2 u h1
    have tr : u.r ≤ s.r * (f * f) := by rw [← mul_assoc, ← hf]; exact g.high
    have hff : 0 ≤ f * f := mul_self_nonneg _
    have hff1 : 1 ≤ f * f := by nlinarith [c.f1]
    have hr1 : 0 < r1 := lt_trans c.pos c.r01
    have hf0 : 0 < f := lt_trans one_pos c.f1
    have hs : s.r ≤ r1 * f * f * (f * f) ^ N := by
      have big : ∀ {k : Nat}, k ≤ N → r1 * f * f * (f * f) ^ k ≤ r1 * f * f * (f * f) ^ N := fun hk =>
        mul_le_mul_of_nonneg_left (pow_le_pow_right₀ hff1 hk) (by positivity)
      rcases i.pen with hA | ⟨k, hk, hs⟩ | ⟨_, hs⟩
      · refine le_trans ?_ (big (Nat.zero_le _))
        rw [pow_zero, mul_one, mul_assoc]
        nlinarith
      · refine hs.trans (big ?_)
        have h0 := h.phi_nonneg i.x
        have h1 : (k : K) * δ ≤ N * δ := by linarith [c.steps]
        exact_mod_cast le_of_mul_le_mul_right h1 c.dpos
      · exact hs
    have := mul_le_mul_of_nonneg_right hs hff
    linarith
  | @next _ s t v _ h1 h2 _ ih =>
    have f1 : 1 < o.factor := by rw [hf]; exact c.f1
    exact ih (i.next h c hf ht hp ((head_grows f1 i.r).1 t h1) h2) hq

theorem dot_self_zero {v : Fin m → K} (h : v ⬝ᵥ v = 0) : v = 0 := by
  funext i
  have h1 := entry_le_dot v i
  rw [h] at h1
  exact mul_self_eq_zero.mp (le_antisymm h1 (mul_self_nonneg _))

/-- constants exist, with room for all first answers -/
theorem consts [Archimedean K] (h : Apex A c0 y) {sc : K} (hsc0 : 0 < sc) (hsc : ∀ v, sc * (v ⬝ᵥ v) ≤ v ⬝ᵥ (A.Q *ᵥ v)) (hf : 1 < f)
    (ht : 0 < τ) (hr : 0 < r0) (x0 : Fin m → K) : ∃ G M D F δ r1, ∃ N : Nat, Consts A y f τ r0 G M D F δ r1 N ∧
      ∀ (o : Par K) v, IsMin A (first A o r0 x0) v → A.obj v + r0 * (v ⬝ᵥ (A.C *ᵥ v) / 2) ≤ G := by
  have hpd : ∀ v, v ≠ 0 → 0 < v ⬝ᵥ (A.Q *ᵥ v) := by
    intro v hv
    have h1 : 0 < v ⬝ᵥ v := by
      rcases (dot_self_nonneg v).lt_or_eq with h | h
      · exact h
      · exact absurd (Ref.dot_self_zero h.symm) hv
    exact lt_of_lt_of_le (mul_pos hsc0 h1) (hsc v)
  -- first answers
  have hfst : ∀ b : Fin m → K, ∃ U, ∀ v, IsMin A b v → A.obj v + r0 * (v ⬝ᵥ (A.C *ᵥ v) / 2) ≤ U := by
    intro b
    obtain ⟨U, hU⟩ := quad_bound (A.Q + r0 • A.C) A.g ((y ⬝ᵥ (A.Q *ᵥ y) / 2 + b ⬝ᵥ y + b ⬝ᵥ b / sc) / (sc / 4))
    refine ⟨U, fun v hv => ?_⟩
    have h1 := hU v (sq_bound hsc0 hsc (hv.2 y h.mem))
    simp only [Matrix.add_mulVec, Matrix.smul_mulVec, dotProduct_add, dotProduct_smul, smul_eq_mul] at h1
    simp only [Pb.obj]
    linarith
  obtain ⟨G1, hG1⟩ := hfst A.g
  obtain ⟨G2, hG2⟩ := hfst (r0 • (A.C *ᵥ x0) + A.g)
  -- objective before the first penalty update
  obtain ⟨M1, hM1⟩ := quad_bound A.Q A.g ((max G1 G2 + r0 * c0 + (A.g - r0 • A.h) ⬝ᵥ (A.g - r0 • A.h) / sc) / (sc / 4))
  -- complementarity function on the level set
  obtain ⟨F1, hF1⟩ := quad_bound A.C A.h ((max M1 (A.obj y) + A.g ⬝ᵥ A.g / sc) / (sc / 4))
  have hF : 0 < max (F1 + c0) τ := lt_of_lt_of_le ht (le_max_right _ _)
  have hδ : 0 < τ * τ / (16 * max (F1 + c0) τ) := div_pos (mul_pos ht ht) (by linarith)
  obtain ⟨N, hN⟩ := Archimedean.arch (max (F1 + c0) τ) hδ
  refine ⟨max G1 G2, max M1 (A.obj y), max M1 (A.obj y) + A.g ⬝ᵥ A.g / sc, max (F1 + c0) τ, τ * τ / (16 * max (F1 + c0) τ),
    max (r0 + 1) (2 * (max M1 (A.obj y) + A.g ⬝ᵥ A.g / sc) / (τ * τ / (16 * max (F1 + c0) τ))), N,
    ⟨hpd, hf, ht, hr, le_max_right _ _, fun x hx hG => ?_, fun x z _ _ hx _ => ?_, fun x _ hx => ?_, le_max_right _ _,
      div_mul_cancel₀ _ (by linarith), lt_of_lt_of_le (lt_add_one r0) (le_max_left _ _), ?_, by rw [← nsmul_eq_mul]; exact hN⟩, ?_⟩
  · refine le_trans ?_ (le_max_left _ _)
    refine hM1 x (sq_bound hsc0 hsc ?_)
    have h1 := mul_nonneg hr.le (h.phi_nonneg hx)
    rw [h.phi] at h1
    simp only [Pb.obj] at hG
    rw [sub_dotProduct, smul_dotProduct, smul_eq_mul]
    linarith
  · have h1 := lin_ge hsc0 A.g z
    have h2 := hsc z
    have h3 := mul_nonneg hsc0.le (dot_self_nonneg z)
    simp only [Pb.obj] at hx ⊢
    linarith
  · refine le_trans ?_ (le_max_left _ _)
    have h1 := hF1 x (sq_bound hsc0 hsc hx)
    rw [h.phi]
    linarith
  · have h1 := le_max_right (r0 + 1) (2 * (max M1 (A.obj y) + A.g ⬝ᵥ A.g / sc) / (τ * τ / (16 * max (F1 + c0) τ)))
    have h2 := mul_le_mul_of_nonneg_left h1 hδ.le
    rwa [mul_div_cancel₀ _ hδ.ne'] at h2
  · intro o v hv
    by_cases hz : o.zeroFirst = true
    · rw [first, if_pos hz] at hv
      exact (hG1 v hv).trans (le_max_left _ _)
    · rw [first, if_neg hz] at hv
      exact (hG2 v hv).trans (le_max_right _ _)

end LCQ.Ref
