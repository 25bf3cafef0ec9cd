import Verif.Lemmas.Shape

/-!
# The main loop does not fail

Every pass of the main loop succeeds on a well-formed object, as long as the integer counters are
bounded.
-/

set_option linter.unusedSectionVars false

namespace LCQ
open Scalar

variable {α : Type} [Scalar α] {d : Data α} {n : Dims} {off : Nat} {s : St α} {e : Env α}

theorem perturbLoop_ok (k m : Nat) {x : List α} (h : m ≤ x.length) :
    ∃ v, v.length = x.length ∧ perturbLoop e k m x = .ok v := by
  obtain ⟨v, hv, hl⟩ := loop_inv (fun _ (v : List α) => v.length = x.length) m (fun i x => do
    let v ← rd x i
    wr x i (v +. ofInt ((e.rnd (k + i) % 3 : Nat) - 1) *. eps)) x rfl (by
      intro i hi v hv
      rw [rd_ok (by omega), ok_bind, wr_ok (by omega)]
      exact ⟨_, rfl, by simpa using hv⟩)
  exact ⟨v, hl, hv⟩

theorem perturbIf_ok (hd : DataOK d n off) (hx : Has s.xk n.nV) :
    ∃ x k, perturbIf e d s = .ok { s with xk := x, rnd := k } ∧ Has x n.nV := by
  unfold perturbIf
  split
  · obtain ⟨x, hx, lx⟩ := hx
    obtain ⟨v, lv, hv⟩ := perturbLoop_ok (e := e) s.rnd n.nV (x := x) (by omega)
    refine ⟨some v, s.rnd + n.nV, ?_, v, rfl, by omega⟩
    rw [perturbStep, hd.dims, initd_some, ok_bind, hx, deref_some, ok_bind, hv, ok_bind]
  · exact ⟨s.xk, s.rnd, rfl, hx⟩

theorem getOptimalStepLength_ok (hd : DataOK d n off) (hs : ArrOK n s) (hq : QkOK d n s) :
    ∃ lt a, getOptimalStepLength d s = .ok { s with lkTmp := some lt, alpha := some a } ∧
      lt.length = n.nV := by
  obtain ⟨p, hp, lp⟩ := hs.pk
  obtain ⟨x, hx, lx⟩ := hs.xk
  obtain ⟨g, hg, lg⟩ := hs.gTilde
  obtain ⟨l, hl, ll⟩ := hs.lkTmp
  obtain ⟨q, hq'⟩ := quadDS_ok (hq.mat hd) lp
  obtain ⟨v, lv, hv⟩ := affineDS_ok (hq.mat hd) one lx lg
  refine ⟨v, _, by
    rw [getOptimalStepLength, hd.dims, initd_some, ok_bind, hp, deref_some, ok_bind, hx, deref_some, ok_bind,
      hg, deref_some, ok_bind, hl, deref_some, ok_bind, hq', ok_bind, hv l ll, ok_bind,
      dotProd_ok (by omega) (by omega), ok_bind], lv⟩

/-- the last part of a pass -/
theorem nextStep_ok (hd : DataOK d n off) (hs : StOK d n off s) {N : Int} {t : Nat} (he : AnsBnd e N)
    (hb : Bnd N s t) (hsub : s.stats.subproblemIter ≤ t * N) (hlim : (t + 1) * N ≤ intMax) :
    ∃ r, nextStep e d s = .ok r ∧
      (∀ s', r = .inl s' → StOK d n off s' ∧ Bnd N s' t) ∧
      (∀ q, r = .inr q → After d n off q.2) := by
  have e2 : ((t : Int) + 1) * N = t * N + N := by ring
  have hN : 0 ≤ N := by
    obtain ⟨q, _, h1, h2⟩ := hb.qpIter
    omega
  obtain ⟨g, lg, h1⟩ := updateLinearization_ok hd hs.toArrOK
  have hs1 : StOK d n off { s with gk := some g } := { hs with gk := ⟨g, rfl, lg⟩ }
  have hb1 : Bnd N { s with gk := some g } t := hb.congr rfl rfl rfl rfl
  have hsub1 : ({ s with gk := some g } : St α).stats.subproblemIter ≤ t * N := hsub
  rw [nextStep, h1, ok_bind]
  generalize ({ s with gk := some g } : St α) = s1 at *
  obtain ⟨r, h2, hA, hy, hqi, hqe, hwk, c0, c1, c2, c3, c4, c5, c6⟩ := solveQP_ok (init := false) hd hs1.toArrOK (Or.inr hs1.yk) he
    (by
      intro Q A hsub
      exact ⟨fun _ => hs1.work ⟨Q, A, hsub⟩, fun h => absurd h (by decide)⟩) hb1.sub0 (by omega)
  rw [h2, ok_bind]
  split
  · exact ⟨_, rfl, by simp, by rintro q ⟨⟩; exact { hA with yk := hy, Qk := fun h => by simpa [c4, St.say] using hs1.after.Qk h }⟩
  · have hQ : QkOK d n r.2 := by
      have := hs1.Qk
      unfold QkOK at this ⊢
      rw [c4, c5, c6]
      exact this
    have hr : StOK d n off r.2 := { hA with
      yk := hy
      Qk := hQ
      qpIter := hqi.imp fun _ h => h.1
      qpExit := hqe
      work := hwk }
    have hbr : Bnd N r.2 t := by
      refine ⟨by rw [c3]; exact hb1.inner, hqi, c0, ?_, by rw [c2]; exact hb1.accu⟩
      rcases c1 with h | h <;> omega
    generalize r.2 = s2 at *
    obtain ⟨x, k, h3, hx⟩ := perturbIf_ok (e := e) hd hr.xk
    have hs3 : StOK d n off { s2 with xk := x, rnd := k } := { hr with xk := hx }
    have hb3 : Bnd N { s2 with xk := x, rnd := k } t := hbr.congr rfl rfl rfl rfl
    rw [h3, ok_bind]
    generalize ({ s2 with xk := x, rnd := k } : St α) = s3 at *
    obtain ⟨lt, a, h4, llt⟩ := getOptimalStepLength_ok hd hs3.toArrOK hs3.Qk
    rw [h4, ok_bind]
    refine ⟨_, rfl, ?_, by simp⟩
    rintro s' ⟨⟩
    exact ⟨{ hs3 with lkTmp := ⟨_, rfl, llt⟩, alpha := ⟨_, rfl⟩ }, hb3.congr rfl rfl rfl rfl⟩

/-- bounds on the counters of a run -/
structure Small (o : Options α) (N : Int) : Prop where
  iter : 0 ≤ o.maxIter
  outer : 2 * o.maxIter + 2 ≤ intMax
  sub : (o.maxIter + 1) * N ≤ intMax

theorem pass_ok (hd : DataOK d n off) (hs : StOK d n off s) {N : Int} {t k : Nat} (he : AnsBnd e N)
    (hl : Live d.opts s t k) (hb : Bnd N s t) (hsm : Small d.opts N) (ht : (t : Int) ≤ d.opts.maxIter)
    (hk : k ≤ 2 * t) :
    ∃ r, pass e d s = .ok r ∧
      (∀ s', r = .inl s' → StOK d n off s' ∧ Bnd N s' (t + 1)) ∧
      (∀ q, r = .inr q → After d n off q.2) := by
  have hN : 0 ≤ N := by
    obtain ⟨q, _, h1, h2⟩ := hb.qpIter
    omega
  have l1 : ((t : Int) + 1) * N ≤ intMax :=
    le_trans (mul_le_mul_of_nonneg_right (by omega) hN) hsm.sub
  obtain ⟨s1, h1, hs1, hb1, hsub1⟩ := advance_ok hd hs hN hl hb (by have := hsm.outer; omega) l1
  have hl1 := (hl.advance h1).1
  obtain ⟨s2, h2, hs2, hb2, hsub2⟩ := dynamicPenalty_ok hd hs1 hl1 hb1 (by have := hsm.outer; omega)
  have hl2 : ∃ k2, k2 ≤ k + 1 ∧ Live d.opts s2 (t + 1) k2 := by
    rcases (hl1.dynamic h2).1 with h | h
    · exact ⟨k, by omega, h⟩
    · exact ⟨k + 1, by omega, h⟩
  obtain ⟨k2, hk2, hl2⟩ := hl2
  obtain ⟨g, lg, h3⟩ := updateLinearization_ok hd hs2.toArrOK
  have hs3 : StOK d n off { s2 with gk := some g } := { hs2 with gk := ⟨g, rfl, lg⟩ }
  have hb3 : Bnd N { s2 with gk := some g } (t + 1) := hb2.congr rfl rfl rfl rfl
  have hl3 : Live d.opts { s2 with gk := some g } (t + 1) k2 := hl2.congr rfl rfl rfl rfl rfl
  have hsub3 : ({ s2 with gk := some g } : St α).stats.subproblemIter ≤ (t + 1) * N := by
    simp only [hsub2]; exact hsub1
  rw [pass, h1, ok_bind, h2, ok_bind, h3, ok_bind]
  generalize ({ s2 with gk := some g } : St α) = s3 at *
  clear h1 h2 h3 hs1 hs2 hb1 hb2 hl1 hl2 hsub1 hsub2
  have hcs : ∃ r, checkStationarity e d s3 = .ok r ∧
      (∀ s', r = .inl s' → StOK d n off s' ∧ Bnd N s' (t + 1) ∧ s'.stats.subproblemIter ≤ (t + 1) * N ∧
        ∃ k', Live d.opts s' (t + 1) k') ∧
      (∀ q, r = .inr q → After d n off q.2) := by
    obtain ⟨b, hb⟩ := stationarityCheck_ok hd hs3.toArrOK
    obtain ⟨c, hc⟩ := complementarityCheck_ok hd hs3.xk
    rw [checkStationarity, hb, ok_bind]
    split
    · rw [hc, ok_bind]
      split
      · obtain ⟨q, hq, ha, _⟩ := accept_ok (e := e) hd hs3
        rw [hq, ok_bind]
        exact ⟨_, rfl, by simp, by rintro q ⟨⟩; exact ha⟩
      · obtain ⟨s4, h4, hs4, hb4, hsub4⟩ := bump_ok hd hs3 hl3 hb3 (by have := hsm.outer; omega)
        rw [h4, ok_bind]
        refine ⟨_, rfl, ?_, by simp⟩
        rintro s' ⟨⟩
        exact ⟨hs4, hb4, by rw [hsub4]; exact hsub3, _, (hl3.bump h4).1⟩
    · refine ⟨_, rfl, ?_, by simp⟩
      rintro s' ⟨⟩
      exact ⟨hs3, hb3, hsub3, _, hl3⟩
  obtain ⟨r, hr, hr1, hr2⟩ := hcs
  rw [andThen, hr, ok_bind]
  cases r with
  | inr q => exact ⟨_, rfl, by simp, by rintro q' ⟨⟩; exact hr2 q rfl⟩
  | inl s4 =>
    obtain ⟨hs4, hb4, hsub4, k', hl4⟩ := hr1 s4 rfl
    obtain ⟨rho, hrho⟩ := hs4.rho
    dsimp only
    rw [andThen, checkLimits, hl4.total, initd_some, ok_bind, hrho, initd_some, ok_bind]
    split
    · exact ⟨_, rfl, by simp, by rintro q' ⟨⟩; exact { hs4.after with }⟩
    · rename_i hti
      split
      · exact ⟨_, rfl, by simp, by rintro q' ⟨⟩; exact { hs4.after with }⟩
      · rw [ok_bind]
        dsimp only
        refine nextStep_ok hd hs4 he hb4 (by push_cast; exact hsub4) ?_
        exact le_trans (mul_le_mul_of_nonneg_right (by omega) hN) hsm.sub

theorem mainLoop_ok (hd : DataOK d n off) {N : Int} (he : AnsBnd e N) (hsm : Small d.opts N) (f : Nat) :
    ∀ (s : St α) (t k : Nat), StOK d n off s → Live d.opts s t k → Bnd N s t →
      (t : Int) ≤ d.opts.maxIter → k ≤ 2 * t →
      ((t = 0 ∧ k = 0) ∨ (d.opts.maxRho <. penalty d.opts k) = false) →
    ∃ r, mainLoop e d f s = .ok r ∧ ∀ q, r = some q → After d n off q.2 := by
  induction f with
  | zero => intro s t k _ _ _ _ _ _; exact ⟨none, rfl, by simp⟩
  | succ f ih =>
    intro s t k hs hl hb ht hk hc
    obtain ⟨r, hr, hr1, hr2⟩ := pass_ok hd hs he hl hb hsm ht hk
    rw [mainLoop, hr, ok_bind]
    cases r with
    | inr q => exact ⟨_, rfl, by rintro q' ⟨⟩; exact hr2 q rfl⟩
    | inl s' =>
      obtain ⟨hs', hb'⟩ := hr1 s' rfl
      rcases hl.pass hc hr with ⟨s'', k', h1, h2, h3, h4, _, h5, h6⟩ | ⟨q, _, h1, _⟩
      · injection h1 with h1
        subst h1
        exact ih s' (t + 1) k' hs' h2 hb' h5 (by omega) (Or.inr h6)
      · exact absurd h1 (by simp)

/-! ## start of a run -/

theorem firstGradient_ok (hd : DataOK d n off) (hs : ArrOK n s) :
    ∃ v, v.length = n.nV ∧ firstGradient d s = .ok { s with gk := some v } := by
  unfold firstGradient
  split
  · obtain ⟨g, hg, lg⟩ := hd.g
    obtain ⟨gk, hgk, lgk⟩ := hs.gk
    refine ⟨tab n.nV (gt g), by simp, ?_⟩
    rw [hd.dims, initd_some, ok_bind, hg, deref_some, ok_bind, hgk, deref_some, ok_bind,
      copy_loop_ok' (by omega) lgk, ok_bind]
  · exact updateLinearization_ok hd hs

theorem firstStep_ok (hd : DataOK d n off) (hs : ArrOK n s) (hy : HasOpt s.yk (off + n.nA))
    (hQk : d.sparse = false → Has s.Qk (n.nV * n.nV)) (hidx : d.sparse = true → s.idxC = []) {N : Int}
    (he : AnsBnd e N) (hw : WorkOK e d s true) (h0 : s.stats.subproblemIter = 0)
    (h1 : s.stats.accuIters = []) (hN : N ≤ intMax) (hi : s.inner = some 0) :
    ∃ r, firstStep e d s = .ok r ∧
      (∀ s', r = .inl s' → StOK d n off s' ∧ Bnd N s' 0) ∧
      (∀ q, r = .inr q → After d n off q.2) := by
  obtain ⟨g, lg, h2⟩ := firstGradient_ok hd hs
  have hs1 : ArrOK n { s with gk := some g } := { hs with gk := ⟨g, rfl, lg⟩ }
  rw [firstStep, h2, ok_bind]
  obtain ⟨r, h3, hA, hy, hqi, hqe, hwk, c0, c1, c2, c3, c4, c5, c6⟩ := solveQP_ok (init := true)
    (s := { s with gk := some g }) hd hs1 hy he hw (by simp only [h0]; exact le_refl _)
    (by simp only [h0]; omega)
  simp only [h0, h1, hi] at c1 c2 c3
  rw [h3, ok_bind]
  have hNn : 0 ≤ N := by
    obtain ⟨q, _, h1, h2⟩ := hqi
    omega
  split
  · exact ⟨_, rfl, by simp, by rintro q ⟨⟩; exact { hA with yk := hy, Qk := fun h => by simpa [c4, St.say] using hQk h }⟩
  · obtain ⟨a, b, c, h4, hQ⟩ := setQk_ok (s := r.2) hd hA.rho (by rw [c6]; exact hidx) (by rw [c4]; exact hQk)
    obtain ⟨rho, hrho⟩ := hA.rho
    have hs2 : StOK d n off { r.2 with Qk := a, Qks := b, idxC := c } := { hA with
      yk := hy
      Qk := hQ
      qpIter := hqi.imp fun _ h => h.1
      qpExit := hqe
      work := hwk }
    have hb2 : Bnd N { r.2 with Qk := a, Qks := b, idxC := c } 0 := by
      refine ⟨⟨0, c3, le_refl _, by simp⟩, hqi, c0, by simp only; omega, by simp [c2]⟩
    have hrho2 : ({ r.2 with Qk := a, Qks := b, idxC := c } : St α).rho = some rho := hrho
    rw [h4, ok_bind]
    generalize ({ r.2 with Qk := a, Qks := b, idxC := c } : St α) = s2 at *
    rw [hrho2, initd_some, ok_bind]
    refine ⟨_, rfl, ?_, by simp⟩
    rintro s' ⟨⟩
    obtain ⟨k1, k2, _⟩ := updateRhoOpt_keeps s2.stats rho
    exact ⟨{ hs2 with rho := ⟨_, rfl⟩ }, hb2.congr rfl rfl k1 k2⟩

end LCQ
