import Verif.Lemmas.OneSetup
import Verif.Lemmas.Twin
import Verif.Lemmas.Ready

/-!
# Uninitialised memory

Arrays that are allocated without initialisation are written before they are read.
-/

set_option linter.unusedSectionVars false

namespace LCQ
open Scalar

variable {α : Type} [Scalar α]

theorem RelM.eq {β : Type} {m m' : M β} (h : RelM (fun a b => a = b) m m') : m = m' := by
  cases m <;> cases m'
  · exact congrArg _ h
  · exact h.elim
  · exact h.elim
  · exact congrArg _ h

theorem RelM.refl {β : Type} {R : β → β → Prop} {m : M β} (h : ∀ a, R a a) : RelM R m m := by
  cases m
  · exact rfl
  · exact h _

theorem loop_related {σ : Type} (R : Nat → σ → σ → Prop) (n : Nat) (f g : Nat → σ → M σ) (s t : σ) (h0 : R 0 s t)
    (hs : ∀ i < n, ∀ s t, R i s t → RelM (R (i + 1)) (f i s) (g i t)) : RelM (R n) (loop n f s) (loop n g t) := by
  induction n with
  | zero => exact h0
  | succ n ih =>
    rw [loop, loop]
    exact RelM.bind (ih fun i hi => hs i (by omega)) fun a b hab => hs n (by omega) a b hab

/-- the first `k` entries agree -/
def AgreeTo (k : Nat) (C C' : List α) : Prop := C.length = C'.length ∧ ∀ t < k, C[t]? = C'[t]?

theorem AgreeTo.write {k k' i : Nat} {C C' : List α} (h : AgreeTo k C C') (v : α) (hi : ∀ t < k', t < k ∨ t = i) :
    RelM (AgreeTo k') (wr C i v) (wr C' i v) := by
  by_cases hl : i < C.length
  · rw [wr_ok hl, wr_ok (h.1 ▸ hl)]
    refine ⟨by simp [h.1], fun t ht => ?_⟩
    by_cases hti : t = i
    · subst hti
      rw [List.getElem?_set_self hl, List.getElem?_set_self (h.1 ▸ hl)]
    · rw [List.getElem?_set_ne (by omega), List.getElem?_set_ne (by omega)]
      exact h.2 t ((hi t ht).resolve_right hti)
  · have : ∀ D : List α, ¬ i < D.length → wr D i v = .error .oob := by
      intro D hD; simp [wr, hD]
    rw [this C hl, this C' (by rw [← h.1]; exact hl)]
    exact rfl

/-- the dense product with a vector does not depend on the old contents of the result -/
theorem matMul_buf {A b out out' : List α} {m n : Nat} (h : out.length = m) (h' : out'.length = m) :
    matMul A b out m n 1 = matMul A b out' m n 1 := by
  have key : RelM (AgreeTo m) (matMul A b out m n 1) (matMul A b out' m n 1) := by
    unfold matMul
    refine loop_related AgreeTo m _ _ _ _ ⟨by omega, by omega⟩ fun i hi C C' hC => ?_
    refine loop_related (fun j => AgreeTo (i + j)) 1 _ _ C C' hC fun j hj C C' hC => ?_
    obtain rfl : j = 0 := by omega
    refine RelM.bind (R := AgreeTo (i + 1)) ?_ fun C C' hC => ?_
    · exact hC.write zero (by omega)
    · refine loop_related (fun _ => AgreeTo (i + 1)) n _ _ C C' hC fun k hk C C' hC => ?_
      have h1 : rd C (i * 1 + 0) = rd C' (i * 1 + 0) := by
        unfold rd
        rw [hC.2 _ (by omega)]
      simp only [h1]
      refine RelM.same fun c _ => RelM.same fun a _ => RelM.same fun b _ => ?_
      exact hC.write _ (by omega)
  have hlen : ∀ o r : List α, matMul A b o m n 1 = .ok r → r.length = o.length := by
    intro o r hr
    unfold matMul at hr
    refine loop_partial (fun _ c => c.length = o.length) m _ _ _ hr rfl fun i _ t t' ht h1 => ?_
    refine loop_partial (fun _ c => c.length = o.length) 1 _ _ _ h1 ht fun j _ t t' ht h1 => ?_
    simp only [bind_eq_ok] at h1
    obtain ⟨c, hc, h1⟩ := h1
    have hw : ∀ {x y : List α} {k : Nat} {v : α}, wr x k v = .ok y → y.length = x.length := by
      intro x y k v hxy
      unfold wr at hxy
      split at hxy
      · injection hxy with hxy; rw [← hxy]; simp
      · cases hxy
    refine loop_partial (fun _ c => c.length = o.length) n _ _ _ h1 (by rw [hw hc]; exact ht) fun k _ t t' ht h1 => ?_
    simp only [bind_eq_ok] at h1
    obtain ⟨_, _, _, _, _, _, h1⟩ := h1
    rw [hw h1]
    exact ht
  revert key
  cases h1 : matMul A b out m n 1 with
  | error f =>
    cases h2 : matMul A b out' m n 1 with
    | error g => exact fun hk => congrArg _ hk
    | ok c' => exact fun hk => hk.elim
  | ok c =>
    cases h2 : matMul A b out' m n 1 with
    | error g => exact fun hk => hk.elim
    | ok c' =>
      intro hk
      congr 1
      refine List.ext_getElem? fun t => ?_
      by_cases ht : t < m
      · exact hk.2 t ht
      · rw [List.getElem?_eq_none (by rw [hlen _ _ h1]; omega), List.getElem?_eq_none (by rw [hlen _ _ h2]; omega)]

theorem mulDS_buf {sp : Bool} {B : Option (List α)} {S : Option (CSC α)} {m n : Nat} (hM : MatOK sp B S m n)
    {b out out' : List α} (h : out.length = m) (h' : out'.length = m) :
    mulDS sp B S b out m n = mulDS sp B S b out' m n := by
  rcases hM.cases with ⟨rfl, T, rfl, hT, rfl, rfl⟩ | ⟨rfl, M, rfl, _⟩
  · simp only [mulDS, if_true, deref_some, ok_bind, spMul]
    rw [loop_fill (fun _ => zero) _ _ _ h (by intro i hi; rw [wr_ok (by simp; omega)]),
      loop_fill (fun _ => zero) _ _ _ h' (by intro i hi; rw [wr_ok (by simp; omega)])]
  · simp only [mulDS, deref_some, ok_bind]
    exact matMul_buf h h'

@[simp] theorem alloc_length (e : Env α) (site k : Nat) : (e.alloc site k).length = k := by simp [Env.alloc]

variable {e : Env α} {d : Data α} {n : Dims} {off : Nat} {j : Nat → Nat → α} {jI : Nat → Int}

theorem transformDuals_junk (hd : DataOK d n off) (s : St α) :
    transformDuals { e with junk := j, junkI := jI } d s = transformDuals e d s := by
  unfold transformDuals
  rw [hd.dims, initd_some, ok_bind, ok_bind]
  refine bind_congr_ok fun off _ => bind_congr_ok fun rho _ => bind_congr_ok fun x _ => bind_congr_ok fun y _ => ?_
  rw [mulDS_buf hd.R (alloc_length _ _ _) (alloc_length e 14 n.nComp)]

theorem weakComplementarities_junk (hd : DataOK d n off) (s : St α) :
    weakComplementarities { e with junk := j, junkI := jI } d s = weakComplementarities e d s := by
  unfold weakComplementarities
  rw [hd.dims, initd_some, ok_bind, ok_bind]
  refine bind_congr_ok fun x _ => ?_
  rw [mulDS_buf hd.L (alloc_length _ _ _) (alloc_length e 15 n.nComp),
    mulDS_buf hd.R (alloc_length _ _ _) (alloc_length e 16 n.nComp)]

theorem accept_junk (hd : DataOK d n off) (s : St α) :
    accept { e with junk := j, junkI := jI } d s = accept e d s := by
  unfold accept
  rw [transformDuals_junk hd]
  refine bind_congr_ok fun s1 _ => ?_
  unfold determineStationarityType
  rw [weakComplementarities_junk hd]

theorem checkStationarity_junk (hd : DataOK d n off) (s : St α) :
    checkStationarity { e with junk := j, junkI := jI } d s = checkStationarity e d s := by
  unfold checkStationarity
  simp only [accept_junk hd]

/-- both iterates exist -/
def Iter (s : St α) : Prop := s.xk ≠ none ∧ s.yk ≠ none

theorem afterSolve_junk {s : St α} (h : Iter s) :
    afterSolve { e with junk := j, junkI := jI } d s = afterSolve e d s := by
  unfold afterSolve
  obtain ⟨x, hx⟩ := Option.ne_none_iff_exists'.mp h.1
  obtain ⟨y, hy⟩ := Option.ne_none_iff_exists'.mp h.2
  simp only [hx, hy, Option.getD_some]

theorem subSolve_keeps {s : St α} {init : Bool} {q : RV × St α} (h : subSolve e d s init = .ok q) :
    q.2.xk = s.xk ∧ q.2.yk = s.yk := by
  obtain ⟨_, _, _, _, _, _, h2⟩ := subSolve_inv h
  rw [h2]
  exact ⟨rfl, rfl⟩

theorem solveQP_junk {s : St α} {init : Bool} (h : Iter s) :
    solveQP { e with junk := j, junkI := jI } d s init = solveQP e d s init := by
  unfold solveQP
  change (subSolve e d s init >>= _) = _
  refine bind_congr_ok fun r hr => ?_
  obtain ⟨h1, h2⟩ := subSolve_keeps hr
  rw [afterSolve_junk ⟨by rw [h1]; exact h.1, by rw [h2]; exact h.2⟩]

theorem solveQP_iter {s : St α} {init : Bool} {q : RV × St α} (h : solveQP e d s init = .ok q) : Iter q.2 := by
  simp only [solveQP, bind_eq_ok] at h
  obtain ⟨r, _, s1, h1, h⟩ := h
  have hs : Iter s1 := by
    simp only [afterSolve, bind_eq_ok] at h1
    obtain ⟨_, _, _, _, _, _, _, _, _, _, h1⟩ := h1
    injection h1 with h1
    rw [← h1]
    exact ⟨by simp, by simp⟩
  split at h
  · injection h with h
    rw [← h]
    exact hs
  · simp only [bind_eq_ok] at h
    obtain ⟨s2, h2, h⟩ := h
    injection h with h
    rw [← h]
    simp only [takeSolution, bind_eq_ok] at h2
    obtain ⟨_, _, _, _, _, _, _, _, _, _, _, _, _, _, _, _, h2⟩ := h2
    injection h2 with h2
    rw [← h2]
    exact ⟨hs.1, by simp⟩

theorem bump_iter {s s' : St α} (h : bump d s = .ok s') (hs : Iter s) : Iter s' := by
  obtain ⟨_, _, _, _, _, _, _, _, rfl⟩ := bump_inv h
  exact hs

theorem dynamicPenalty_iter {s s' : St α} (h : dynamicPenalty d s = .ok s') (hs : Iter s) : Iter s' := by
  obtain ⟨r, hh, _, hr, ⟨_, h'⟩ | ⟨_, h'⟩⟩ := dynamicPenalty_inv h
  · rw [h', hr]; exact hs
  · refine bump_iter h' ?_
    rw [hr]; exact hs

theorem advance_iter {s s' : St α} (h : advance d s = .ok s') (hs : Iter s) : Iter s' := by
  obtain ⟨x, a, b, c, p, l, st, t', i, ht, hi, _, _, hp, _, hst, rfl⟩ := advance_inv h
  subst hp
  exact ⟨by simp, hs.2⟩

theorem checkStationarity_iter {s s' : St α} (h : checkStationarity e d s = .ok (.inl s')) (hs : Iter s) : Iter s' := by
  simp only [checkStationarity, bind_eq_ok] at h
  obtain ⟨st, _, h⟩ := h
  split at h
  · simp only [bind_eq_ok] at h
    obtain ⟨co, _, h⟩ := h
    split at h
    · simp only [bind_eq_ok] at h
      obtain ⟨_, _, h⟩ := h
      cases h
    · simp only [bind_eq_ok] at h
      obtain ⟨s1, h1, h⟩ := h
      injection h with h
      injection h with h
      rw [← h]
      exact bump_iter h1 hs
  · injection h with h
    injection h with h
    rw [← h]
    exact hs

theorem checkLimits_same {s s' : St α} (h : checkLimits d s = .ok (.inl s')) : s' = s := by
  simp only [checkLimits, bind_eq_ok] at h
  obtain ⟨_, _, _, _, h⟩ := h
  split at h
  · cases h
  · split at h
    · cases h
    · injection h with h
      injection h with h
      exact h.symm

theorem nextStep_junk {s : St α} (hs : Iter s) :
    nextStep { e with junk := j, junkI := jI } d s = nextStep e d s := by
  unfold nextStep
  refine bind_congr_ok fun s1 h1 => ?_
  have h2 : Iter s1 := by
    obtain ⟨gk, rfl⟩ := updateLinearization_inv h1
    exact hs
  rw [solveQP_junk h2]
  rfl

theorem nextStep_iter {s s' : St α} (h : nextStep e d s = .ok (.inl s')) : Iter s' := by
  simp only [nextStep, bind_eq_ok] at h
  obtain ⟨s1, _, q, hq, h⟩ := h
  split at h
  · cases h
  · simp only [bind_eq_ok] at h
    obtain ⟨s2, h2, s3, h3, h⟩ := h
    injection h with h
    injection h with h
    rw [← h]
    have hq := solveQP_iter hq
    obtain ⟨a, b, rfl⟩ := getOptimalStepLength_inv h3
    unfold perturbIf at h2
    split at h2
    · obtain ⟨x, k, rfl⟩ := perturbStep_inv h2
      exact ⟨by simp, hq.2⟩
    · injection h2 with h2
      rw [← h2]
      exact hq

theorem pass_junk (hd : DataOK d n off) {s : St α} (hs : Iter s) :
    pass { e with junk := j, junkI := jI } d s = pass e d s := by
  unfold pass
  refine bind_congr_ok fun s1 h1 => bind_congr_ok fun s2 h2 => bind_congr_ok fun s3 h3 => ?_
  rw [checkStationarity_junk hd]
  refine andThen_congr fun s4 h4 => andThen_congr fun s5 h5 => nextStep_junk ?_
  have h3' : Iter s3 := by
    have h2' := dynamicPenalty_iter h2 (advance_iter h1 hs)
    obtain ⟨gk, rfl⟩ := updateLinearization_inv h3
    exact h2'
  rw [checkLimits_same h5]
  exact checkStationarity_iter h4 h3'

theorem pass_iterates {s s' : St α} (h : pass e d s = .ok (.inl s')) : Iter s' := by
  simp only [pass, bind_eq_ok, andThen_eq_ok] at h
  obtain ⟨s1, h1, s2, h2, s3, h3, ⟨s4, h4, ⟨s5, h5, h6⟩ | ⟨q, _, h6⟩⟩ | ⟨q, _, h6⟩⟩ := h
  · exact nextStep_iter h6
  · cases h6
  · cases h6

theorem mainLoop_junk (hd : DataOK d n off) (fuel : Nat) :
    ∀ s : St α, Iter s → mainLoop { e with junk := j, junkI := jI } d fuel s = mainLoop e d fuel s := by
  induction fuel with
  | zero => intro s _; rfl
  | succ f ih =>
    intro s hs
    unfold mainLoop
    rw [pass_junk hd hs]
    refine bind_congr_ok fun r hr => ?_
    cases r with
    | inl s' => exact ih s' (pass_iterates hr)
    | inr q => rfl

theorem getSolution_buf (hd : DataOK d n off) {s s' : St α} (ha : s'.ans = s.ans) (hx : s'.xnew = s.xnew)
    (hy : Has s.yk (off + n.nA)) (hy' : Has s'.yk (off + n.nA)) : getSolution d s' = getSolution d s := by
  obtain ⟨y, hy, ly⟩ := hy
  obtain ⟨y', hy', ly'⟩ := hy'
  unfold getSolution
  rw [ha, hx, hy, hy']
  refine bind_congr_ok fun sub hsub => bind_congr_ok fun a _ => bind_congr_ok fun x _ => ?_
  rw [initd_eq_ok] at hsub
  simp only [deref_some, ok_bind]
  rcases hd.sub with ⟨Q, A, h, ho⟩ | ⟨Q, A, h, ho⟩ | ⟨Q, A, h, hQn, hAm, ho, hlb, hub⟩
  · rw [hsub] at h
    injection h with h
    subst h ho
    simp only [fillAns_ok _ ly, fillAns_ok _ ly']
  · rw [hsub] at h
    injection h with h
    subst h ho
    simp only [fillAns_ok _ ly, fillAns_ok _ ly']
  · rw [hsub] at h
    injection h with h
    subst h ho
    have l1 : y.length = A.m := by omega
    have l2 : y'.length = A.m := by omega
    simp only [fillAns_ok _ l1, fillAns_ok _ l2]

theorem solveQP_first (hd : DataOK d n off) {s : St α} {init : Bool} (hx : s.xk ≠ none) (hy : HasOpt s.yk (off + n.nA)) :
    RelM (fun q q' => q' = q ∨ (s.yk = none ∧ q.1 ≠ .successfulReturn ∧ ∃ y, q' = (q.1, { q.2 with yk := y })))
      (solveQP e d s init) (solveQP { e with junk := j, junkI := jI } d s init) := by
  rcases hy with hy | hy
  · unfold solveQP
    change RelM _ _ (subSolve e d s init >>= _)
    refine RelM.same fun r hr => ?_
    obtain ⟨h1, h2⟩ := subSolve_keeps hr
    obtain ⟨x, hx⟩ := Option.ne_none_iff_exists'.mp hx
    rw [hx] at h1
    rw [hy] at h2
    refine RelM.bind (R := fun s1 s2 => ∃ y y', s1.yk = some y ∧ y.length = off + n.nA ∧ y'.length = off + n.nA ∧
      s2 = { s1 with yk := some y' }) ?_ ?_
    · unfold afterSolve
      refine RelM.same fun it _ => RelM.same fun ex _ => RelM.same fun st _ => RelM.same fun n' _ =>
        RelM.same fun nd hnd => ?_
      rw [initd_eq_ok, hd.nDuals] at hnd
      injection hnd with hnd
      subst hnd
      refine ⟨_, Env.alloc { e with junk := j, junkI := jI } 13 (off + n.nA), rfl, ?_, alloc_length _ _ _, ?_⟩
      · rw [h2]; exact alloc_length _ _ _
      · simp only [h1, h2, Option.getD_some, Option.getD_none]
    · rintro s1 s2 ⟨y, y', hy1, ly, ly', rfl⟩
      split
      · rename_i hne
        exact .inr ⟨hy, hne, some y', rfl⟩
      · refine RelM.bind (R := fun a b => b = a) ?_ fun a b hab => by subst hab; exact .inl rfl
        unfold takeSolution
        rw [getSolution_buf hd (s := s1) (s' := { s1 with yk := some y' }) rfl rfl ⟨y, hy1, ly⟩ ⟨y', rfl, ly'⟩]
        refine RelM.same fun _ _ => RelM.same fun _ _ => RelM.same fun _ _ => RelM.same fun _ _ => RelM.same fun _ _ =>
          RelM.same fun _ _ => RelM.same fun _ _ => RelM.same fun _ _ => rfl
  · rw [solveQP_junk (e := e) (j := j) (jI := jI) ⟨hx, by obtain ⟨y, hy, _⟩ := hy; rw [hy]; simp⟩]
    refine RelM.refl fun q => .inl rfl

theorem chooseSolver_junk {o : Obj α} (h : o.d.opts.qpSolver = 2 → o.s.yk = none) :
    chooseSolver { e with junk := j, junkI := jI } o = chooseSolver e o := by
  unfold chooseSolver
  refine bind_congr_ok fun n' _ => ?_
  split
  · rfl
  · split
    · rfl
    · split
      · rename_i h2
        split
        · rfl
        · rw [h h2]
          rfl
      · rfl

theorem initializeSolver_junk {o : Obj α} (h : o.d.opts.qpSolver = 2 → o.s.yk = none) :
    initializeSolver { e with junk := j, junkI := jI } o = initializeSolver e o := by
  unfold initializeSolver
  rw [chooseSolver_junk h]

theorem chooseSolver_yk {o : Obj α} {r : RV × Obj α} (hc : chooseSolver e o = .ok r)
    (hq : o.d.opts.qpSolver = 2 → o.s.yk = none) : r.2.s.yk = o.s.yk := by
  simp only [chooseSolver, bind_eq_ok] at hc
  obtain ⟨n, _, h⟩ := hc
  split at h
  · split at h
    · injection h with h; rw [← h]
    · simp only [bind_eq_ok] at h
      obtain ⟨b, _, h⟩ := h
      split at h
      · injection h with h; rw [← h]
      · simp only [bind_eq_ok] at h
        obtain ⟨_, _, _, _, _, _, _, _, h⟩ := h
        injection h with h; rw [← h]
  · split at h
    · split at h
      · injection h with h; rw [← h]
      · simp only [bind_eq_ok] at h
        obtain ⟨b, _, h⟩ := h
        split at h
        · injection h with h; rw [← h]
        · simp only [bind_eq_ok] at h
          obtain ⟨_, _, _, _, _, _, _, _, h⟩ := h
          injection h with h; rw [← h]
    · split at h
      · rename_i h2
        split at h
        · injection h with h; rw [← h]
        · simp only [bind_eq_ok] at h
          obtain ⟨y, hy, h⟩ := h
          have hn := hq h2
          rw [hn] at hy
          injection hy with hy
          rw [hn]
          subst hy
          split at h
          · injection h with h; rw [← h]
          · split at h
            · injection h with h; rw [← h]
            · simp only [bind_eq_ok] at h
              obtain ⟨_, _, _, _, _, _, _, _, _, _, h⟩ := h
              injection h with h; rw [← h]
      · injection h with h; rw [← h]

theorem init_yk {o : Obj α} {r : RV × Obj α} (hi : initializeSolver e o = .ok r)
    (hq : o.d.opts.qpSolver = 2 → o.s.yk = none) : r.2.s.yk = o.s.yk := by
  simp only [initializeSolver, bind_eq_ok] at hi
  obtain ⟨c, hc, h⟩ := hi
  split at h
  · injection h with h; rw [← h, chooseSolver_yk hc hq]
  · simp only [initRest, bind_eq_ok] at h
    obtain ⟨_, _, _, _, _, _, _, _, h⟩ := h
    injection h with h
    rw [← h, ← chooseSolver_yk hc hq]
    dsimp only
    split <;> rfl

theorem firstGradient_iterates {s s' : St α} (h : firstGradient d s = .ok s') : s'.xk = s.xk ∧ s'.yk = s.yk := by
  unfold firstGradient at h
  split at h
  · simp only [bind_eq_ok] at h
    obtain ⟨_, _, _, _, _, _, _, _, h⟩ := h
    injection h with h
    rw [← h]
    exact ⟨rfl, rfl⟩
  · obtain ⟨gk, rfl⟩ := updateLinearization_inv h
    exact ⟨rfl, rfl⟩

/-- the first QP: what can differ is the dual iterate, when it fails -/
theorem firstStep_junk (hd : DataOK d n off) {s : St α} (hx : s.xk ≠ none) (hy : HasOpt s.yk (off + n.nA)) :
    RelM (fun r r' => r' = r ∨ (s.yk = none ∧ ∃ q y, r = .inr q ∧ q.1 ≠ .successfulReturn ∧
        r' = .inr (q.1, { q.2 with yk := y })))
      (firstStep e d s) (firstStep { e with junk := j, junkI := jI } d s) := by
  unfold firstStep
  refine RelM.same fun s1 h1 => ?_
  obtain ⟨hx1, hy1⟩ := firstGradient_iterates h1
  refine RelM.bind (solveQP_first hd (by rw [hx1]; exact hx) (by rw [hy1]; exact hy)) fun q q' hqq => ?_
  rcases hqq with rfl | ⟨hyn, hne, y, rfl⟩
  · exact RelM.refl fun r => .inl rfl
  · rw [if_pos hne, if_pos hne]
    refine .inr ⟨by rw [← hy1]; exact hyn, _, y, rfl, hne, ?_⟩
    rfl

theorem firstStep_iter {s s' : St α} (h : firstStep e d s = .ok (.inl s')) : Iter s' := by
  simp only [firstStep, bind_eq_ok] at h
  obtain ⟨s1, h1, q, hq, h⟩ := h
  split at h
  · cases h
  · simp only [bind_eq_ok] at h
    obtain ⟨s2, h2, r, _, h⟩ := h
    have := solveQP_iter hq
    obtain ⟨a, b, g, rfl⟩ := setQk_inv h2
    injection h with h
    injection h with h
    rw [← h]
    exact this

theorem firstStep_end {s : St α} {q : RV × St α} (h : firstStep e d s = .ok (.inr q)) : q.2.calls ≤ s.calls + 1 := by
  simp only [firstStep, bind_eq_ok] at h
  obtain ⟨s1, h1, q', hq, h⟩ := h
  split at h
  · injection h with h
    injection h with h
    rw [← h]
    change q'.2.calls ≤ _
    obtain ⟨r, hr, hq, it, ex, st, _, _, _, w, k, m, x, y, a, b, p, hm, hm', _, _, h2⟩ := solveQP_inv hq
    rw [h2]
    have := firstGradient_calls h1
    change m ≤ _
    omega
  · simp only [bind_eq_ok] at h
    obtain ⟨s2, h2, r, _, h⟩ := h
    cases h

theorem runSolver_first {o : Obj α} {i : RV × Obj α} (hi : initializeSolver e o = .ok i)
    (h1 : i.1 = .successfulReturn) (fuel : Nat) :
    (∀ f, firstStep e i.2.d i.2.s = .error f → runSolver e fuel o = .error f) ∧
    (∀ q, firstStep e i.2.d i.2.s = .ok (.inr q) → runSolver e fuel o = .ok (some (q.1, ⟨i.2.d, q.2⟩))) ∧
    (∀ s, firstStep e i.2.d i.2.s = .ok (.inl s) → runSolver e fuel o =
      (mainLoop e i.2.d fuel s).map fun q => q.map fun q => (q.1, ⟨i.2.d, q.2⟩)) := by
  refine ⟨fun f hf => ?_, fun q hf => ?_, fun s hf => ?_⟩ <;> unfold runSolver
  · rw [hi, ok_bind, if_neg (by simp [h1]), hf]
    rfl
  · rw [hi, ok_bind, if_neg (by simp [h1]), hf, ok_bind]
  · rw [hi, ok_bind, if_neg (by simp [h1]), hf, ok_bind]
    dsimp only
    cases mainLoop e i.2.d fuel s <;> rfl

/-- a run from equal objects with other contents of uninitialised memory -/
theorem runSolver_junk {o : Obj α} (hr : Ready o n) (h : o.d.opts.qpSolver = 2 → o.s.yk = none) (fuel : Nat) :
    runSolver { e with junk := j, junkI := jI } fuel o = runSolver e fuel o ∨
    (o.s.yk = none ∧ ∃ (q : RV × Obj α) (y : Option (List α)), q.1 ≠ .successfulReturn ∧ q.2.s.calls ≤ o.s.calls + 1 ∧
      runSolver e fuel o = .ok (some q) ∧
      runSolver { e with junk := j, junkI := jI } fuel o = .ok (some (q.1, { q.2 with s := { q.2.s with yk := y } }))) := by
  obtain ⟨i, hi, hi'⟩ := initializeSolver_total (e := e) hr
  have hj : initializeSolver { e with junk := j, junkI := jI } o = .ok i := by
    rw [initializeSolver_junk (e := e) (j := j) (jI := jI) h, hi]
  have hyk := init_yk hi h
  have hcl := initializeSolver_calls hi
  by_cases h1 : i.1 = .successfulReturn
  · obtain ⟨off, hd, ha, hy, -⟩ := hi' h1
    have hrel := firstStep_junk (e := e) (j := j) (jI := jI) hd
      (by obtain ⟨x, hx, _⟩ := ha.xk; rw [hx]; simp) hy
    obtain ⟨a1, a2, a3⟩ := runSolver_first hi h1 fuel
    obtain ⟨b1, b2, b3⟩ := runSolver_first hj h1 fuel
    revert hrel
    cases hf : firstStep e i.2.d i.2.s with
    | error f =>
      cases hf' : firstStep { e with junk := j, junkI := jI } i.2.d i.2.s with
      | error g =>
        intro hk
        obtain rfl : f = g := hk
        rw [a1 _ hf, b1 _ hf']
        exact .inl rfl
      | ok q' => exact fun hk => hk.elim
    | ok r =>
      cases hf' : firstStep { e with junk := j, junkI := jI } i.2.d i.2.s with
      | error g => exact fun hk => hk.elim
      | ok r' =>
        rintro (rfl | ⟨hyn, q, y, rfl, hne, rfl⟩)
        · refine .inl ?_
          cases r' with
          | inr q => rw [a2 _ hf, b2 _ hf']
          | inl s => rw [a3 _ hf, b3 _ hf', mainLoop_junk (e := e) (j := j) (jI := jI) hd fuel s (firstStep_iter hf)]
        · have := firstStep_end hf
          exact .inr ⟨by rw [← hyk]; exact hyn, (q.1, ⟨i.2.d, q.2⟩), y, hne, by rw [← hcl]; exact this, a2 _ hf, b2 _ hf'⟩
  · refine .inl ?_
    unfold runSolver
    rw [hi, hj, ok_bind, ok_bind, if_pos (by simpa using h1), if_pos (by simpa using h1)]

end LCQ
