import Verif.Model.CheckedCount
import Verif.Lemmas.Loop
import Verif.Lemmas.MergeQk
import Verif.Lemmas.SymSparse

/-!
# Checked and unchecked counters

`Follows N len f g`: `f` never decreases the counter `len`, and from a counter that fits, `g` gives the result of `f` if its counter fits,
and the fault `overflow` otherwise.
-/

namespace LCQ.Cnt
open LCQ Scalar

variable {α σ τ : Type} [Scalar α] {N : Nat}

/-- see the head of the file -/
structure Follows (N : Nat) (len : σ → Nat) (f g : σ → M σ) : Prop where
  mono : ∀ s t, f s = .ok t → len s ≤ len t
  ok : ∀ s t, len s ≤ N → f s = .ok t → g s = if len t ≤ N then .ok t else .error .overflow

theorem Follows.refl {len : σ → Nat} {f : σ → M σ} (h : ∀ s t, f s = .ok t → len t = len s) : Follows N len f f :=
  ⟨fun s t hs => (h s t hs).ge, fun s t hl hs => by rw [if_pos (by rw [h s t hs]; exact hl), hs]⟩

theorem Follows.comp {len : σ → Nat} {f g f' g' : σ → M σ} (h : Follows N len f g) (h' : Follows N len f' g') :
    Follows N len (fun s => f s >>= f') (fun s => g s >>= g') := by
  refine ⟨fun s t hs => ?_, fun s t hl hs => ?_⟩
  · rw [bind_eq_ok] at hs
    obtain ⟨u, h1, h2⟩ := hs
    exact (h.mono _ _ h1).trans (h'.mono _ _ h2)
  · rw [bind_eq_ok] at hs
    obtain ⟨u, h1, h2⟩ := hs
    have m := h'.mono _ _ h2
    rw [h.ok _ _ hl h1]
    by_cases hu : len u ≤ N
    · rw [if_pos hu, ok_bind, h'.ok _ _ hu h2]
    · rw [if_neg hu, if_neg (by omega)]
      rfl

theorem Follows.read {len : σ → Nat} (m : M τ) {f g : τ → σ → M σ} (h : ∀ x, m = .ok x → Follows N len (f x) (g x)) :
    Follows N len (fun s => m >>= fun x => f x s) (fun s => m >>= fun x => g x s) := by
  cases m with
  | error e => exact ⟨fun s t hs => by simp at hs, fun s t _ hs => by simp at hs⟩
  | ok x => exact h x rfl

theorem Follows.loop {len : σ → Nat} (n : Nat) {f g : Nat → σ → M σ} (h : ∀ i < n, Follows N len (f i) (g i)) :
    Follows N len (LCQ.loop n f) (LCQ.loop n g) := by
  induction n with
  | zero => exact .refl fun s t hs => by simp [LCQ.loop] at hs; rw [hs]
  | succ n ih => exact (ih fun i hi => h i (by omega)).comp (h n (by omega))

theorem Follows.loopI {len : σ → Nat} (a b : Int) {f g : Int → σ → M σ} (h : ∀ k, a ≤ k → k < b → Follows N len (f k) (g k)) :
    Follows N len (LCQ.loopI a b f) (LCQ.loopI a b g) := by
  unfold LCQ.loopI
  exact .loop _ fun i hi => h _ (by omega) (by omega)

/-- the counter of a matrix under construction -/
def cnt (b : Build α) : Nat := b.rows.length

theorem push_follows (hN : (N : Int) = intMax) (r : Int) (v : α) : Follows N cnt (fun b : Build α => .ok (b.push r v)) (fun b => push b r v) := by
  have hl : ∀ b : Build α, cnt (b.push r v) = cnt b + 1 := fun b => by simp [cnt, Build.push]
  refine ⟨fun s t hs => ?_, fun s t _ hs => ?_⟩
  · injection hs with hs
    rw [← hs, hl]
    omega
  · replace hs := Except.ok.inj hs
    subst hs
    simp only [hl, push]
    by_cases h : cnt s + 1 ≤ N
    · rw [if_pos h, if_pos (by simp only [cnt] at h; omega)]
    · rw [if_neg h, if_neg (by simp only [cnt] at h; omega)]

omit [Scalar α] in
theorem close_follows : Follows N cnt (fun b : Build α => .ok b.close) (fun b => .ok b.close) :=
  .refl fun s t hs => by injection hs with hs; rw [← hs]; rfl

omit [Scalar α] in
theorem id_follows : Follows N cnt (fun b : Build α => .ok b) (fun b => .ok b) :=
  .refl fun s t hs => by injection hs with hs; rw [← hs]

theorem sym_follows (hN : (N : Int) = intMax) (L R : CSC α) (n : Nat) : Follows N cnt
    (fun b => LCQ.loop n (fun j (b : Build α) => do
      let b ← LCQ.loop n (fun i b => do
        let tmp ← colDot L R i j zero
        let tmp ← colDot R L i j tmp
        if !isZero tmp then .ok (b.push i tmp) else .ok b) b
      .ok b.close) b)
    (fun b => LCQ.loop n (fun j b => do
      let b ← LCQ.loop n (fun i b => do
        let tmp ← colDot L R i j zero
        let tmp ← colDot R L i j tmp
        if !isZero tmp then push b i tmp else .ok b) b
      .ok b.close) b) := by
  refine .loop _ fun j _ => .comp (.loop _ fun i _ => .read _ fun x _ => .read _ fun y _ => ?_) close_follows
  cases isZero y
  · simp only [Bool.not_false, if_true]
    exact push_follows hN _ _
  · simp only [Bool.not_true, Bool.false_eq_true, if_false]
    exact id_follows

theorem upper_follows (hN : (N : Int) = intMax) (S : CSC α) : Follows N cnt
    (fun b => LCQ.loop S.n (fun j (b : Build α) => do
      let lo ← rd S.p j
      let hi ← rd S.p (j + 1)
      let b ← LCQ.loopI lo hi (fun k b => do
        let r ← rdI S.i k
        if r > (j : Int) then .ok b
        else do
          let v ← rdI S.x k
          .ok (Build.push b r v)) b
      .ok b.close) b)
    (fun b => LCQ.loop S.n (fun j b => do
      let lo ← rd S.p j
      let hi ← rd S.p (j + 1)
      let b ← LCQ.loopI lo hi (fun k b => do
        let r ← rdI S.i k
        if r > (j : Int) then .ok b
        else do
          let v ← rdI S.x k
          push b r v) b
      .ok b.close) b) := by
  refine .loop _ fun j _ => .read _ fun lo _ => .read _ fun hi _ => .comp (.loopI _ _ fun k _ _ => .read _ fun r _ => ?_) close_follows
  by_cases h : r > (j : Int)
  · simp only [if_pos h]
    exact id_follows
  · simp only [if_neg h]
    exact .read _ fun v _ => push_follows hN _ _

theorem dns_follows (hN : (N : Int) = intMax) (full : List α) (m n : Nat) : Follows N cnt
    (fun b => LCQ.loop n (fun i (b : Build α) => do
      let b ← LCQ.loop m (fun j b => do
        let v ← rd full (j * n + i)
        if (zero <. v) || (v <. zero) then .ok (Build.push b j v) else .ok b) b
      .ok b.close) b)
    (fun b => LCQ.loop n (fun i b => do
      let b ← LCQ.loop m (fun j b => do
        let v ← rd full (j * n + i)
        if (zero <. v) || (v <. zero) then push b j v else .ok b) b
      .ok b.close) b) := by
  refine .loop _ fun i _ => .comp (.loop _ fun j _ => .read _ fun v _ => ?_) close_follows
  cases (zero <. v) || (v <. zero)
  · simp only [Bool.false_eq_true, if_false]
    exact id_follows
  · simp only [if_true]
    exact push_follows hN _ _

/-- the counter of the merge -/
def cnt2 (s : Build α × List Int) : Nat := s.1.rows.length

theorem push2_follows (hN : (N : Int) = intMax) (r : Int) (v : α) (l : Build α × List Int → List Int) :
    Follows N cnt2 (fun s : Build α × List Int => .ok (s.1.push r v, l s)) (fun s => do let b ← push s.1 r v; .ok (b, l s)) := by
  refine ⟨fun s t hs => ?_, fun s t hl hs => ?_⟩
  · injection hs with hs
    rw [← hs]
    exact (push_follows hN r v).mono s.1 _ rfl
  · replace hs := Except.ok.inj hs
    subst hs
    have := (push_follows hN r v).ok s.1 _ hl rfl
    rw [this]
    by_cases h : cnt (s.1.push r v) ≤ N
    · rw [if_pos h, if_pos (show cnt2 (s.1.push r v, l s) ≤ N from h), ok_bind]
    · rw [if_neg h, if_neg (show ¬ cnt2 (s.1.push r v, l s) ≤ N from h)]
      rfl

theorem mergeCol_follows (hN : (N : Int) = intMax) (rho : α) (Q C : CSC α) (hiQ hiC : Int) (f : Nat) : ∀ q c,
    Follows N cnt2 (LCQ.mergeCol rho Q C hiQ hiC f q c) (mergeCol rho Q C hiQ hiC f q c) := by
  induction f with
  | zero => exact fun q c => .refl fun s t hs => by rw [LCQ.mergeCol] at hs; injection hs with hs; rw [hs]
  | succ f ih =>
    intro q c
    have e1 : LCQ.mergeCol rho Q C hiQ hiC (f + 1) q c = fun s => LCQ.mergeCol rho Q C hiQ hiC (f + 1) q c s := rfl
    have e2 : mergeCol rho Q C hiQ hiC (f + 1) q c = fun s => mergeCol rho Q C hiQ hiC (f + 1) q c s := rfl
    rw [e1, e2]
    simp only [LCQ.mergeCol, mergeCol]
    have step : ∀ (r : Int) (v : α) (l : Build α × List Int → List Int) (q' c' : Int),
        Follows N cnt2 (fun s => LCQ.mergeCol rho Q C hiQ hiC f q' c' (s.1.push r v, l s))
          (fun s => do let b ← push s.1 r v; mergeCol rho Q C hiQ hiC f q' c' (b, l s)) := by
      intro r v l q' c'
      have := (push2_follows hN r v l).comp (ih q' c')
      simpa only [ok_bind, bind_assoc] using this
    by_cases h1 : q < hiQ ∧ hiC ≤ c
    · simp only [if_pos h1]
      exact .read _ fun v _ => .read _ fun r _ => step r v (fun s => s.2) _ _
    simp only [if_neg h1]
    by_cases h2 : hiQ ≤ q ∧ c < hiC
    · simp only [if_pos h2]
      exact .read _ fun v _ => .read _ fun r _ => step r _ (fun s => s.2 ++ [(s.1.rows.length : Int)]) _ _
    simp only [if_neg h2]
    by_cases h3 : q < hiQ ∧ c < hiC
    · simp only [if_pos h3]
      refine .read _ fun rq _ => .read _ fun rc _ => ?_
      by_cases h4 : rq < rc
      · simp only [if_pos h4]
        exact .read _ fun v _ => step rq v (fun s => s.2) _ _
      simp only [if_neg h4]
      by_cases h5 : rc < rq
      · simp only [if_pos h5]
        exact .read _ fun v _ => step rc _ (fun s => s.2 ++ [(s.1.rows.length : Int)]) _ _
      simp only [if_neg h5]
      exact .read _ fun v _ => .read _ fun w _ => step rq _ (fun s => s.2 ++ [(s.1.rows.length : Int)]) _ _
    · simp only [if_neg h3]
      exact .refl fun s t hs => by injection hs with hs; rw [hs]

theorem merge_follows (hN : (N : Int) = intMax) (rho : α) (Q C : CSC α) (nV : Nat) :
    Follows N cnt2 (fun s => LCQ.loop nV (fun j s => do
      let loQ ← rd Q.p j
      let loC ← rd C.p j
      let hiQ ← rd Q.p (j + 1)
      let hiC ← rd C.p (j + 1)
      let s ← LCQ.mergeCol rho Q C hiQ hiC ((hiQ - loQ).toNat + (hiC - loC).toNat) loQ loC s
      .ok (s.1.close, s.2)) s)
    (fun s => LCQ.loop nV (fun j s => do
      let loQ ← rd Q.p j
      let loC ← rd C.p j
      let hiQ ← rd Q.p (j + 1)
      let hiC ← rd C.p (j + 1)
      let s ← mergeCol rho Q C hiQ hiC ((hiQ - loQ).toNat + (hiC - loC).toNat) loQ loC s
      .ok (s.1.close, s.2)) s) := by
  refine .loop _ fun j _ => .read _ fun _ _ => .read _ fun _ _ => .read _ fun _ _ => .read _ fun _ _ => .comp (mergeCol_follows hN ..) ?_
  exact .refl fun s t hs => by injection hs with hs; rw [← hs]; rfl

/-! ## bounds for the counters -/

/-- a strictly increasing list of numbers from `a` to below `m` -/
theorem length_le_of_increasing : ∀ (l : List Int) (a m : Int), l.Pairwise (· < ·) → (∀ x ∈ l, a ≤ x ∧ x < m) → (l.length : Int) ≤ max 0 (m - a)
  | [], _, _, _, _ => by simp
  | x :: l, a, m, hp, h => by
    rw [List.pairwise_cons] at hp
    have hx := h x (by simp)
    have := length_le_of_increasing l (x + 1) m hp.2 fun y hy => ⟨by have := hp.1 y hy; omega, (h y (by simp [hy])).2⟩
    simp only [List.length_cons]
    push_cast
    omega

omit [Scalar α] in
/-- the entries of a valid sorted matrix -/
theorem nnz_le {S : CSC α} (h : S.Valid) (hs : S.Sorted) : S.P S.n ≤ S.m * S.n := by
  have key : ∀ j ≤ S.n, S.P j ≤ S.m * j := by
    intro j
    induction j with
    | zero => intro _; rw [h.toValidPtr.P_zero]; omega
    | succ j ih =>
      intro hj
      have h1 := ih (by omega)
      have hm := h.toValidPtr.P_mono_step (show j < S.n by omega)
      have hle := h.toValidPtr.P_le hj (le_refl _)
      have := length_le_of_increasing ((List.range (S.P (j + 1) - S.P j)).map fun k => S.i.getD (S.P j + k) 0) 0 S.m (by
        rw [List.pairwise_map]
        refine List.pairwise_lt_range.imp_of_mem ?_
        intro a b ha hb hab
        rw [List.mem_range] at ha hb
        exact hs j (by omega) _ _ (by omega) (by omega) (by omega)) (by
        intro x hx
        simp only [List.mem_map, List.mem_range] at hx
        obtain ⟨k, hk, rfl⟩ := hx
        exact h.rows _ (by omega))
      simp only [List.length_map, List.length_range] at this
      rw [Nat.mul_succ]
      omega
  exact key _ (le_refl _)

omit [Scalar α] in
theorem mergeL_increasing (a b : List (Int × α)) (ha : (a.map Prod.fst).Pairwise (· < ·)) (hb : (b.map Prod.fst).Pairwise (· < ·)) :
    ((mergeL a b).map Ent.row).Pairwise (· < ·) := by
  have mem : ∀ (p : Int) (a b : List (Int × α)), (∀ x ∈ a, p < x.1) → (∀ x ∈ b, p < x.1) → ∀ x ∈ (mergeL a b).map Ent.row, p < x := by
    intro p a b h1 h2 x hx
    rw [List.mem_map] at hx
    obtain ⟨e, he, rfl⟩ := hx
    rcases mergeL_row a b e he with ⟨y, hy, hr⟩ | ⟨y, hy, hr⟩
    · exact hr ▸ h1 y hy
    · exact hr ▸ h2 y hy
  have fst : ∀ (p : Int × α) (l : List (Int × α)), ((p :: l).map Prod.fst).Pairwise (· < ·) → (∀ x ∈ l, p.1 < x.1) ∧ (l.map Prod.fst).Pairwise (· < ·) := by
    intro p l h
    rw [List.map_cons, List.pairwise_cons] at h
    exact ⟨fun x hx => h.1 _ (List.mem_map_of_mem hx), h.2⟩
  induction a, b using mergeL.induct with
  | case1 => simp [mergeL]
  | case2 q qs ih =>
    rw [mergeL, List.map_cons, List.pairwise_cons]
    exact ⟨mem _ _ _ (fst _ _ ha).1 (by simp), ih (fst _ _ ha).2 hb⟩
  | case3 c cs ih =>
    rw [mergeL, List.map_cons, List.pairwise_cons]
    exact ⟨mem _ _ _ (by simp) (fst _ _ hb).1, ih ha (fst _ _ hb).2⟩
  | case4 q qs c cs h ih =>
    rw [mergeL, if_pos h, List.map_cons, List.pairwise_cons]
    refine ⟨mem _ _ _ (fst _ _ ha).1 ?_, ih (fst _ _ ha).2 hb⟩
    intro x hx
    rcases List.mem_cons.1 hx with rfl | hx
    · exact h
    · exact h.trans ((fst _ _ hb).1 x hx)
  | case5 q qs c cs h h' ih =>
    rw [mergeL, if_neg h, if_pos h', List.map_cons, List.pairwise_cons]
    refine ⟨mem _ _ _ ?_ (fst _ _ hb).1, ih ha (fst _ _ hb).2⟩
    intro x hx
    rcases List.mem_cons.1 hx with rfl | hx
    · exact h'
    · exact h'.trans ((fst _ _ ha).1 x hx)
  | case6 q qs c cs h h' ih =>
    rw [mergeL, if_neg h, if_neg h', List.map_cons, List.pairwise_cons]
    refine ⟨mem _ _ _ (fst _ _ ha).1 ?_, ih (fst _ _ ha).2 (fst _ _ hb).2⟩
    intro x hx
    have := (fst _ _ hb).1 x hx
    dsimp only
    omega

theorem col_increasing {S : CSC α} (hs : S.Sorted) {j : Nat} (hj : j < S.n) : ((S.col j).map Prod.fst).Pairwise (· < ·) := by
  simp only [CSC.col, List.map_map]
  rw [List.pairwise_map]
  refine List.pairwise_lt_range.imp_of_mem ?_
  intro a b ha hb hab
  rw [List.mem_range] at ha hb
  exact hs j hj _ _ (by omega) (by omega) (by omega)

theorem col_rows {S : CSC α} (h : S.Valid) {j : Nat} (hj : j < S.n) : ∀ x ∈ S.col j, 0 ≤ x.1 ∧ x.1 < S.m := by
  intro x hx
  have hle := h.toValidPtr.P_le (show j + 1 ≤ S.n by omega) (le_refl _)
  simp only [CSC.col, List.mem_map, List.mem_range] at hx
  obtain ⟨k, hk, rfl⟩ := hx
  exact h.rows _ (by omega)

/-- `f` adds at most `k` to the counter -/
def Grows (len : σ → Nat) (k : Nat) (f : σ → M σ) : Prop := ∀ s t, f s = .ok t → len t ≤ len s + k

theorem Grows.comp {len : σ → Nat} {k l : Nat} {f g : σ → M σ} (h : Grows len k f) (h' : Grows len l g) :
    Grows len (k + l) (fun s => f s >>= g) := by
  intro s t hs
  rw [bind_eq_ok] at hs
  obtain ⟨u, h1, h2⟩ := hs
  have := h _ _ h1
  have := h' _ _ h2
  omega

theorem Grows.read {len : σ → Nat} {k : Nat} (m : M τ) {f : τ → σ → M σ} (h : ∀ x, m = .ok x → Grows len k (f x)) :
    Grows len k (fun s => m >>= fun x => f x s) := by
  cases m with
  | error e => exact fun s t hs => by simp at hs
  | ok x => exact h x rfl

theorem Grows.loop {len : σ → Nat} {k : Nat} (n : Nat) {f : Nat → σ → M σ} (h : ∀ i < n, Grows len k (f i)) :
    Grows len (n * k) (LCQ.loop n f) := by
  induction n with
  | zero => exact fun s t hs => by simp [LCQ.loop] at hs; rw [hs]; omega
  | succ n ih =>
    rw [Nat.succ_mul]
    exact (ih fun i hi => h i (by omega)).comp (h n (by omega))

omit [Scalar α] in
theorem push_grows (r : Int) (v : α) : Grows cnt 1 (fun b : Build α => .ok (b.push r v)) := by
  intro s t hs
  rw [← Except.ok.inj hs]
  simp [cnt, Build.push]

omit [Scalar α] in
theorem close_grows : Grows cnt 0 (fun b : Build α => .ok b.close) := by
  intro s t hs
  rw [← Except.ok.inj hs]
  simp [cnt, Build.close]

omit [Scalar α] in
theorem id_grows (k : Nat) : Grows cnt k (fun b : Build α => .ok b) := by
  intro s t hs
  rw [← Except.ok.inj hs]
  omega

theorem sym_grows (L R : CSC α) (n : Nat) : Grows cnt (n * (n * 1 + 0))
    (fun b => LCQ.loop n (fun j (b : Build α) => do
      let b ← LCQ.loop n (fun i b => do
        let tmp ← colDot L R i j zero
        let tmp ← colDot R L i j tmp
        if !isZero tmp then .ok (b.push i tmp) else .ok b) b
      .ok b.close) b) := by
  refine .loop _ fun j _ => .comp (.loop _ fun i _ => .read _ fun x _ => .read _ fun y _ => ?_) close_grows
  cases isZero y
  · exact push_grows _ _
  · exact id_grows 1

theorem dns_grows (full : List α) (m n : Nat) : Grows cnt (n * (m * 1 + 0))
    (fun b => LCQ.loop n (fun i (b : Build α) => do
      let b ← LCQ.loop m (fun j b => do
        let v ← rd full (j * n + i)
        if (zero <. v) || (v <. zero) then .ok (Build.push b j v) else .ok b) b
      .ok b.close) b) := by
  refine .loop _ fun i _ => .comp (.loop _ fun j _ => .read _ fun v _ => ?_) close_grows
  cases (zero <. v) || (v <. zero)
  · exact id_grows 1
  · exact push_grows _ _

omit [Scalar α] in
theorem upperCol_grows (S : CSC α) (j : Nat) (lo hi : Int) : Grows cnt ((hi - lo).toNat * 1 + 0) (fun b : Build α => do
      let b ← LCQ.loopI lo hi (fun k b => do
        let r ← rdI S.i k
        if r > (j : Int) then .ok b
        else do
          let v ← rdI S.x k
          .ok (Build.push b r v)) b
      .ok b.close) := by
  unfold LCQ.loopI
  refine .comp (.loop _ fun i _ => .read _ fun r _ => ?_) close_grows
  by_cases h : r > (j : Int)
  · simp only [if_pos h]
    exact id_grows 1
  · simp only [if_neg h]
    exact .read _ fun v _ => push_grows _ _

theorem upper_count {S : CSC α} (hS : S.ValidPtr) : ∀ n ≤ S.n, ∀ b : Build α,
    LCQ.loop n (fun j (b : Build α) => do
      let lo ← rd S.p j
      let hi ← rd S.p (j + 1)
      let b ← LCQ.loopI lo hi (fun k b => do
        let r ← rdI S.i k
        if r > (j : Int) then .ok b
        else do
          let v ← rdI S.x k
          .ok (Build.push b r v)) b
      .ok b.close) Build.init = .ok b → cnt b ≤ S.P n := by
  intro n
  induction n with
  | zero =>
    intro _ b hb
    rw [← Except.ok.inj hb]
    simp [cnt, Build.init]
  | succ n ih =>
    intro hn b hb
    rw [LCQ.loop, bind_eq_ok] at hb
    obtain ⟨c, h1, h2⟩ := hb
    have hc := ih (by omega) c h1
    rw [hS.rd_p (by omega), ok_bind, hS.rd_p (by omega), ok_bind] at h2
    have := upperCol_grows S n _ _ c b h2
    have := hS.P_mono_step (show n < S.n by omega)
    omega

omit [Scalar α] in
theorem mergeL_length (a b : List (Int × α)) : (mergeL a b).length ≤ a.length + b.length := by
  induction a, b using mergeL.induct with
  | case1 => simp [mergeL]
  | case2 q qs ih => rw [mergeL]; simp only [List.length_cons, List.length_nil] at *; omega
  | case3 c cs ih => rw [mergeL]; simp only [List.length_cons, List.length_nil] at *; omega
  | case4 q qs c cs h ih => rw [mergeL, if_pos h]; simp only [List.length_cons] at *; omega
  | case5 q qs c cs h h' ih => rw [mergeL, if_neg h, if_pos h']; simp only [List.length_cons] at *; omega
  | case6 q qs c cs h h' ih => rw [mergeL, if_neg h, if_neg h']; simp only [List.length_cons] at *; omega

theorem mall_sum {Q C : CSC α} (hQ : Q.ValidPtr) (hC : C.ValidPtr) : ∀ n ≤ Q.n, n ≤ C.n → (mall Q C n).length ≤ Q.P n + C.P n := by
  intro n
  induction n with
  | zero => intro _ _; simp [mall]
  | succ n ih =>
    intro h1 h2
    have := ih (by omega) (by omega)
    have := mergeL_length (Q.col n) (C.col n)
    have := hQ.P_mono_step (show n < Q.n by omega)
    have := hC.P_mono_step (show n < C.n by omega)
    rw [mall_succ, List.length_append, mcol]
    simp only [CSC.col, List.length_map, List.length_range] at *
    omega

theorem mall_square {Q C : CSC α} (hQ : Q.Valid) (hC : C.Valid) (sQ : Q.Sorted) (sC : C.Sorted) (m : Nat) (mQ : Q.m ≤ m) (mC : C.m ≤ m) :
    ∀ n ≤ Q.n, n ≤ C.n → (mall Q C n).length ≤ n * m := by
  intro n
  induction n with
  | zero => intro _ _; simp [mall]
  | succ n ih =>
    intro h1 h2
    have := ih (by omega) (by omega)
    have := length_le_of_increasing ((mcol Q C n).map Ent.row) 0 m
      (mergeL_increasing _ _ (col_increasing sQ (by omega)) (col_increasing sC (by omega))) (by
        intro x hx
        rw [List.mem_map] at hx
        obtain ⟨e, he, rfl⟩ := hx
        rcases mergeL_row _ _ e he with ⟨y, hy, hr⟩ | ⟨y, hy, hr⟩
        · have := col_rows hQ (show n < Q.n by omega) y hy
          omega
        · have := col_rows hC (show n < C.n by omega) y hy
          omega)
    rw [List.length_map] at this
    rw [mall_succ, List.length_append, Nat.succ_mul]
    omega

end LCQ.Cnt
