import Verif.Props.Reference
import Verif.Props.Local

/-!
# C70: loads that describe the same program lead to the same run
-/

set_option linter.unusedSectionVars false

namespace LCQ
open Scalar Ext
open scoped Matrix

variable {K : Type} [Field K] [LinearOrder K] [IsStrictOrderedRing K]

/-- an object as the constructor leaves it (up to the options), with dimensions `n` -/
structure Fresh (o : Obj (Ext K)) (n : Dims) : Prop where
  built : Built o n
  idxC : o.s.idxC = []
  low : NoLow o
  lb : o.d.lbTmp = none
  ub : o.d.ubTmp = none
  hist : o.s.hist = []
  rnd : o.s.rnd = 0

theorem fresh_new (op : Options (Ext K)) {m i j : Nat} (hm : 0 < m) (hj : 0 < j) : Fresh (Obj.new op m i j) ⟨m, i, j⟩ := by
  refine ⟨Built.new op (by omega), ?_, ⟨?_, ?_, ?_, ?_⟩, ?_, ?_, ?_, ?_⟩ <;>
    (unfold Obj.new; rw [if_neg (by omega), if_neg (by omega), if_neg (by omega)]) <;> first | rfl | exact zero_fin

/-- `o1` is `o` after a successful dense or sparse load of the problem `P` with initial guess `x0` and bounds `b` -/
def Loads (e : Env (Ext K)) (o o1 : Obj (Ext K)) (n : Dims) (P : Prob K n) (x0 : Fin n.nV → K) (b : Bnds (Ext K)) : Prop :=
  (∃ a : DenseArgs (Ext K), a.Are n P x0 ∧ a.bnds = b ∧ loadDense e o a = .ok (.successfulReturn, o1)) ∨
  ∃ a : SparseArgs (Ext K), a.Are n P x0 ∧ a.bnds = b ∧ loadSparse e o a = .ok (.successfulReturn, o1)

/-- successful QP calls for subproblems of `P` with bounds `b` return exact solutions with finite multipliers -/
def SolvesExactly (e : Env (Ext K)) (n : Dims) (P : Prob K n) (b : Bnds (Ext K)) : Prop :=
  FinAns e ∧ ExactOn e n (IsSub P (b.rowLo n) (b.rowHi n) (b.boxLo n) (b.boxHi n))

theorem Loads.job {e : Env (Ext K)} {o o1 : Obj (Ext K)} {n : Dims} {P : Prob K n} {x0 : Fin n.nV → K} {b : Bnds (Ext K)}
    (h : Loads e o o1 n P x0 b) (ho : Fresh o n) (he : SolvesExactly e n P b) {r0 : K} (hr : o.d.opts.rho0 = fin r0)
    {a : Ref.Par K} (ha : a.Of e o.d.opts) (f0 : a.factor ≠ 0) :
    Job e o1 n P (b.rowLo n) (b.rowHi n) (b.boxLo n) (b.boxHi n) x0 r0 a [] ∧ Stored o1 n b ∧ o1.s.rnd = 0 := by
  obtain ⟨he1, he2⟩ := he
  rcases h with ⟨c, hc, rfl, h⟩ | ⟨c, hc, rfl, h⟩
  · obtain ⟨h1, _⟩ := Setup.dense ho.built ho.low hc h hr ha.factor f0 he1
    have h2 : o1.d.opts = o.d.opts := (ho.built.load hc.fits (argLow_pair hc.low) h).2.1
    have h3 := Stored.dense ho.built ho.lb ho.ub hc.fits h
    have h4 : o1.s.hist = o.s.hist ∧ o1.s.rnd = o.s.rnd := by
      rcases loadDense_ok (e := e) ho.built.dims ho.built.nV ho.built.nComp hc.fits with ⟨_, _, h'⟩ | ⟨_, _, _, h'⟩ |
        ⟨_, _, _, _, h'⟩ | ⟨_, _, _, _, Q, g, L, R, _, _, _, _, _, _, _, _, h'⟩
      all_goals
        rw [h'] at h
        injection h with h
        injection h with h1 h
      · cases h1
      · cases h1
      · cases h1
      · subst h; exact ⟨rfl, rfl⟩
    exact ⟨⟨h1, h3.bounds hc.fits.lb hc.fits.ub, he2, h2 ▸ ha, by rw [h4.1, ho.hist]; rfl, Or.inr (Nat.zero_le _)⟩, h3,
      h4.2.trans ho.rnd⟩
  · obtain ⟨h1, _⟩ := Setup.sparse ho.built ho.idxC ho.low hc h hr ha.factor f0 he1
    have h2 : o1.d.opts = o.d.opts := (ho.built.loadSparse ho.idxC hc.fits (argLow_pair hc.low) h).2.1
    have h3 := Stored.sparse ho.built ho.lb ho.ub hc.fits h
    have h4 : o1.s.hist = o.s.hist ∧ o1.s.rnd = o.s.rnd := by
      obtain ⟨_, _, _, _, _, _, _, _, _, _, _, _, h'⟩ := loadSparse_ok (e := e) ho.built.dims ho.built.nV ho.built.nComp hc.fits
      rcases h' with ⟨_, _, h'⟩ | ⟨_, _, _, h'⟩ | ⟨_, _, _, _, h'⟩ | ⟨_, _, g, c, _, _, _, h'⟩
      all_goals
        rw [h'] at h
        injection h with h
        injection h with h1 h
      · cases h1
      · cases h1
      · cases h1
      · subst h; exact ⟨rfl, rfl⟩
    exact ⟨⟨h1, h3.bounds hc.fits.lb hc.fits.ub, he2, h2 ▸ ha, by rw [h4.1, ho.hist]; rfl, Or.inr (Nat.zero_le _)⟩, h3,
      h4.2.trans ho.rnd⟩

section
variable {m i j i' j' : Nat} {P : Prob K ⟨m, i, j⟩} {P' : Prob K ⟨m, i', j'⟩} {e e' : Env (Ext K)} {o o' o1 o1' : Obj (Ext K)}
  {x0 : Fin m → K} {r0 : K} {a : Ref.Par K} {b b' : Bnds (Ext K)}

/-- C70: two new objects with the same options, each loaded (densely or sparsely) with a problem, such that both problems
have the same strictly convex objective, the same complementarity function, the same set of points that satisfy the
linear constraints and bounds, and the same initial guess.  If the QP solvers (which may be different ones, and may return
different multipliers) solve the subproblems exactly, both runs return the same code, the same point, penalty parameter,
step and counters, unless a QP call fails. -/
theorem C70_loads (ho : Fresh o ⟨m, i, j⟩) (ho' : Fresh o' ⟨m, i', j'⟩) (hl : Loads e o o1 ⟨m, i, j⟩ P x0 b)
    (hl' : Loads e' o' o1' ⟨m, i', j'⟩ P' x0 b') (he : SolvesExactly e ⟨m, i, j⟩ P b) (he' : SolvesExactly e' ⟨m, i', j'⟩ P' b')
    (ha : a.Of e o.d.opts) (ha' : a.Of e' o'.d.opts) (f0 : a.factor ≠ 0) (hr : o.d.opts.rho0 = fin r0)
    (hr' : o'.d.opts.rho0 = fin r0) (hQ : P.Qᵀ = P.Q) (hQ' : P'.Qᵀ = P'.Q) (hpd : ∀ v, v ≠ 0 → 0 < v ⬝ᵥ (P.Q *ᵥ v))
    (hobj : ∀ x, P.obj x = P'.obj x) (hphi : ∀ x, P.phi x = P'.phi x) (hX : ∀ x, b.Feas P x ↔ b'.Feas P' x)
    {fuel fuel' : Nat} {rv rv' : RV} {o2 o2' : Obj (Ext K)} (h : runSolver e fuel o1 = .ok (some (rv, o2)))
    (h' : runSolver e' fuel' o1' = .ok (some (rv', o2'))) (hown : Ref.Own rv) (hown' : Ref.Own rv') :
    rv = rv' ∧ SameOutcome o2.s o2'.s := by
  obtain ⟨j1, s1, k1⟩ := hl.job ho he hr ha f0
  obtain ⟨j2, s2, k2⟩ := hl'.job ho' he' hr' ha' f0
  refine C70_same j1 j2 hQ hQ' hpd hobj hphi (fun x => ⟨fun hx => ?_, fun hx => ?_⟩) (k1.trans k2.symm) h h' hown hown'
  · exact s2.feasible j2.bounds ((hX x).mp (s1.feas j1.bounds hx))
  · exact s1.feasible j1.bounds ((hX x).mpr (s2.feas j2.bounds hx))

/-- the problem with both sides of the complementarity pairs exchanged -/
def Prob.swap {n : Dims} (P : Prob K n) : Prob K n := { P with L := P.R, R := P.L, lbL := P.lbR, lbR := P.lbL }

/-- the bounds with both sides of the complementarity pairs exchanged -/
def Bnds.swap (b : Bnds (Ext K)) : Bnds (Ext K) := { b with lbL := b.lbR, ubL := b.ubR, lbR := b.lbL, ubR := b.ubL }

/-- C70: it does not matter which side of the complementarity pairs is called `L` and which `R`, nor whether the problem
is loaded densely or sparsely. -/
theorem C70_swap (ho : Fresh o ⟨m, i, j⟩) (ho' : Fresh o' ⟨m, i, j⟩) (hl : Loads e o o1 ⟨m, i, j⟩ P x0 b)
    (hl' : Loads e' o' o1' ⟨m, i, j⟩ P.swap x0 b.swap) (he : SolvesExactly e ⟨m, i, j⟩ P b)
    (he' : SolvesExactly e' ⟨m, i, j⟩ P.swap b.swap)
    (ha : a.Of e o.d.opts) (ha' : a.Of e' o'.d.opts) (f0 : a.factor ≠ 0) (hr : o.d.opts.rho0 = fin r0)
    (hr' : o'.d.opts.rho0 = fin r0) (hQ : P.Qᵀ = P.Q) (hpd : ∀ v, v ≠ 0 → 0 < v ⬝ᵥ (P.Q *ᵥ v))
    {fuel fuel' : Nat} {rv rv' : RV} {o2 o2' : Obj (Ext K)} (h : runSolver e fuel o1 = .ok (some (rv, o2)))
    (h' : runSolver e' fuel' o1' = .ok (some (rv', o2'))) (hown : Ref.Own rv) (hown' : Ref.Own rv') :
    rv = rv' ∧ SameOutcome o2.s o2'.s :=
  C70_loads ho ho' hl hl' he he' ha ha' f0 hr hr' hQ hQ hpd (fun _ => rfl) (fun _ => dotProduct_comm _ _)
    (fun _ => ⟨fun h => ⟨h.A, h.R, h.L, h.box⟩, fun h => ⟨h.A, h.R, h.L, h.box⟩⟩) h h' hown hown'

/-- the problem with one more linear constraint per variable, whose left hand side is the variable -/
def Prob.withRows (P : Prob K ⟨m, i, j⟩) : Prob K ⟨m, i + m, j⟩ :=
  { P with A := fun r c => if h : r.1 < i then P.A ⟨r, h⟩ c else if r.1 - i = c.1 then 1 else 0 }

/-- the bounds of the variables as bounds of these constraints -/
def Bnds.withRows (b : Bnds (Ext K)) (i m : Nat) : Bnds (Ext K) :=
  { b with
    lbA := some (orFill b.lbA i ninf ++ orFill b.lb m ninf)
    ubA := some (orFill b.ubA i pinf ++ orFill b.ub m pinf)
    lb := none
    ub := none }

theorem withRows_feas (h1 : OptLen b.lbA i) (h2 : OptLen b.ubA i) (h3 : OptLen b.lb m) (h4 : OptLen b.ub m) (x : Fin m → K) :
    b.Feas P x ↔ (b.withRows i m).Feas P.withRows x := by
  have e1 : ∀ (r : Nat) (hr : r < i), (P.withRows.A *ᵥ x) ⟨r, by show r < i + m; omega⟩ = (P.A *ᵥ x) ⟨r, hr⟩ := by
    intro r hr
    simp only [Matrix.mulVec, dotProduct, Prob.withRows, dif_pos hr]
  have e2 : ∀ (r : Nat) (hr : r < m), (P.withRows.A *ᵥ x) ⟨i + r, by show i + r < i + m; omega⟩ = x ⟨r, hr⟩ := by
    intro r hr
    have hn : ¬ i + r < i := by omega
    simp only [Matrix.mulVec, dotProduct, Prob.withRows, dif_neg hn, Nat.add_sub_cancel_left]
    rw [Finset.sum_eq_single (⟨r, hr⟩ : Fin m)]
    · simp
    · intro c _ hc
      rw [if_neg (fun h => hc (Fin.ext h.symm)), zero_mul]
    · simp
  have t1 : (orFill b.lbA i ninf ++ orFill b.lb m ninf).take (i + m) = orFill b.lbA i ninf ++ orFill b.lb m ninf :=
    List.take_of_length_le (by rw [List.length_append, orFill_len h1, orFill_len h3])
  have t2 : (orFill b.ubA i pinf ++ orFill b.ub m pinf).take (i + m) = orFill b.ubA i pinf ++ orFill b.ub m pinf :=
    List.take_of_length_le (by rw [List.length_append, orFill_len h2, orFill_len h4])
  have g : ∀ {p q : List (Ext K)} {v : Nat}, p.length = i → v < i → (p ++ q).getD v nan = p.getD v nan := by
    intro p q v hp hv
    simp only [List.getD_eq_getElem?_getD]
    rw [List.getElem?_append_left (by omega)]
  have g' : ∀ {p q : List (Ext K)} {v : Nat}, p.length = i → (p ++ q).getD (i + v) nan = q.getD v nan := by
    intro p q v hp
    simp only [List.getD_eq_getElem?_getD]
    rw [List.getElem?_append_right (by omega), hp, Nat.add_sub_cancel_left]
  constructor
  · intro h
    refine ⟨fun r => ?_, h.L, h.R, fun r => ?_⟩
    · change ((List.take (i + m) _).getD r.1 nan <=. _) = true ∧ (_ <=. (List.take (i + m) _).getD r.1 nan) = true
      rw [t1, t2]
      by_cases hr : r.1 < i
      · rw [g (orFill_len h1) hr, g (orFill_len h2) hr]
        have := e1 r.1 hr
        rw [show (P.withRows.A *ᵥ x) r = _ from this]
        exact h.A ⟨r.1, hr⟩
      · have hr2 : r.1 - i < m := by
          have : r.1 < i + m := r.2
          omega
        have hr3 : r.1 = i + (r.1 - i) := by omega
        have q1 : ∀ q : List (Ext K), (orFill b.lbA i ninf ++ q).getD r.1 nan = q.getD (r.1 - i) nan := fun q => by
          conv_lhs => rw [hr3]
          exact g' (orFill_len h1)
        have q2 : ∀ q : List (Ext K), (orFill b.ubA i pinf ++ q).getD r.1 nan = q.getD (r.1 - i) nan := fun q => by
          conv_lhs => rw [hr3]
          exact g' (orFill_len h2)
        have := e2 (r.1 - i) hr2
        have hv : (P.withRows.A *ᵥ x) r = x ⟨r.1 - i, hr2⟩ := by
          rw [← this]
          congr 1
          exact Fin.ext hr3
        rw [hv, q1, q2]
        exact h.box ⟨r.1 - i, hr2⟩
    · have : r.1 < m := r.2
      change ((List.replicate m ninf).getD r.1 nan <=. _) = true ∧ (_ <=. (List.replicate m pinf).getD r.1 nan) = true
      simp only [List.getD_eq_getElem?_getD, List.getElem?_replicate, this, if_true, Option.getD_some]
      exact ⟨rfl, rfl⟩
  · intro h
    refine ⟨fun r => ?_, h.L, h.R, fun r => ?_⟩
    · have hr : r.1 < i := r.2
      have := h.A ⟨r.1, by show r.1 < i + m; omega⟩
      change ((List.take (i + m) _).getD r.1 nan <=. _) = true ∧ (_ <=. (List.take (i + m) _).getD r.1 nan) = true at this
      rw [t1, t2, g (orFill_len h1) hr, g (orFill_len h2) hr, e1 r.1 hr] at this
      exact this
    · have hr : r.1 < m := r.2
      have := h.A ⟨i + r.1, by show i + r.1 < i + m; omega⟩
      change ((List.take (i + m) _).getD (i + r.1) nan <=. _) = true ∧ (_ <=. (List.take (i + m) _).getD (i + r.1) nan) = true at this
      rw [t1, t2, g' (orFill_len h1), g' (orFill_len h2), e2 r.1 hr] at this
      exact this

/-- C70: bounds on the variables may be written as linear constraints.  In particular a problem with bounds, which cannot
be solved with OSQP as it is, leads to the same run with OSQP when its bounds are written as linear constraints (and OSQP
solves the subproblems exactly) as with qpOASES when they are not. -/
theorem C70_box (ho : Fresh o ⟨m, i, j⟩) (ho' : Fresh o' ⟨m, i + m, j⟩) (hl : Loads e o o1 ⟨m, i, j⟩ P x0 b)
    (hl' : Loads e' o' o1' ⟨m, i + m, j⟩ P.withRows x0 (b.withRows i m)) (he : SolvesExactly e ⟨m, i, j⟩ P b)
    (he' : SolvesExactly e' ⟨m, i + m, j⟩ P.withRows (b.withRows i m))
    (ha : a.Of e o.d.opts) (ha' : a.Of e' o'.d.opts) (f0 : a.factor ≠ 0) (hr : o.d.opts.rho0 = fin r0)
    (hr' : o'.d.opts.rho0 = fin r0) (hQ : P.Qᵀ = P.Q) (hpd : ∀ v, v ≠ 0 → 0 < v ⬝ᵥ (P.Q *ᵥ v))
    {fuel fuel' : Nat} {rv rv' : RV} {o2 o2' : Obj (Ext K)} (h : runSolver e fuel o1 = .ok (some (rv, o2)))
    (h' : runSolver e' fuel' o1' = .ok (some (rv', o2'))) (hown : Ref.Own rv) (hown' : Ref.Own rv') :
    rv = rv' ∧ SameOutcome o2.s o2'.s := by
  have hf : OptLen b.lbA i ∧ OptLen b.ubA i ∧ OptLen b.lb m ∧ OptLen b.ub m := by
    rcases hl with ⟨c, hc, rfl, _⟩ | ⟨c, hc, rfl, _⟩
    · exact ⟨hc.fits.lbA, hc.fits.ubA, hc.fits.lb, hc.fits.ub⟩
    · exact ⟨hc.fits.lbA, hc.fits.ubA, hc.fits.lb, hc.fits.ub⟩
  exact C70_loads ho ho' hl hl' he he' ha ha' f0 hr hr' hQ hQ hpd (fun _ => rfl) (fun _ => rfl)
    (fun x => withRows_feas hf.1 hf.2.1 hf.2.2.1 hf.2.2.2 x) h h' hown hown'

end

namespace Ex

/-- as `ans4`, but with the multipliers of the bounds `x ≥ 0`, `y ≥ 0` instead of those of the constraints -/
def ansIn (a b : ℚ) : List ℚ × List ℚ × List ℚ :=
  ([max 0 (-a/2), max 0 (-b/2)], [0, 0], [2 * max 0 (-a/2) + a, 2 * max 0 (-b/2) + b])

/-- the arguments `args5L` with the bounds `x, y ≥ 0` (which are constraints already) -/
def argsIn := argsOf [2, 0, 0, 2] [-4, -2] [0] [0] (some (emb [0, 0])) none (some (emb [0, 1]))

theorem exactIn : ExactOn (solver ansIn) dim (IsSub prob5L ![fin 0, fin 0] (fun _ => pinf) ![fin 0, fin 0] (fun _ => pinf)) := by
  apply solver_exact
  intro g
  refine ⟨![max 0 (-g 0 / 2), max 0 (-g 1 / 2)], 0, ![2 * max 0 (-g 0 / 2) + g 0, 2 * max 0 (-g 1 / 2) + g 1], rfl, ?_⟩
  have h1 := le_max_left 0 (-g 0 / 2)
  have h2 := le_max_right 0 (-g 0 / 2)
  have h3 := le_max_left 0 (-g 1 / 2)
  have h4 := le_max_right 0 (-g 1 / 2)
  have c1 : 0 = max 0 (-g 0 / 2) ∨ -g 0 / 2 = max 0 (-g 0 / 2) := by
    rcases max_choice 0 (-g 0 / 2) with h | h
    · exact Or.inl h.symm
    · exact Or.inr h.symm
  have c2 : 0 = max 0 (-g 1 / 2) ∨ -g 1 / 2 = max 0 (-g 1 / 2) := by
    rcases max_choice 0 (-g 1 / 2) with h | h
    · exact Or.inl h.symm
    · exact Or.inr h.symm
  generalize max 0 (-g 0 / 2) = a at *
  generalize max 0 (-g 1 / 2) = b at *
  refine kkt_of (Fin.forall_fin_two.mpr ⟨?_, ?_⟩) (fun i => rfl) (Fin.forall_fin_two.mpr ⟨?_, ?_⟩) (fun i => rfl)
    (Fin.forall_fin_two.mpr ⟨?_, ?_⟩) (fun i h => absurd h (lt_irrefl _)) (fun i h => absurd h (lt_irrefl _))
    (Fin.forall_fin_two.mpr ⟨fun h => ?_, fun h => ?_⟩) (Fin.forall_fin_two.mpr ⟨fun h => ?_, fun h => ?_⟩)
  · simpa using h1
  · simpa using h3
  · simpa using h1
  · simpa using h3
  · simp
  · simp
  · have h : 0 < 2 * a + g 0 := h
    rcases c1 with c | c
    · exact congrArg fin c
    · linarith
  · have h : 0 < 2 * b + g 1 := h
    rcases c2 with c | c
    · exact congrArg fin c
    · linarith
  · have h : 2 * a + g 0 < 0 := h
    linarith
  · have h : 2 * b + g 1 < 0 := h
    linarith

theorem lookIn : look (go (solver ansIn) opts5L argsIn 20) = some ⟨.successfulReturn, some 2, some 0, some (fin 4000),
    some (emb [0, 1]), some (emb [0, 0]), some (emb [3996, 0, -4000, 0])⟩ := by decide +kernel

/-- parameters of the reference algorithm for `opts5L` -/
def parIn : Ref.Par ℚ where
  factor := 2
  statTol := 2221 / 10000000000000
  complTol := 1 / 1000
  maxRho := 100000000
  eta := 9 / 10
  maxIter := 1000
  nDyn := 3
  zeroFirst := false
  perturb := false
  rnd := (solver ans4).rnd

theorem loads_of {e : Env (Ext ℚ)} {op : Options (Ext ℚ)} {a : DenseArgs (Ext ℚ)} {P : Prob ℚ dim} {v : Fin 2 → ℚ}
    (ha : a.Are dim P v) (hl : (loadDense e (Obj.new op 2 0 1) a).map (·.1) = .ok .successfulReturn) {fuel : Nat} {l : Look}
    (hr : look (go e op a fuel) = some l) : ∃ o o', Loads e (Obj.new op 2 0 1) o dim P v a.bnds ∧
      runSolver e fuel o = .ok (some (l.rv, o')) ∧ o'.s.yk = l.y := by
  cases h : loadDense e (Obj.new op 2 0 1) a with
  | error x => rw [h] at hl; cases hl
  | ok q =>
    rw [h] at hl
    obtain ⟨c, o⟩ := q
    have hl : c = .successfulReturn := by injection hl
    subst hl
    obtain ⟨o', h1, _, _, _, _, _, h2⟩ := look_inv h hr
    exact ⟨o, o', Or.inl ⟨a, ha, rfl, h⟩, h1, h2⟩

theorem parIn_of (ans : ℚ → ℚ → List ℚ × List ℚ × List ℚ) : parIn.Of (solver ans) opts5L := by
  refine ⟨?_, ?_, ?_, ?_, ?_, ?_, ?_, ?_, ?_, rfl⟩ <;> decide +kernel

end Ex

/-- C70: the multipliers may depend on the QP solver, if those of the subproblems are not unique: two runs that satisfy all
assumptions of `C70_loads` (so these are not contradictory), both successful, with different multipliers.  In the second
one the constraints `x, y ≥ 0` are given as bounds as well. -/
theorem C70_multipliers : ∃ (e e' : Env (Ext ℚ)) (o o1 o1' o2 o2' : Obj (Ext ℚ)) (P : Prob ℚ ⟨2, 0, 1⟩) (x0 : Fin 2 → ℚ) (r0 : ℚ)
    (a : Ref.Par ℚ) (b b' : Bnds (Ext ℚ)) (fuel : Nat), Fresh o ⟨2, 0, 1⟩ ∧ Loads e o o1 ⟨2, 0, 1⟩ P x0 b ∧
    Loads e' o o1' ⟨2, 0, 1⟩ P x0 b' ∧ SolvesExactly e ⟨2, 0, 1⟩ P b ∧ SolvesExactly e' ⟨2, 0, 1⟩ P b' ∧
    a.Of e o.d.opts ∧ a.Of e' o.d.opts ∧ a.factor ≠ 0 ∧ o.d.opts.rho0 = fin r0 ∧ P.Qᵀ = P.Q ∧
    (∀ v, v ≠ 0 → 0 < v ⬝ᵥ (P.Q *ᵥ v)) ∧ (∀ x, b.Feas P x ↔ b'.Feas P x) ∧
    runSolver e fuel o1 = .ok (some (.successfulReturn, o2)) ∧ runSolver e' fuel o1' = .ok (some (.successfulReturn, o2')) ∧
    o2.s.yk ≠ o2'.s.yk := by
  have hx : ArgOpt (some (emb [0, 1])) 2 (![0, 1] : Fin 2 → ℚ) := Or.inr ⟨[0, 1], rfl, by decide, by decide +kernel⟩
  obtain ⟨o1, o2, h1, h2, h3⟩ := Ex.loads_of (a := Ex.args5L) (v := ![0, 1]) (Ex.argsOf_are rfl rfl rfl rfl (by rintro v ⟨⟩)
    (by rintro v ⟨⟩) hx) Ex.load5L Ex.look5L
  obtain ⟨o1', o2', h4, h5, h6⟩ := Ex.loads_of (a := Ex.argsIn) (v := ![0, 1]) (Ex.argsOf_are rfl rfl rfl rfl (by rintro v ⟨⟩; rfl)
    (by rintro v ⟨⟩) hx) rfl Ex.lookIn
  refine ⟨_, _, Obj.new Ex.opts5L 2 0 1, o1, o1', o2, o2', Ex.prob5L, _, 4000, Ex.parIn, _, _, 20, fresh_new _ (by decide) (by decide),
    h1, h4, ⟨Ex.solver_fin _, ?_⟩, ⟨Ex.solver_fin _, ?_⟩, Ex.parIn_of _, Ex.parIn_of _, ?_, ?_, (Ex.prob_psd (by decide)).1, ?_, ?_,
    h2, h5, ?_⟩
  · have e1 : Ex.args5L.bnds.rowLo Ex.dim = ![fin 0, fin 0] := funext (Fin.forall_fin_two.mpr (by decide +kernel))
    have e2 : Ex.args5L.bnds.rowHi Ex.dim = fun _ => pinf := funext (Fin.forall_fin_two.mpr (by decide +kernel))
    have e3 : Ex.args5L.bnds.boxLo Ex.dim = fun _ => ninf := funext (Fin.forall_fin_two.mpr (by decide +kernel))
    have e4 : Ex.args5L.bnds.boxHi Ex.dim = fun _ => pinf := funext (Fin.forall_fin_two.mpr (by decide +kernel))
    rw [e1, e2, e3, e4]
    exact Ex.exact4
  · have e1 : Ex.argsIn.bnds.rowLo Ex.dim = ![fin 0, fin 0] := funext (Fin.forall_fin_two.mpr (by decide +kernel))
    have e2 : Ex.argsIn.bnds.rowHi Ex.dim = fun _ => pinf := funext (Fin.forall_fin_two.mpr (by decide +kernel))
    have e3 : Ex.argsIn.bnds.boxLo Ex.dim = ![fin 0, fin 0] := funext (Fin.forall_fin_two.mpr (by decide +kernel))
    have e4 : Ex.argsIn.bnds.boxHi Ex.dim = fun _ => pinf := funext (Fin.forall_fin_two.mpr (by decide +kernel))
    rw [e1, e2, e3, e4]
    exact Ex.exactIn
  · decide +kernel
  · decide +kernel
  · intro v hv
    have hs : v ⬝ᵥ (Ex.prob5L.Q *ᵥ v) = 2 * (v 0 * v 0 + v 1 * v 1) := by
      change ∑ i : Fin 2, v i * (Ex.prob5L.Q *ᵥ v) i = _
      rw [Fin.sum_univ_two, Ex.prob_Q, Ex.prob_Q]
      ring
    rw [hs]
    have h0 := mul_self_nonneg (v 0)
    have h1 := mul_self_nonneg (v 1)
    by_contra hc
    refine hv (funext (Fin.forall_fin_two.mpr ⟨?_, ?_⟩))
    · exact mul_self_eq_zero.mp (by linarith)
    · exact mul_self_eq_zero.mp (by linarith)
  · intro x
    have hL : (Ex.prob5L.L *ᵥ x) 0 = x 0 := by
      change ∑ i : Fin 2, Ex.prob5L.L 0 i * x i = _
      rw [Fin.sum_univ_two]
      simp [Ex.prob, mat]
    have hR : (Ex.prob5L.R *ᵥ x) 0 = x 1 := by
      change ∑ i : Fin 2, Ex.prob5L.R 0 i * x i = _
      rw [Fin.sum_univ_two]
      simp [Ex.prob, mat]
    refine ⟨fun h => ⟨h.A, h.L, h.R, Fin.forall_fin_two.mpr ⟨⟨?_, rfl⟩, ?_, rfl⟩⟩, fun h => ⟨h.A, h.L, h.R, fun i => ?_⟩⟩
    · rw [← hL]
      exact (h.L 0).1
    · rw [← hR]
      exact (h.R 0).1
    · revert i
      exact Fin.forall_fin_two.mpr ⟨⟨rfl, rfl⟩, rfl, rfl⟩
  · rw [h3, h6]
    decide +kernel

end LCQ
