import Verif.Lemmas.CircleExact
import Verif.Props.Choice

/-!
# C75: the example program OptimizeOnCircle
-/

namespace LCQ.Circle
open Scalar

section anyArith
variable {α : Type} [Scalar α]

/-- C75 (any arithmetic): for every number of directions and whatever the C library returns for the cosines and sines, the
program writes no array outside its bounds, and the arrays hold the data of the specification. -/
theorem C75_data (N : Nat) (dir : Nat → α × α) : ∃ a, build N dir = .ok a ∧
    MatHas (2 + 2 * N) (2 + 2 * N) hess a.Q ∧ VecHas (2 + 2 * N) lin a.g ∧ MatHas N (2 + 2 * N) left a.L ∧
    MatHas N (2 + 2 * N) right a.R ∧ MatHas (N + 1) (2 + 2 * N) (cons N dir) a.A ∧ VecHas (N + 1) (fun _ => one) a.lbA ∧
    VecHas (N + 1) (fun _ => one) a.ubA ∧ VecHas (2 + 2 * N) guess a.x0 := by
  obtain ⟨a, h, hA⟩ := build_ok N dir
  exact ⟨a, h, hA.Q, hA.g, hA.L, hA.R, hA.A, hA.lbA, hA.ubA, hA.x0⟩

/-- the end of a successful run of the program -/
theorem tail_ok {e : Env α} {M : Int} (he : AnsBnd e M) (hM : 1001 * M ≤ intMax)
    (ho : ∀ r, (e.qp 0 r).setup = true ∧ (e.qp 0 r).warmX = true ∧ (e.qp 0 r).warmY = true)
    {N : Nat} {o2 : Obj α} {qd sd fuel : Nat} (hp : Prepared e (dims N) true o2) (hopt : o2.d.opts = options qd sd) :
    ∃ q, runSolver e fuel o2 = .ok q ∧ ∀ r, q = some (.successfulReturn, r) →
      ∃ x y : List α, r.s.xk = some x ∧ r.s.yk = some y ∧ x.length = 2 + 2 * N ∧ y.length = N + 1 + 2 * N ∧
        tail e N q = .ok (some ⟨0, some (some x, some (y ++ (e.alloc 1 (5 * N + 3)).drop (N + 1 + 2 * N)),
          getOutputStatistics r Stats.fresh)⟩) := by
  obtain ⟨q1, q2, _⟩ := options_eq (α := α) qd sd
  have hsm : Small o2.d.opts M := by
    rw [hopt]
    refine ⟨by rw [q2]; decide, by rw [q2]; decide, by rw [q2]; exact hM⟩
  obtain ⟨hu, hr⟩ := hp.untouched
  have hr := hr rfl
  obtain ⟨q, hq, hq'⟩ := runSolver_total (e := e) hr he hsm (fun _ _ => by rw [hu.calls]; exact ho) fuel
  refine ⟨q, hq, ?_⟩
  rintro r rfl
  obtain ⟨i, hi, hc⟩ := hq' _ rfl
  rcases hc with ⟨hne, hri⟩ | ⟨hok, ⟨x, hx, lx⟩, ⟨off, hnd, y, hy, ly⟩, hdim, _⟩
  · exact absurd hri.symm hne
  · obtain ⟨t, ht⟩ := run_algo hq hi hok
    have hd := (run_ended hq hi hok).1
    have hn := (initializeSolver_duals hr.dims hr.nV hi hok).1
    rw [if_pos (by rw [hopt, q1]), ← hd] at hn
    dsimp only at hd hn hnd hx hy hdim ht lx
    rw [hnd] at hn
    injection hn with hn
    rw [hn] at hnd ly
    have hly : (dims N).nC + 2 * (dims N).nComp = N + 1 + 2 * N := rfl
    have hlx : (dims N).nV = 2 + 2 * N := rfl
    have g1 := C38_primal r (dims N) t x (e.alloc 0 (2 + 2 * N)) hdim ht hx lx.ge (by simp [Env.alloc, hlx])
    have g2 := C38_dual r _ t y (e.alloc 1 (2 + 2 * N + (N + 1) + 2 * N)) hnd ht hy ly.ge (by
      rw [hly]
      simp only [Env.alloc, List.length_map, List.length_range]
      omega)
    rw [List.take_of_length_le lx.le, List.drop_of_length_le (by simp [Env.alloc, hlx]), List.append_nil] at g1
    rw [List.take_of_length_le ly.le, hly] at g2
    rw [show 2 + 2 * N + (N + 1) + 2 * N = 5 * N + 3 by omega] at g2
    have l0 : 0 < x.length := by omega
    have l1 : 1 < x.length := by omega
    refine ⟨x, y, hx, hy, lx, ly, ?_⟩
    simp only [tail, ne_eq, not_true, if_false, g1, ok_bind, show 2 + 2 * N + (N + 1) + 2 * N = 5 * N + 3 by omega, g2,
      deref_some, rd_ok l0, rd_ok l1]

/-- C75 (any arithmetic, any QP answers): the program has no undefined behaviour.  It is still running after `fuel` passes, or
ends with exit code 1, or ends with exit code 0; in the last case the solver returned success, `xOpt` holds the final iterate,
`yOpt` begins with the final multipliers, and the printed statistics are those of the run.  `M` bounds the iteration counts
reported by OSQP; its set-up and warm start calls have to succeed. -/
theorem C75_safe (e : Env α) (M : Int) (he : AnsBnd e M) (hM : 1001 * M ≤ intMax)
    (ho : ∀ r, (e.qp 0 r).setup = true ∧ (e.qp 0 r).warmX = true ∧ (e.qp 0 r).warmY = true)
    (N : Nat) (hN : 1 ≤ N) (dir : Nat → α × α) (qd sd fuel : Nat) :
    ∃ o q, Prepared e (dims N) true o ∧ runSolver e fuel o = .ok q ∧
      match q with
      | none => main e N dir qd sd fuel = .ok none
      | some (rv, r) =>
        (rv ≠ .successfulReturn → main e N dir qd sd fuel = .ok (some ⟨1, none⟩)) ∧
        (rv = .successfulReturn → ∃ x y z, r.s.xk = some x ∧ r.s.yk = some y ∧ x.length = 2 + 2 * N ∧
          y.length = 3 * N + 1 ∧ z.length = 2 + 2 * N ∧
          main e N dir qd sd fuel = .ok (some ⟨0, some (some x, some (y ++ z), getOutputStatistics r Stats.fresh)⟩)) := by
  obtain ⟨a, o1, o2, _, _, _, _, _, hopt, hp, hm⟩ := main_start e hN dir qd sd fuel
  obtain ⟨q, hq, h⟩ := tail_ok he hM ho (fuel := fuel) hp hopt
  refine ⟨o2, q, hp, hq, ?_⟩
  rw [hm, hq, ok_bind]
  cases q with
  | none => rfl
  | some r =>
    obtain ⟨rv, r⟩ := r
    dsimp only
    refine ⟨fun hr => ?_, ?_⟩
    · simp only [tail, ne_eq, hr, not_false_eq_true, if_true]
    · rintro rfl
      obtain ⟨x, y, hx, hy, lx, ly, ht⟩ := h r rfl
      refine ⟨x, y, _, hx, hy, lx, by omega, ?_, ht⟩
      simp only [Env.alloc, List.length_drop, List.length_map, List.length_range]
      omega

end anyArith

/-! ## exact arithmetic -/

section exact
open Ext
open scoped Matrix
variable {K : Type} [Field K] [LinearOrder K] [IsStrictOrderedRing K] {N : Nat} {e : Env (Ext K)} {d : Nat → K × K}

/-- C75: what the data mean.  The constraints of the subproblems are `d_i·p + λ_i = 1`, `Σ θ_i = 1`, `λ, θ ≥ 0`, the
complementarity violation is `Σ λ_i θ_i`, and up to a constant the objective is `½ (p - ref)' H (p - ref)` with
`H = [17 -15; -15 17]`, `ref = (1/2, -3/5)`, plus a small multiple of `|λ|² + |θ|²`. -/
theorem C75_meaning (d : Nat → K × K) (x : Fin (dims N).nV → K) :
    (Feasible (prob N d) (lowA N) (uppA N) (fun _ => ninf) (fun _ => pinf) x ↔ Linear d x) ∧
    (prob N d).phi x = ∑ i, lam x i * the x i ∧
    (prob N d).obj x = (17 * (px x - 1 / 2) ^ 2 - 30 * (px x - 1 / 2) * (py x + 3 / 5) + 17 * (py x + 3 / 5) ^ 2) / 2 - 1937 / 200 +
      5 / 10 ^ 12 * (∑ i, (lam x i ^ 2 + the x i ^ 2)) / 2 :=
  ⟨feasible_iff d x, prob_phi d x, prob_obj d x⟩

/-- C75: a point can be completed to a feasible point of the problem with complementarity exactly if it lies on the boundary of
the polygon `d_i·p ≤ 1`. -/
theorem C75_polygon (d : Nat → K × K) (a b : K) :
    (∃ x : Fin (dims N).nV → K, px x = a ∧ py x = b ∧ Linear d x ∧ (prob N d).phi x = 0) ↔
      (∀ i : Fin N, along d i a b ≤ 1) ∧ ∃ i : Fin N, along d i a b = 1 := by
  constructor
  · rintro ⟨x, rfl, rfl, h, hp⟩
    rw [prob_phi, Finset.sum_eq_zero_iff_of_nonneg fun i _ => mul_nonneg (h.lam i) (h.the i)] at hp
    refine ⟨fun i => by linarith [h.slack i, h.lam i], ?_⟩
    by_contra hc
    push Not at hc
    have : ∑ i, the x i = 0 := Finset.sum_eq_zero fun i hi => by
      rcases mul_eq_zero.mp (hp i hi) with h0 | h0
      · exact absurd (by linarith [h.slack i]) (hc i)
      · exact h0
    rw [h.sum] at this
    exact one_ne_zero this
  · rintro ⟨h1, i, hi⟩
    let x : Fin (dims N).nV → K := fun j => if j.1 = 0 then a else if j.1 = 1 then b else
      if j.1 % 2 = 0 then 1 - along d ((j.1 - 2) / 2) a b else if j.1 = 2 * i + 3 then 1 else 0
    have ex : px x = a := by
      simp [px, x]
    have ey : py x = b := by
      simp [py, x]
    have el : ∀ k : Fin N, lam x k = 1 - along d k a b := fun k => by
      show (if 2 * k.1 + 2 = 0 then a else if 2 * k.1 + 2 = 1 then b else if (2 * k.1 + 2) % 2 = 0 then
        1 - along d ((2 * k.1 + 2 - 2) / 2) a b else if 2 * k.1 + 2 = 2 * i.1 + 3 then 1 else 0) = _
      rw [if_neg (by omega), if_neg (by omega), if_pos (by omega), show (2 * k.1 + 2 - 2) / 2 = k.1 by omega]
    have et : ∀ k : Fin N, the x k = if k = i then 1 else 0 := fun k => by
      show (if 2 * k.1 + 3 = 0 then a else if 2 * k.1 + 3 = 1 then b else if (2 * k.1 + 3) % 2 = 0 then
        1 - along d ((2 * k.1 + 3 - 2) / 2) a b else if 2 * k.1 + 3 = 2 * i.1 + 3 then (1 : K) else 0) = _
      rw [if_neg (by omega), if_neg (by omega), if_neg (by omega)]
      congr 1
      rw [Fin.ext_iff]
      apply propext
      constructor <;> intro h <;> omega
    refine ⟨x, ex, ey, ⟨fun k => ?_, ?_, fun k => ?_, fun k => ?_⟩, ?_⟩
    · rw [ex, ey, el]; ring
    · simp only [et, Finset.sum_ite_eq', Finset.mem_univ, if_true]
    · rw [el]; linarith [h1 k]
    · rw [et]; split_ifs <;> norm_num
    · rw [prob_phi]
      refine Finset.sum_eq_zero fun k _ => ?_
      rw [el, et]
      split_ifs with hk
      · rw [hk, hi]; ring
      · ring

/-- the object before and after a successful run of the program -/
theorem main_exact (hN : 1 ≤ N) (he : FinAns e) {qd sd fuel : Nat} {xo yo : Option (List (Ext K))} {st : Stats (Ext K)}
    (h : main e N (stored d) qd sd fuel = .ok (some ⟨0, some (xo, yo, st)⟩)) :
    ∃ o o', Setup e o (dims N) (prob N d) (start N) (1 / 100) 2 ∧
      BoundsAre o (dims N) (lowA N) (uppA N) (fun _ => ninf) (fun _ => pinf) ∧ o.d.opts = options qd sd ∧
      runSolver e fuel o = .ok (some (.successfulReturn, o')) ∧ st = getOutputStatistics o' Stats.fresh ∧
      ∃ (x : Fin (dims N).nV → K) (y : Fin (0 + (dims N).nA) → K) (z : List (Ext K)),
        o'.s.xk = some (ev x) ∧ o'.s.yk = some (ev y) ∧ o'.d.boxOff = some 0 ∧ xo = some (ev x) ∧ yo = some (ev y ++ z) := by
  obtain ⟨a, o1, o2, _, hA, h1, h2, hs, hopt, hp, hm⟩ := main_start e hN (stored d) qd sd fuel
  obtain ⟨q1, q2, q3, q4, q5, q6⟩ := options_eq (α := Ext K) qd sd
  have hp0 : Prepared e (dims N) false
      (setOptions (Obj.new (Options.default qd sd) (2 + 2 * N : Nat) (N + 1 : Nat) (N : Nat)) (options qd sd)) := by
    refine .options _ (.new _ _ _ _ ⟨by omega, by omega, by omega⟩ ?_)
    simp only [Int.toNat_natCast, dims]
  have hb := hp0.untouched.1.toBuilt
  have hd0 : (setOptions (Obj.new (Options.default qd sd) (2 + 2 * N : Nat) (N + 1 : Nat) (N : Nat)) (options qd sd)).d =
      { (Obj.blank (options qd sd : Options (Ext K))).d with dims := some ⟨((2 + 2 * N : Nat) : Int).toNat, ((N + 1 : Nat) : Int).toNat, ((N : Nat) : Int).toNat⟩ } := by
    simp only [setOptions, Obj.new]
    rw [if_neg (by omega), if_neg (by omega), if_neg (by omega)]
    rfl
  obtain ⟨hS, hd⟩ := Setup.dense (r0 := 1 / 100) (f := 2) hb ⟨by rw [hd0]; rfl, by rw [hd0]; rfl, by rw [hd0]; rfl, by rw [hd0]; exact zero_fin⟩ hA.exact h1 (q4.trans (by rw [lit_fin]; norm_num))
    (q5.trans (by rw [two, lit_fin]; norm_num)) two_ne_zero he
  have hSt := Stored.dense hb (by rw [hd0]; rfl) (by rw [hd0]; rfl) hA.fits h1
  have hp1 : Prepared e (dims N) true o1 := .dense a.args hp0 hA.fits (by simp [Arrays.args]) h1
  obtain ⟨o3, h3, _, _, _, hS3, hSt3⟩ := hS.toSparse hp1.untouched.1 hd
  rw [h2] at h3
  injection h3 with h3
  injection h3 with _ h3
  subst h3
  rw [hm] at h
  obtain ⟨q, hq, h⟩ := bind_eq_ok.mp h
  cases q with
  | none => simp [tail] at h
  | some r =>
    obtain ⟨rv, o'⟩ := r
    simp only [tail] at h
    split at h
    · simp at h
    · rename_i hrv
      rw [not_not] at hrv
      subst hrv
      refine ⟨o2, o', hS3, bounds hA (hSt3 _ hSt), hopt, hq, ?_⟩
      obtain ⟨s, hs, hps⟩ := run_last hq
      obtain ⟨off, hD, _⟩ := hS3.head hs
      obtain ⟨i, hi, hc⟩ := runSolver_inv hq
      have hi1 : i.1 = .successfulReturn := by
        rcases hc with ⟨hne, hr⟩ | ⟨h, _⟩
        · injection hr with hr _
          exact hr.symm
        · exact h
      have hnd := (initializeSolver_duals hS3.ready.dims hS3.ready.nV hi hi1).1
      have hdd : o'.d = i.2.d := (run_ended hq hi hi1).1
      rw [if_pos (by rw [hopt, q1]), ← hdd, hD.nDuals] at hnd
      have hoff : off = 0 := by
        injection hnd with hnd
        simp only [Dims.nA] at hnd
        omega
      subst hoff
      obtain ⟨t, ht⟩ := run_algo hq hi hi1
      obtain ⟨x, hx, _⟩ := C20_complementary hS3 (ts := 1 / 100) (tc := 1000 * epsK) (hopt ▸ q6.trans (by
        rw [if_neg (by simp [lit_fin, eps]; norm_num)]
        rw [lit_fin]; norm_num)) (hopt ▸ q3.trans (by simp [eps, lit_fin, epsK])) hq
      obtain ⟨off', x', y, hb', hx', hy, _⟩ := C21_stationary hS3 (ts := 1 / 100) (tc := 1000 * epsK) (hopt ▸ q6.trans (by
        rw [if_neg (by simp [lit_fin, eps]; norm_num)]
        rw [lit_fin]; norm_num)) (hopt ▸ q3.trans (by simp [eps, lit_fin, epsK])) (fun _ => prob_symm d) hq (Or.inl (prob_gPhi d))
      rw [hD.boxOff] at hb'
      injection hb' with hb'
      subst hb'
      have ln : ∀ k m, (e.alloc k m).length = m := fun k m => by simp [Env.alloc]
      have hly : 0 + (dims N).nA = N + 1 + 2 * N := by simp only [Dims.nA]; omega
      have g1 := C38_primal o' (dims N) t (ev x) (e.alloc 0 (2 + 2 * N)) hD.dims ht hx (by simp) (by simp [ln])
      have g2 := C38_dual o' _ t (ev y) (e.alloc 1 (2 + 2 * N + (N + 1) + 2 * N)) hD.nDuals ht hy (by simp) (by
        rw [hly, ln]; omega)
      rw [List.take_of_length_le (by simp), List.drop_of_length_le (by simp [ln]), List.append_nil] at g1
      rw [List.take_of_length_le (by simp)] at g2
      simp only [g1, g2, ok_bind, deref_some] at h
      obtain ⟨_, _, h⟩ := bind_eq_ok.mp h
      obtain ⟨_, _, h⟩ := bind_eq_ok.mp h
      injection h with h
      injection h with h
      injection h with _ h
      injection h with h
      injection h with ha hb
      injection hb with hb hc
      exact ⟨hc.symm, x, y, _, hx, hy, hD.boxOff, ha.symm, hb.symm⟩

/-- C75: if the program ends with exit code 0 and the points returned by OSQP are within `t` of points satisfying the linear
constraints, then `xOpt` is within `t + k * EPS` of such a point, where `k + 1` is the printed number of iterations and
`k ≤ 1000`; its complementarity violation is below `1000 * EPS`; with the multipliers at the beginning of `yOpt` the residual of
the stationarity condition is below 0.01 in every coordinate. -/
theorem C75_result {t : K} (hN : 1 ≤ N) (he : FinAns e)
    (hF : NearOn e (dims N) (IsSub (prob N d) (lowA N) (uppA N) (fun _ => ninf) (fun _ => pinf)) t) {qd sd fuel : Nat}
    {xo yo : Option (List (Ext K))} {st : Stats (Ext K)} (h : main e N (stored d) qd sd fuel = .ok (some ⟨0, some (xo, yo, st)⟩)) :
    ∃ (k : Nat) (x v : Fin (dims N).nV → K) (y : Fin (0 + (dims N).nA) → K) (z : List (Ext K)),
      st.iterTotal = k + 1 ∧ k ≤ 1000 ∧ xo = some (ev x) ∧ yo = some (ev y ++ z) ∧ Linear d v ∧
      (∀ i, |x i - v i| ≤ t + k * epsK) ∧ (prob N d).phi x < 1000 * epsK ∧ ∀ i, |(prob N d).residual x y i| < 1 / 100 := by
  obtain ⟨o, o', hS, hB, hopt, hq, rfl, x, y, z, hx, hy, hb, rfl, rfl⟩ := main_exact hN he h
  obtain ⟨q1, q2, q3, q4, q5, q6⟩ := options_eq (α := Ext K) qd sd
  have hts : o.d.opts.statTol = fin (1 / 100) := hopt ▸ q6.trans (by
    rw [if_neg (by simp [lit_fin, eps]; norm_num)]
    rw [lit_fin]; norm_num)
  have htc : o.d.opts.complTol = fin (1000 * epsK) := hopt ▸ q3.trans (by simp [eps, lit_fin, epsK])
  obtain ⟨k, x1, h1, h2, hx1, v, hv, hxv⟩ := C37_returned hS hB hF hq
  obtain ⟨x2, hx2, hphi⟩ := C20_complementary hS hts htc hq
  obtain ⟨off, x3, y3, hb3, hx3, hy3, hst⟩ := C21_stationary hS hts htc (fun _ => prob_symm d) hq (Or.inl (prob_gPhi d))
  rw [hx] at hx1 hx2 hx3
  rw [hb] at hb3
  injection hb3 with hb3
  subst hb3
  rw [hy] at hy3
  have e1 : x = x1 := ev_inj (Option.some.inj hx1)
  have e2 : x = x2 := ev_inj (Option.some.inj hx2)
  have e3 : x = x3 := ev_inj (Option.some.inj hx3)
  have e4 : y = y3 := ev_inj (Option.some.inj hy3)
  subst e1 e2 e3 e4
  rw [hopt, q2] at h2
  exact ⟨k, x, v, y, z, h1, by omega, rfl, rfl, (feasible_iff d v).mp hv, hxv, hphi, hst⟩

/-- C75: a point near the linear constraints with small complementarity violation is near the boundary of the polygon
`d_i·p ≤ 1`. -/
theorem C75_boundary {x v : Fin (dims N).nV → K} {t tc : K} (hv : Linear d v) (hx : ∀ i, |x i - v i| ≤ t)
    (hphi : (prob N d).phi x < tc) :
    |px x - px v| ≤ t ∧ |py x - py v| ≤ t ∧ (∀ i : Fin N, along d i (px v) (py v) ≤ 1) ∧
      ∃ i : Fin N, 1 - along d i (px v) (py v) < tc + t * (1 + ∑ j : Fin N, (1 - along d j (px v) (py v))) + N * t ^ 2 := by
  have hl : ∀ i : Fin N, lam v i = 1 - along d i (px v) (py v) := fun i => by linarith [hv.slack i]
  refine ⟨hx _, hx _, fun i => by linarith [hv.slack i, hv.lam i], ?_⟩
  have hprod : ∀ i : Fin N, lam v i * the v i ≤ lam x i * the x i + t * lam v i + t * the v i + t ^ 2 := by
    intro i
    have g1 : |lam x i - lam v i| ≤ t := hx _
    have g2 : |the x i - the v i| ≤ t := hx _
    have t0 : 0 ≤ t := (abs_nonneg _).trans g1
    have c1 : -(t * the v i) ≤ (lam x i - lam v i) * the v i := by
      have := mul_le_mul_of_nonneg_right (abs_le.mp g1).1 (hv.the i)
      linarith
    have c2 : -(t * lam v i) ≤ (the x i - the v i) * lam v i := by
      have := mul_le_mul_of_nonneg_right (abs_le.mp g2).1 (hv.lam i)
      linarith
    have c3 : -(t ^ 2) ≤ (lam x i - lam v i) * (the x i - the v i) := by
      have : |(lam x i - lam v i) * (the x i - the v i)| ≤ t * t := by
        rw [abs_mul]
        exact mul_le_mul g1 g2 (abs_nonneg _) t0
      have := (abs_le.mp this).1
      rw [pow_two]
      exact this
    nlinarith [c1, c2, c3]
  have hsum : ∑ i, lam v i * the v i ≤ (prob N d).phi x + t * ∑ i, lam v i + t + N * t ^ 2 := by
    have := Finset.sum_le_sum fun i (_ : i ∈ Finset.univ) => hprod i
    simp only [Finset.sum_add_distrib, ← Finset.mul_sum, Finset.sum_const, Finset.card_univ, Fintype.card_fin, nsmul_eq_mul, hv.sum] at this
    rw [prob_phi]
    linarith
  by_contra hc
  push Not at hc
  have hlow : ∑ i : Fin N, (tc + t * (1 + ∑ j : Fin N, (1 - along d j (px v) (py v))) + N * t ^ 2) * the v i ≤ ∑ i, lam v i * the v i :=
    Finset.sum_le_sum fun i _ => mul_le_mul_of_nonneg_right (by rw [hl]; exact hc i) (hv.the i)
  rw [← Finset.mul_sum, hv.sum, mul_one] at hlow
  have hs : ∑ i, lam v i = ∑ j : Fin N, (1 - along d j (px v) (py v)) := Finset.sum_congr rfl fun i _ => hl i
  rw [hs] at hsum
  linarith

end exact

end LCQ.Circle
