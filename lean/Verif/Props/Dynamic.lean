import Verif.Lemmas.Live
import Verif.Lemmas.Loop
import Verif.Props.Examples

/-!
# Dynamic penalty rule (C29)
-/

set_option linter.unusedSectionVars false

namespace LCQ
open Scalar

variable {α : Type} [Scalar α]

/-- the last `n` elements (all if there are fewer), spec level -/
def lastN {β : Type} (n : Nat) (l : List β) : List β := l.drop (l.length - n)

theorem lastN_length {β : Type} (n : Nat) (l : List β) : (lastN n l).length = min n l.length := by
  simp only [lastN, List.length_drop]
  omega

/-- the dynamic rule (spec level): `rec` are the complementarity values recorded since the last
penalty update, `cur` is the new one -/
def dynFires (n : Nat) (tol eta cur : α) (rec : List α) : Bool :=
  decide (n ≤ rec.length) && !(cur <. tol) && (lastN n rec).all fun h => !(cur <. eta *. h)

theorem histCheck_eq (eta cur : α) (hist : List α) :
    histCheck eta cur hist hist.length = .ok (hist.all fun h => !(cur <. eta *. h)) := by
  have key : ∀ k, k ≤ hist.length →
      loopE k (fun i (_ : Unit) => do
        let h ← rd hist i
        if cur <. eta *. h then .ok (.inr ()) else .ok (.inl ())) () =
      .ok (if (hist.take k).all (fun h => !(cur <. eta *. h)) then .inl () else .inr ()) := by
    intro k
    induction k with
    | zero => intro _; simp [loopE]
    | succ k ih =>
      intro hk
      have hlt : k < hist.length := by omega
      rw [loopE, ih (by omega)]
      have ht : hist.take (k + 1) = hist.take k ++ [hist[k]] := by
        rw [List.take_add_one, List.getElem?_eq_getElem hlt]
        rfl
      have hr : rd hist k = .ok hist[k] := by
        simp [rd, List.getElem?_eq_getElem hlt]
      rw [ht, List.all_append]
      by_cases hb : (hist.take k).all (fun h => !(cur <. eta *. h)) = true
      · simp only [hb, if_true, ok_bind, hr, List.all_cons, List.all_nil, Bool.and_true, Bool.true_and]
        cases hc : (cur <. eta *. hist[k]) <;> simp
      · have hb' : (hist.take k).all (fun h => !(cur <. eta *. h)) = false := by simpa using hb
        simp only [hb', Bool.false_and]
        simp
  unfold histCheck
  rw [key hist.length (le_refl _), List.take_length]
  cases (hist.all fun h => !(cur <. eta *. h)) <;> rfl

/-- C29.  With a positive window the rule fires exactly in the situation described by `dynFires`, and
the record is the sequence of the last `n` values in order. -/
theorem C29_rule {d : Data α} {s : St α} {cur : α} {rec : List α} (hn : 0 < d.opts.nDyn)
    (hphi : getPhi d s = .ok cur) (hrec : s.hist = lastN d.opts.nDyn.toNat rec) :
    leyfferCheckPositive d s = .ok
      (dynFires d.opts.nDyn.toNat d.opts.complTol d.opts.eta cur rec,
        { s with hist := lastN d.opts.nDyn.toNat (rec ++ [cur]) }) := by
  have hN : toSizeT d.opts.nDyn = d.opts.nDyn.toNat := by
    unfold toSizeT
    rw [if_neg (by omega)]
  have hpos : 0 < d.opts.nDyn.toNat := by omega
  unfold leyfferCheckPositive
  rw [hN, if_neg (by omega), hphi]
  generalize d.opts.nDyn.toNat = N at *
  simp only [ok_bind]
  have hlen := lastN_length N rec
  split
  · rename_i hlt
    rw [hrec, hlen] at hlt
    have hshort : rec.length < N := by omega
    have e1 : lastN N rec = rec := by simp [lastN, show rec.length - N = 0 by omega]
    have e2 : lastN N (rec ++ [cur]) = rec ++ [cur] := by
      simp [lastN, show rec.length + 1 - N = 0 by omega]
    rw [hrec, e1, e2]
    simp [dynFires, show ¬ N ≤ rec.length by omega]
  · rename_i hge
    rw [hrec, hlen] at hge
    have hlong : N ≤ rec.length := by omega
    have hl : (lastN N rec).length = N := by omega
    have e2 : lastN N (rec ++ [cur]) = (lastN N rec).tail ++ [cur] := by
      unfold lastN
      rw [List.length_append, List.length_singleton, ← List.drop_one, List.drop_drop,
        List.drop_append_of_le_length (by omega)]
      congr 2
      omega
    simp only [complementarityCheck, hphi, ok_bind]
    rw [hrec, e2]
    split
    · rename_i hc
      simp [dynFires, hc]
    · rename_i hc
      have hc' : (cur <. d.opts.complTol) = false := by simpa using hc
      have := histCheck_eq d.opts.eta cur (lastN N rec)
      rw [hl] at this
      rw [this]
      simp [dynFires, hc', hlong]

/-- With window 0 the rule never fires and nothing is recorded. -/
theorem C29_off {d : Data α} {s : St α} (hn : d.opts.nDyn = 0) :
    leyfferCheckPositive d s = .ok (false, s) := by
  simp [leyfferCheckPositive, toSizeT, hn]

/-- A negative window (accepted by the setter, see C11) is converted to a huge number: the rule never
fires, but every value is recorded and the record grows. -/
theorem C29_negative {d : Data α} {s : St α} {cur : α} (hn : d.opts.nDyn < 0)
    (hmin : -2147483648 ≤ d.opts.nDyn) (hphi : getPhi d s = .ok cur)
    (hlen : s.hist.length < 2 ^ 64 - 2 ^ 31) :
    leyfferCheckPositive d s = .ok (false, { s with hist := s.hist ++ [cur] }) := by
  have hN : toSizeT d.opts.nDyn = (2 ^ 64 + d.opts.nDyn).toNat := by
    unfold toSizeT
    rw [if_pos hn]
  unfold leyfferCheckPositive
  rw [hN, if_neg (by omega), hphi]
  simp only [ok_bind]
  rw [if_pos (by omega)]

theorem bump_hist {d : Data α} {s s' : St α} (h : bump d s = .ok s') :
    (0 < d.opts.nDyn → s'.hist = []) ∧ s'.xk = s.xk ∧
    ∃ k, s.outer = some k ∧ s'.outer = some (k + 1) := by
  obtain ⟨_, _, _, _, o, _, ho, _, rfl⟩ := bump_inv h
  refine ⟨?_, rfl, o, ho, rfl⟩
  intro hp
  simp [hp]

/-- The rule inside a pass that goes on: if `rec` are the values recorded since the last penalty update, the pass
records the value at the new iterate, and the record starts anew exactly when the penalty is
updated.  The penalty is updated once if the dynamic rule fires and once (more) if the new iterate passes the
stationarity test, for which the stationarity vector is not recomputed after the first update. -/
theorem C29_pass {e : Env α} {d : Data α} {s s' : St α} {rec : List α} {k : Int}
    (hn : 0 < d.opts.nDyn)
    (hrec : s.hist = lastN d.opts.nDyn.toNat rec) (hk : s.outer = some k)
    (h : pass e d s = .ok (.inl s')) :
    ∃ s1 cur f b, advance d s = .ok s1 ∧ getPhi d s1 = .ok cur ∧
      f = dynFires d.opts.nDyn.toNat d.opts.complTol d.opts.eta cur rec ∧ stationarityCheck d s1 = .ok b ∧
      s'.outer = some (k + (if f then 1 else 0) + (if b then 1 else 0)) ∧
      s'.hist = (if f || b then [] else lastN d.opts.nDyn.toNat (rec ++ [cur])) := by
  obtain ⟨s1, s2, s3, h1, h2, h3, ⟨_, _, q, _, hr⟩ | ⟨s4, t', rho, h4, _, _, hlim⟩⟩ := pass_inv h
  · cases hr
  have hn4 : nextStep e d s4 = .ok (.inl s') := by
    rcases hlim with ⟨_, hr⟩ | ⟨_, _, hr⟩ | ⟨_, _, hn4⟩
    · cases hr
    · cases hr
    · exact hn4
  have e1 : s1.hist = s.hist ∧ s1.outer = s.outer := by
    obtain ⟨x, a, b, c, p, l, st, t', i, _, _, _, _, hp, _, _, rfl⟩ := advance_inv h1
    subst hp
    exact ⟨rfl, rfl⟩
  have e5 : s'.hist = s4.hist ∧ s'.outer = s4.outer := by
    obtain ⟨gk, q, hq, ⟨_, hr⟩ | ⟨_, x, m, lt, a, hr⟩⟩ := nextStep_inv hn4
    · cases hr
    · injection hr with hr
      obtain ⟨_, _, _, it, ex, st, _, _, hst, w, c, m, x, y, a, b, p, hm, _, _, _, hq2⟩ := solveQP_inv hq
      rw [hr, hq2]
      exact ⟨rfl, rfl⟩
  obtain ⟨r, hh, hr, hrr, hdyn⟩ := dynamicPenalty_inv h2
  -- the value of the complementarity at the new iterate
  have hcur : ∃ cur, getPhi d s1 = .ok cur := by
    have := hr
    unfold leyfferCheckPositive at this
    rw [if_neg (by unfold toSizeT; rw [if_neg (by omega)]; omega)] at this
    simp only [bind_eq_ok] at this
    obtain ⟨cur, hcur, _⟩ := this
    exact ⟨cur, hcur⟩
  obtain ⟨cur, hcur⟩ := hcur
  -- the stationarity vector is that of the new iterate
  have hst : stationarityCheck d s3 = stationarityCheck d s1 := by
    have : s3.statk = s1.statk := by
      obtain ⟨gk, rfl⟩ := updateLinearization_inv h3
      rcases hdyn with ⟨_, rfl⟩ | ⟨_, hb⟩
      · rw [hrr]
      · obtain ⟨_, _, _, _, _, _, _, _, rfl⟩ := bump_inv hb
        simp only [hrr]
    simp only [stationarityCheck, this]
  rw [hst] at h4
  have hb : ∃ b, stationarityCheck d s1 = .ok b ∧ ((b = false ∧ s4 = s3) ∨ (b = true ∧ bump d s3 = .ok s4)) := by
    rcases h4 with ⟨hb, hs⟩ | ⟨hb, _, hs⟩
    · exact ⟨false, hb, .inl ⟨rfl, hs⟩⟩
    · exact ⟨true, hb, .inr ⟨rfl, hs⟩⟩
  obtain ⟨b, hb, h4⟩ := hb
  refine ⟨s1, cur, _, b, h1, hcur, rfl, hb, ?_⟩
  rw [e5.1, e5.2]
  have hrule := C29_rule (rec := rec) hn hcur (by rw [e1.1]; exact hrec)
  rw [hr] at hrule
  injection hrule with hrule
  subst hrule
  simp only at hdyn
  have hs3 : s3.hist = s2.hist ∧ s3.outer = s2.outer := by
    obtain ⟨gk, rfl⟩ := updateLinearization_inv h3
    exact ⟨rfl, rfl⟩
  rcases hdyn with ⟨hf, rfl⟩ | ⟨hf, hb⟩
  · rw [hf]
    rcases h4 with ⟨rfl, rfl⟩ | ⟨rfl, hb4⟩
    · refine ⟨?_, by rw [hs3.1]; rfl⟩
      rw [hs3.2]
      simp [e1.2, hk]
    · obtain ⟨g1, _, k', g2, g3⟩ := bump_hist hb4
      rw [hs3.2] at g2
      simp only at g2
      rw [e1.2, hk] at g2
      injection g2 with g2
      subst g2
      exact ⟨by simp [g3], by simp [g1 hn]⟩
  · rw [hf]
    obtain ⟨g1, _, k', g2, g3⟩ := bump_hist hb
    simp only at g2
    rw [e1.2, hk] at g2
    injection g2 with g2
    subst g2
    rcases h4 with ⟨rfl, rfl⟩ | ⟨rfl, hb4⟩
    · exact ⟨by rw [hs3.2, g3]; simp, by rw [hs3.1, g1 hn]; simp⟩
    · obtain ⟨g4, _, k'', g5, g6⟩ := bump_hist hb4
      rw [hs3.2, g3] at g5
      injection g5 with g5
      subst g5
      exact ⟨by simp [g6], by simp [g4 hn]⟩

/-- constant complementarity values: with window 3 and factor 0.9 the rule fires in the fourth pass;
here every pass is also non-stationary, so all updates come from the dynamic rule -/
example : (Ex.seen (Ex.run (Ex.envOf fun _ _ => Ex.good [1, 1] [])
    (fun o => { o with maxIter := 8 }) 1001)).map
    (fun r => (r.2.2.2.iterTotal, r.2.2.2.iterOuter, r.2.2.2.phiVals)) =
    some (9, 2, List.replicate 9 (.fin 1)) := by decide +kernel
example : (Ex.seen (Ex.run (Ex.envOf fun _ _ => Ex.good [1, 1] [])
    (fun o => { o with maxIter := 8, nDyn := 0 }) 1001)).map
    (fun r => (r.2.2.2.iterTotal, r.2.2.2.iterOuter)) = some (9, 0) := by decide +kernel
example : (Ex.seen (Ex.run (Ex.envOf fun _ _ => Ex.good [1, 1] [])
    (fun o => { o with maxIter := 8, nDyn := -1 }) 1001)).map
    (fun r => (r.2.2.2.iterTotal, r.2.2.2.iterOuter)) = some (9, 0) := by decide +kernel

end LCQ
