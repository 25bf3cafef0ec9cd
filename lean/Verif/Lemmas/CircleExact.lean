import Verif.Lemmas.CircleProb
import Verif.Lemmas.CircleRun
import Verif.Props.Perturb

/-!
# OptimizeOnCircle: the loaded data in exact arithmetic
-/

namespace LCQ.Circle
open Scalar Ext
open scoped Matrix

variable {K : Type} [Field K] [LinearOrder K] [IsStrictOrderedRing K] {N : Nat}

theorem emb_of {l : List (Ext K)} (h : ∀ i < l.length, ∃ v : K, l[i]? = some (fin v)) : ∃ l' : List K, l = emb l' := by
  refine ⟨l.map fun v => match v with | fin v => v | _ => 0, ?_⟩
  apply List.ext_getElem?
  intro i
  by_cases hi : i < l.length
  · obtain ⟨v, hv⟩ := h i hi
    simp [emb, hv]
  · simp [emb, hi]

theorem MatHas.arg {m k : Nat} {F : Nat → Nat → Ext K} {l : List (Ext K)} (h : MatHas m k F l) {G : Matrix (Fin m) (Fin k) K}
    (hF : ∀ (i : Fin m) (j : Fin k), F i j = fin (G i j)) : ArgMat (some l) m k G := by
  obtain ⟨hl, hv⟩ := h
  obtain ⟨l', rfl⟩ := emb_of (l := l) (by
    intro i hi
    rw [hl] at hi
    have k0 : 0 < k := Nat.pos_of_ne_zero (by rintro rfl; simp at hi)
    have h1 : i / k < m := (Nat.div_lt_iff_lt_mul k0).mpr hi
    have h2 : i % k < k := Nat.mod_lt _ k0
    refine ⟨G ⟨_, h1⟩ ⟨_, h2⟩, ?_⟩
    rw [← hF, ← hv _ h1 _ h2, Nat.div_add_mod' i k])
  refine ⟨l', rfl, by simp [emb] at hl; omega, ?_⟩
  ext i j
  have := hv i i.2 j j.2
  rw [hF] at this
  have hlt : i.1 * k + j.1 < l'.length := by
    by_contra hc
    simp [emb, Nat.le_of_not_lt hc] at this
  simp only [emb, List.getElem?_map, List.getElem?_eq_getElem hlt, Option.map_some, Option.some.injEq, fin.injEq] at this
  simp only [mat, List.getD_eq_getElem?_getD, List.getElem?_eq_getElem hlt, Option.getD_some, this]

theorem VecHas.arg {m : Nat} {F : Nat → Ext K} {l : List (Ext K)} (h : VecHas m F l) {G : Fin m → K}
    (hF : ∀ i : Fin m, F i = fin (G i)) : ArgVec (some l) m G := by
  obtain ⟨hl, hv⟩ := h
  obtain ⟨l', rfl⟩ := emb_of (l := l) (by
    intro i hi
    rw [hl] at hi
    exact ⟨G ⟨i, hi⟩, by rw [← hF, ← hv _ hi]⟩)
  refine ⟨l', rfl, by simp [emb] at hl; omega, ?_⟩
  ext i
  have := hv i i.2
  rw [hF] at this
  have hlt : i.1 < l'.length := by
    by_contra hc
    simp [emb, Nat.le_of_not_lt hc] at this
  simp only [emb, List.getElem?_map, List.getElem?_eq_getElem hlt, Option.map_some, Option.some.injEq, fin.injEq] at this
  simp only [vec, List.getD_eq_getElem?_getD, List.getElem?_eq_getElem hlt, Option.getD_some, this]

/-- the directions as stored -/
def stored (d : Nat → K × K) (i : Nat) : Ext K × Ext K := (fin (d i).1, fin (d i).2)

/-- the initial guess -/
def start (N : Nat) (j : Fin (dims N).nV) : K := if j.1 = 0 then 1 / 2 else if j.1 = 1 then -3 / 5 else 1

theorem lit_fin (m : Int) (e : Nat) : (lit m e : Ext K) = fin ((m : K) / 10 ^ e) := rfl

theorem Arrays.Are.exact {d : Nat → K × K} {a : Arrays (Ext K)} (h : a.Are N (stored d)) : a.args.Are (dims N) (prob N d) (start N) := by
  have one_fin : (one : Ext K) = fin 1 := by simp [one, lit_fin]
  refine ⟨h.fits, h.Q.arg ?_, h.g.arg ?_, Or.inr (h.A.arg ?_), h.L.arg ?_, h.R.arg ?_, Or.inl ⟨rfl, rfl, rfl, rfl⟩, Or.inr (h.x0.arg ?_)⟩
  · intro i j
    simp only [hess, prob, Fin.ext_iff, lit_fin, zero_fin]
    split_ifs <;> simp
  · intro j
    simp only [lin, prob, lit_fin, zero_fin]
    split_ifs with h1 h2 h3 h4 <;> first | (exfalso; omega) | rfl | skip
    · show fin _ = fin _
      congr 1
      norm_num
    · show fin _ = fin _
      congr 1
      norm_num
  · intro i j
    simp only [cons, prob, one_fin, zero_fin, stored]
    split_ifs <;> rfl
  · intro i j
    simp only [left, prob, one_fin, zero_fin]
    split_ifs <;> rfl
  · intro i j
    simp only [right, prob, one_fin, zero_fin]
    split_ifs <;> rfl
  · intro j
    simp only [guess, start, one_fin, lit_fin]
    split_ifs
    · congr 1; norm_num
    · show fin _ = fin _
      congr 1; norm_num
    · rfl

theorem bounds {o : Obj (Ext K)} {d : Nat → K × K} {a : Arrays (Ext K)} (h : a.Are N (stored d)) (hs : Stored o (dims N) a.args.bnds) :
    BoundsAre o (dims N) (lowA N) (uppA N) (fun _ => ninf) (fun _ => pinf) := by
  have one_fin : (one : Ext K) = fin 1 := by simp [one, lit_fin]
  have key : ∀ (l : List (Ext K)), VecHas (N + 1) (fun _ => one) l → orFill (some l) (N + 1) = fun _ => List.replicate (N + 1) (fin 1) := by
    intro l hl
    funext _
    have : l = List.replicate (N + 1) (fin 1) := by
      apply List.ext_getElem?
      intro i
      by_cases hi : i < N + 1
      · rw [hl.2 i hi, one_fin, List.getElem?_replicate, if_pos hi]
      · rw [List.getElem?_eq_none (by rw [hl.1]; omega), List.getElem?_replicate, if_neg hi]
    simp only [orFill]
    rw [this, List.take_of_length_le (by simp)]
  have fn : ∀ (v w : Ext K), List.replicate (N + 1) v ++ List.replicate N w ++ List.replicate N w =
      List.ofFn fun i : Fin (dims N).nA => if i.1 < N + 1 then v else w := by
    intro v w
    have hA : (dims N).nA = N + 1 + N + N := by simp only [Dims.nA]; omega
    apply List.ext_getElem?
    intro i
    rw [List.append_assoc, List.replicate_append_replicate]
    by_cases hi : i < (dims N).nA
    · rw [List.getElem?_ofFn, dif_pos hi]
      dsimp only
      split_ifs with h1
      · rw [List.getElem?_append_left (by simpa using h1), List.getElem?_replicate, if_pos h1]
      · rw [List.getElem?_append_right (by simp; omega), List.getElem?_replicate, if_pos (by simp; omega)]
    · rw [List.getElem?_eq_none (by simp; omega), List.getElem?_eq_none (by simpa using hi)]
  refine ⟨?_, ?_, ?_, ?_⟩
  · rw [hs.lbA]
    show some (orFill (some a.lbA) (N + 1) ninf ++ orFill none N (fin 0) ++ orFill none N (fin 0)) = _
    rw [key _ h.lbA]
    exact congrArg some (fn _ _)
  · rw [hs.ubA]
    show some (orFill (some a.ubA) (N + 1) pinf ++ orFill none N pinf ++ orFill none N pinf) = _
    rw [key _ h.ubA]
    exact congrArg some (fn _ _)
  · rw [hs.lb]
    exact (List.ofFn_const _ _).symm
  · rw [hs.ub]
    exact (List.ofFn_const _ _).symm

/-- feasibility for the constraints of the subproblems -/
theorem feasible_iff (d : Nat → K × K) (x : Fin (dims N).nV → K) :
    Feasible (prob N d) (lowA N) (uppA N) (fun _ => ninf) (fun _ => pinf) x ↔ Linear d x := by
  have hA : (dims N).nA = N + 1 + N + N := by simp only [Dims.nA]; omega
  have r1 : ∀ i : Fin N, (((prob N d).AA *ᵥ x) ⟨i, by have := i.2; omega⟩) = along d i (px x) (py x) + lam x i := fun i => by
    rw [AA_A x (show i.1 < (dims N).nC by have := i.2; simp only; omega)]
    exact prob_A d x i
  have r2 : (((prob N d).AA *ᵥ x) ⟨N, by omega⟩) = ∑ i, the x i := by
    rw [AA_A x (show N < (dims N).nC by simp only; omega)]
    exact prob_sum d x
  have r3 : ∀ i : Fin N, (((prob N d).AA *ᵥ x) ⟨N + 1 + i, by have := i.2; omega⟩) = lam x i := fun i => by
    rw [← prob_L d x i]
    exact AA_L x (show i.1 < (dims N).nComp from i.2) _
  have r4 : ∀ i : Fin N, (((prob N d).AA *ᵥ x) ⟨N + 1 + N + i, by have := i.2; omega⟩) = the x i := fun i => by
    rw [← prob_R d x i]
    exact AA_R x (show i.1 < (dims N).nComp from i.2) _
  constructor
  · intro h
    have lo : ∀ i, (lowA N i <=. fin (((prob N d).AA *ᵥ x) i)) = true := h.lA
    have up : ∀ i, (fin (((prob N d).AA *ᵥ x) i) <=. uppA N i) = true := h.uA
    refine ⟨fun i => ?_, ?_, fun i => ?_, fun i => ?_⟩
    · have h1 := lo ⟨i, by have := i.2; omega⟩
      have h2 := up ⟨i, by have := i.2; omega⟩
      rw [r1, lowA, if_pos (by have := i.2; simp only; omega)] at h1
      rw [r1, uppA, if_pos (by have := i.2; simp only; omega)] at h2
      exact le_antisymm (by simpa using h2) (by simpa using h1)
    · have h1 := lo ⟨N, by omega⟩
      have h2 := up ⟨N, by omega⟩
      rw [r2, lowA, if_pos (by simp only; omega)] at h1
      rw [r2, uppA, if_pos (by simp only; omega)] at h2
      exact le_antisymm (by simpa using h2) (by simpa using h1)
    · have h1 := lo ⟨N + 1 + i, by have := i.2; omega⟩
      rw [r3, lowA, if_neg (by simp only; omega)] at h1
      simpa using h1
    · have h1 := lo ⟨N + 1 + N + i, by have := i.2; omega⟩
      rw [r4, lowA, if_neg (by simp only; omega)] at h1
      simpa using h1
  · intro h
    have val : ∀ i : Fin (dims N).nA, (i.1 < N + 1 ∧ ((prob N d).AA *ᵥ x) i = 1) ∨ (¬ i.1 < N + 1 ∧ 0 ≤ ((prob N d).AA *ᵥ x) i) := by
      rintro ⟨i, hi⟩
      rcases lt_or_ge i (N + 1) with h1 | h1
      · left
        refine ⟨h1, ?_⟩
        rcases Nat.lt_succ_iff_lt_or_eq.mp h1 with h2 | rfl
        · exact (r1 ⟨i, h2⟩).trans (h.slack _)
        · exact r2.trans h.sum
      · right
        refine ⟨not_lt.mpr h1, ?_⟩
        rcases lt_or_ge i (N + 1 + N) with h2 | h2
        · obtain ⟨j, rfl⟩ := Nat.exists_eq_add_of_le h1
          exact (r3 ⟨j, by omega⟩).ge.trans' (h.lam _)
        · obtain ⟨j, rfl⟩ := Nat.exists_eq_add_of_le h2
          exact (r4 ⟨j, by omega⟩).ge.trans' (h.the _)
    refine ⟨fun i => ?_, fun i => ?_, fun i => rfl, fun i => rfl⟩
    · show (lowA N i <=. fin (((prob N d).AA *ᵥ x) i)) = true
      rcases val i with ⟨h1, h2⟩ | ⟨h1, h2⟩
      · rw [lowA, if_pos h1, h2]; simp
      · rw [lowA, if_neg h1]; simpa using h2
    · show (fin (((prob N d).AA *ᵥ x) i) <=. uppA N i) = true
      rcases val i with ⟨h1, h2⟩ | ⟨h1, h2⟩
      · rw [uppA, if_pos h1, h2]; simp
      · rw [uppA, if_neg h1]; rfl

end LCQ.Circle
