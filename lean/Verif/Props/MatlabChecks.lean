import Verif.Props.MatlabSparse

/-!
# C51: what the checks of the MATLAB interface accept
-/

namespace LCQ
open Scalar

variable {α : Type} [Scalar α] {n : Dims}

/-- what an argument is needed for -/
inductive MexRole where
  /-- matrix of the linear constraints -/
  | mat
  /-- bounds of the linear constraints -/
  | lin
  /-- bounds of the linear constraints, in the one form of a call where a struct was possible as well -/
  | linDbl
  /-- box constraints -/
  | box
  /-- parameters -/
  | params

/-- the roles of the arguments from number 8 on, for every number of arguments; with 11 arguments there are two forms, told apart by
the class of the last one -/
def mexRoles : Nat → Bool → List (Nat × MexRole)
  | 9, _ => [(8, .params)]
  | 10, _ => [(8, .box), (9, .box)]
  | 11, true => [(8, .box), (9, .box), (10, .params)]
  | 11, false => [(8, .mat), (9, .lin), (10, .linDbl)]
  | 12, _ => [(8, .mat), (9, .lin), (10, .lin), (11, .params)]
  | 13, _ => [(8, .mat), (9, .lin), (10, .lin), (11, .box), (12, .box)]
  | 14, _ => [(8, .mat), (9, .lin), (10, .lin), (11, .box), (12, .box), (13, .params)]
  | _, _ => []

/-- double array of the given size -/
def IsDbl (m k : Nat) (a : Mx α) : Prop := a.isDouble = true ∧ a.rows = m ∧ a.cols = k

/-- the argument suits its role -/
def MexRole.Suits (n : Dims) (a : Mx α) : MexRole → Prop
  | .mat => a.isEmpty = true ∨ IsDbl n.nC n.nV a
  | .lin => a.isEmpty = true ∨ IsDbl n.nC 1 a
  | .linDbl => a.isDouble = true ∧ (a.isEmpty = true ∨ IsDbl n.nC 1 a)
  | .box => a.isEmpty = true ∨ IsDbl n.nV 1 a
  | .params => a.isStruct = true

/-- the arguments the checks should accept; `lbL`, `ubL`, `lbR`, `ubR` are missing -/
structure MexAccepted (prhs : List (Mx α)) (n : Dims) : Prop where
  Q : ∃ a, prhs[0]? = some a ∧ IsDbl n.nV n.nV a
  g : ∃ a, prhs[1]? = some a ∧ IsDbl n.nV 1 a
  L : ∃ a, prhs[2]? = some a ∧ IsDbl n.nComp n.nV a
  R : ∃ a, prhs[3]? = some a ∧ IsDbl n.nComp n.nV a
  more : ∀ p ∈ mexRoles prhs.length (tenIsStruct prhs), ∃ a, prhs[p.1]? = some a ∧ p.2.Suits n a

omit [Scalar α] in
theorem checkDouble_iff {a : Mx α} {m k : Nat} {name : String} {b : Bool} :
    checkDouble a m k name b = .ok () ↔ (b = true ∧ a.isEmpty = true) ∨ IsDbl m k a := by
  unfold checkDouble IsDbl
  cases b <;> cases a.isEmpty <;> cases a.isDouble <;> by_cases h : a.rows = m <;> by_cases h' : a.cols = k <;> simp [h, h']

omit [Scalar α] in
theorem checkArg_iff {prhs : List (Mx α)} {i m k : Nat} {name : String} {c b : Bool} :
    checkArg c prhs i m k name b = .ok () ↔
      (c = true → ∃ a, prhs[i]? = some a ∧ ((b = true ∧ a.isEmpty = true) ∨ IsDbl m k a)) := by
  unfold checkArg
  cases c
  · simp
  · simp only [if_true, mx_bind_ok, lift_eq_ok, arg, rd, forall_const]
    cases prhs[i]? <;> simp [checkDouble_iff]

omit [Scalar α] in
theorem checkParams_iff {prhs : List (Mx α)} {i : Nat} {c : Bool} :
    checkParams c prhs i = .ok () ↔ (c = true → ∃ a, prhs[i]? = some a ∧ a.isStruct = true) := by
  unfold checkParams checkStruct
  cases c
  · simp
  · simp only [if_true, mx_bind_ok, lift_eq_ok, arg, rd, forall_const]
    cases prhs[i]? with
    | none => simp
    | some a => cases h : a.isStruct <;> simp [h]

theorem mx_unit_bind {τ : Type} {m : MX Unit} {f : Unit → MX τ} {b : τ} :
    (m >>= f) = Except.ok b ↔ m = Except.ok () ∧ f () = Except.ok b := by
  rw [mx_bind_ok]
  exact ⟨fun ⟨_, h⟩ => h, fun h => ⟨(), h⟩⟩

omit [Scalar α] in
theorem checkLin_iff {prhs : List (Mx α)} {c : Bool} : checkLin c prhs n = .ok () ↔ (c = true →
    (∃ a, prhs[8]? = some a ∧ MexRole.mat.Suits n a) ∧ (∃ a, prhs[9]? = some a ∧ MexRole.lin.Suits n a) ∧
    ∃ a, prhs[10]? = some a ∧ MexRole.lin.Suits n a) := by
  simp only [checkLin, mx_unit_bind, checkArg_iff, MexRole.Suits, true_and]
  cases c <;> simp

omit [Scalar α] in
theorem checkBox_iff {prhs : List (Mx α)} {c : Bool} {i : Nat} : checkBox c prhs i n = .ok () ↔ (c = true →
    (∃ a, prhs[i]? = some a ∧ MexRole.box.Suits n a) ∧ ∃ a, prhs[i + 1]? = some a ∧ MexRole.box.Suits n a) := by
  simp only [checkBox, mx_unit_bind, checkArg_iff, MexRole.Suits, true_and]
  cases c <;> simp

omit [Scalar α] in
/-- C51: the checks accept a call with an admissible number of arguments exactly if every argument but `lbL`, `ubL`, `lbR`, `ubR` has
the class and the size that its role demands. -/
theorem C51_checks (prhs : List (Mx α)) (n : Dims) (h8 : 8 ≤ prhs.length) (h14 : prhs.length ≤ 14) :
    mexChecks prhs n = .ok () ↔ MexAccepted prhs n := by
  have ten : tenIsStruct prhs = true → tenIsDouble prhs = false := by
    unfold tenIsStruct tenIsDouble
    cases prhs[10]? with
    | none => simp
    | some a => cases a <;> simp [Mx.isStruct, Mx.isDouble]
  have e : mexChecks prhs n = .ok () ↔ (∃ a, prhs[0]? = some a ∧ IsDbl n.nV n.nV a) ∧ (∃ a, prhs[1]? = some a ∧ IsDbl n.nV 1 a) ∧
      (∃ a, prhs[2]? = some a ∧ IsDbl n.nComp n.nV a) ∧ (∃ a, prhs[3]? = some a ∧ IsDbl n.nComp n.nV a) ∧
      ∀ p ∈ mexRoles prhs.length (tenIsStruct prhs), ∃ a, prhs[p.1]? = some a ∧ p.2.Suits n a := by
    simp only [mexChecks, mx_unit_bind, checkArg_iff, checkLin_iff, checkBox_iff, checkParams_iff, forall_const, Bool.false_eq_true,
      false_and, false_or, Bool.and_eq_true, Bool.or_eq_true, beq_iff_eq, decide_eq_true_eq, Bool.not_eq_true']
    refine and_congr_right fun _ => and_congr_right fun _ => and_congr_right fun _ => and_congr_right fun _ => ?_
    generalize hk : prhs.length = k at *
    have : k = 8 ∨ k = 9 ∨ k = 10 ∨ k = 11 ∨ k = 12 ∨ k = 13 ∨ k = 14 := by omega
    rcases this with rfl | rfl | rfl | rfl | rfl | rfl | rfl
    · simp [mexRoles]
    · simp [mexRoles, MexRole.Suits]
    · simp [mexRoles]
    · have ha : prhs[10]? = some (prhs[10]'(by omega)) := List.getElem?_eq_getElem _
      generalize prhs[10]'(by omega) = a at ha
      cases hs : tenIsStruct prhs with
      | true =>
        have := ten hs
        simp [mexRoles, this, MexRole.Suits, and_assoc]
      | false =>
        have e1 : a.isStruct = false := by simpa [tenIsStruct, ha] using hs
        have e2 : tenIsDouble prhs = a.isDouble := by simp [tenIsDouble, ha]
        rw [e2]
        cases hd : a.isDouble <;> simp [mexRoles, MexRole.Suits, ha, e1, hd, and_assoc]
    · simp [mexRoles, MexRole.Suits, and_assoc]
    · simp [mexRoles, MexRole.Suits, and_assoc]
    · simp [mexRoles, MexRole.Suits, and_assoc]
  rw [e]
  exact ⟨fun ⟨a, b, c, d, f⟩ => ⟨a, b, c, d, f⟩, fun ⟨a, b, c, d, f⟩ => ⟨a, b, c, d, f⟩⟩

theorem paramsIdx_range {prhs : List (Mx α)} {k : Nat} (h : paramsIdx prhs = some k) : 7 < k := by
  unfold paramsIdx at h
  split at h
  · injection h; omega
  split at h
  · injection h; omega
  split at h
  · injection h; omega
  split at h
  · injection h; omega
  · cases h

theorem set_argPr (prhs : List (Mx α)) {i : Nat} {a b : Mx α} (h : a.pr = b.pr) (k : Nat) : argPr (prhs.set i a) k = argPr (prhs.set i b) k := by
  simp only [argPr, arg, rd]
  by_cases hk : i = k
  · subst hk
    by_cases hl : i < prhs.length
    · rw [List.getElem?_set_self hl, List.getElem?_set_self hl]
      exact h
    · rw [List.getElem?_eq_none (by simpa using hl), List.getElem?_eq_none (by simpa using hl)]
  · rw [List.getElem?_set_ne hk, List.getElem?_set_ne hk]

/-- C51: nothing of `lbL`, `ubL`, `lbR`, `ubR` but the pointer to their numbers is ever looked at -/
theorem mexLoad_pr (E : MexEnv α) (prhs : List (Mx α)) {i : Nat} (hi : 4 ≤ i ∧ i ≤ 7) {a b : Mx α} (h : a.pr = b.pr) :
    mexLoad E (prhs.set i a) = mexLoad E (prhs.set i b) := by
  have e : ∀ k, k < 4 ∨ 7 < k → (prhs.set i a)[k]? = (prhs.set i b)[k]? := fun k hk => by
    rw [List.getElem?_set_ne (by omega), List.getElem?_set_ne (by omega)]
  have eA : ∀ k, k < 4 ∨ 7 < k → arg (prhs.set i a) k = arg (prhs.set i b) k := fun k hk => by
    simp only [arg, rd, e k hk]
  have eP := set_argPr prhs (i := i) h
  have s10 : tenIsStruct (prhs.set i a) = tenIsStruct (prhs.set i b) := by simp only [tenIsStruct, e 10 (by omega)]
  have d10 : tenIsDouble (prhs.set i a) = tenIsDouble (prhs.set i b) := by simp only [tenIsDouble, e 10 (by omega)]
  have kd : mexDims (prhs.set i a) = mexDims (prhs.set i b) := by
    simp only [mexDims, mexNC, s10, List.length_set, eA 0 (by omega), eA 2 (by omega), eA 8 (by omega)]
  have kc : ∀ n, mexChecks (prhs.set i a) n = mexChecks (prhs.set i b) n := fun n => by
    simp only [mexChecks, checkArg, checkBox, checkLin, checkParams, s10, d10, List.length_set, eA 0 (by omega), eA 1 (by omega),
      eA 2 (by omega), eA 3 (by omega), eA 8 (by omega), eA 9 (by omega), eA 10 (by omega), eA 11 (by omega), eA 12 (by omega),
      eA 13 (by omega), Nat.reduceAdd]
  have kp : ∀ n, mexParams E n (prhs.set i a) = mexParams E n (prhs.set i b) := fun n => by
    have : paramsIdx (prhs.set i a) = paramsIdx (prhs.set i b) := by simp only [paramsIdx, d10, List.length_set]
    simp only [mexParams, this]
    split
    · rfl
    · rename_i k hk
      rw [eA k (Or.inr (paramsIdx_range hk))]
  have kv : ∀ m, readVectors (prhs.set i a) m = readVectors (prhs.set i b) m := fun m => by
    simp only [readVectors, readMore, eP, List.length_set]
  have kD : ∀ o n x0 y0, mexData E.e o n (prhs.set i a) x0 y0 = mexData E.e o n (prhs.set i b) x0 y0 := fun o n x0 y0 => by
    simp only [mexData, argSparse, mexSparse, mexDense, allSparse, sparseA, sparseArgs, denseArgs, readA, colA, kv, eP, eA 0 (by omega),
      eA 2 (by omega), eA 3 (by omega), eA 8 (by omega)]
  simp only [mexLoad, List.length_set, kd, kc, kp, kD]

/-- C51: an empty array of whatever class in the place of `lbL`, `ubL`, `lbR` or `ubR` is read like `[]` -/
theorem C51_foreign_empty (E : MexEnv α) (prhs : List (Mx α)) {i : Nat} (hi : 4 ≤ i ∧ i ≤ 7) {a : Mx α}
    (ha : (∃ m k, a = .other m k ∧ (m = 0 ∨ k = 0)) ∨ (∃ m k, a = .logical m k []) ∨ ∃ fs, a = .struct fs) :
    mexLoad E (prhs.set i a) = mexLoad E (prhs.set i (.dbl 0 0 [])) := by
  refine mexLoad_pr E prhs hi ?_
  rcases ha with ⟨m, k, rfl, h | h⟩ | ⟨m, k, rfl⟩ | ⟨fs, rfl⟩
  · simp [Mx.pr, h]
  · simp [Mx.pr, h]
  · simp [Mx.pr]
  · simp [Mx.pr]

/-- C51 (a defect): a non-empty array of another class (`single`, `int32`, `char`, `logical`, …) in the place of `lbL`, `ubL`, `lbR` or
`ubR` passes the checks, and its bytes are then read as if they were double values. -/
theorem C51_foreign (E : MexEnv α) (prhs : List (Mx α)) (hlen : ¬ (prhs.length < 8 ∨ 14 < prhs.length)) (hd : mexDims prhs = .ok n)
    (hc : MexAccepted prhs n) {p : Params α} (hp : mexParams E n prhs = .ok p) {Q : Mx α} (hQ : prhs[0]? = some Q)
    (sQ : Q.isSparse = false) {i : Nat} (hi : 4 ≤ i ∧ i ≤ 7) {a : Mx α} (ha : prhs[i]? = some a)
    (hf : (∃ m k, a = .other m k ∧ 0 < m ∧ 0 < k) ∨ ∃ m k b l, a = .logical m k (b :: l)) :
    mexLoad E prhs = .error (.fault .oob) := by
  have hc := (C51_checks prhs n (by omega) (by omega)).2 hc
  have aQ : argSparse prhs 0 = .ok false := by simp [argSparse, arg, rd, hQ, sQ]
  have pa : argPr prhs i = .error .oob := by
    rw [argPr, arg, rd, ha]
    show a.pr = _
    rcases hf with ⟨m, k, rfl, hm, hk⟩ | ⟨m, k, b, l, rfl⟩
    · simp [Mx.pr, show m ≠ 0 by omega, show k ≠ 0 by omega]
    · simp [Mx.pr]
  have key : denseArgs E.e n prhs p.x0 p.y0 = .error .oob := by
    cases ha : denseArgs E.e n prhs p.x0 p.y0 with
    | error f => rw [denseArgs_only _ _ _ _ _ f ha]
    | ok a =>
      exfalso
      simp only [denseArgs, readVectors, bind_eq_ok] at ha
      obtain ⟨_, _, Lc, hL, Rc, hR, Ac, hA, v, ⟨_, _, _, h4, _, h5, _, h6, _, h7, _⟩, _⟩ := ha
      have : i = 4 ∨ i = 5 ∨ i = 6 ∨ i = 7 := by omega
      rcases this with rfl | rfl | rfl | rfl
      · rw [pa] at h4; cases h4
      · rw [pa] at h5; cases h5
      · rw [pa] at h6; cases h6
      · rw [pa] at h7; cases h7
  rw [mexLoad, if_neg hlen, hd, mx_ok_bind, hc, mx_ok_bind]
  simp only [hp, mx_ok_bind, mexData, aQ, lift_ok, mexDense, key, lift_error, mx_error_bind, if_neg (show ¬ false = true by simp)]

namespace Ex

/-- C51: full matrices; `ubL` of class `single`, and as an empty `single` array -/
example : (mexLoad (mex qpGood) [.dbl 2 2 (emb [2, 0, 0, 2]), .dbl 2 1 (emb [-2, -3]), .dbl 1 2 (emb [1, 0]), .dbl 1 2 (emb [0, 1]),
      .dbl 0 0 [], .other 1 1, .dbl 0 0 [], .dbl 0 0 []]).map (fun _ => ()) = .error (.fault .oob) ∧
    (mexLoad (mex qpGood) [.dbl 2 2 (emb [2, 0, 0, 2]), .dbl 2 1 (emb [-2, -3]), .dbl 1 2 (emb [1, 0]), .dbl 1 2 (emb [0, 1]),
      .dbl 0 0 [], .other 1 0, .dbl 0 0 [], .dbl 0 0 []]).map (fun _ => ()) = .ok () := by
  refine ⟨?_, ?_⟩ <;> decide +kernel

/-- C51: full matrices and box constraints are accepted, a `g` of class `single` is not -/
example : mexChecks (α := Ext ℚ) [.dbl 2 2 (emb [2, 0, 0, 2]), .dbl 2 1 (emb [-2, -3]), .dbl 1 2 (emb [1, 0]), .dbl 1 2 (emb [0, 1]),
      .dbl 0 0 [], .other 1 1, .dbl 0 0 [], .dbl 0 0 [], .dbl 2 1 (emb [0, 0]), .dbl 0 0 []] ⟨2, 0, 1⟩ = .ok () ∧
    ¬ MexAccepted (α := Ext ℚ) [.dbl 2 2 (emb [2, 0, 0, 2]), .other 2 1, .dbl 1 2 (emb [1, 0]), .dbl 1 2 (emb [0, 1]),
      .dbl 0 0 [], .dbl 0 0 [], .dbl 0 0 [], .dbl 0 0 []] ⟨2, 0, 1⟩ := by
  refine ⟨by decide +kernel, ?_⟩
  rw [← C51_checks _ _ (by decide) (by decide)]
  decide +kernel

end Ex

end LCQ
