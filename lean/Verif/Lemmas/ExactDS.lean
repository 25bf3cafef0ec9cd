import Verif.Lemmas.Stack
import Verif.Props.Dense
import Verif.Props.Sparse
import Verif.Props.MaxAbs

/-!
# Exact arithmetic: the kernels on finite vectors and matrices, dense or sparse
-/

set_option linter.unusedSectionVars false

namespace LCQ
open Scalar Ext
open scoped Matrix

/-- array holding a vector -/
def ev {K : Type} {n : Nat} (v : Fin n → K) : List (Ext K) := emb (List.ofFn v)

@[simp] theorem ev_length {K : Type} {n : Nat} (v : Fin n → K) : (ev v).length = n := by simp [ev, emb]

variable {K : Type} [Field K] [LinearOrder K] {m n : Nat}

theorem vec_ofFn (v : Fin n → K) : vec n (List.ofFn v) = v := by
  funext i
  simp [vec, List.getD_eq_getElem?_getD]

theorem emb_eq_ev {l : List K} {v : Fin n → K} (hl : l.length = n) (h : vec n l = v) : emb l = ev v := by
  have : l = List.ofFn v := vec_inj hl (by simp) (by rw [h, vec_ofFn])
  rw [this, ev]

theorem vecIs_iff {b : Option (List (Ext K))} {v : Fin n → K} : VecIs b n v ↔ b = some (ev v) := by
  constructor
  · rintro ⟨l, rfl, hl, h⟩
    rw [emb_eq_ev hl h]
  · rintro rfl
    exact ⟨List.ofFn v, rfl, by simp, vec_ofFn v⟩

theorem ev_inj {v w : Fin n → K} (h : ev v = ev w) : v = w := by
  have := emb_inj h
  rw [← vec_ofFn v, this, vec_ofFn]

theorem gt_ev (v : Fin n → K) (i : Fin n) : gt (ev v) i = fin (v i) := by
  rw [ev, gt_emb]
  simp [List.getD_eq_getElem?_getD]

theorem gt_ev' (v : Fin n → K) {i : Nat} (h : i < n) : gt (ev v) i = fin (v ⟨i, h⟩) := gt_ev v ⟨i, h⟩

theorem tab_eq_ev {f : Nat → Ext K} {v : Fin n → K} (h : ∀ i : Fin n, f i = fin (v i)) : tab n f = ev v := by
  rw [← emb_eq_ev (l := tab n fun i => if hi : i < n then v ⟨i, hi⟩ else 0) (v := v) (by simp)
    (by rw [vec_tab]; funext i; simp), ← emb_tab]
  apply tab_congr
  intro i hi
  rw [dif_pos hi]
  exact h ⟨i, hi⟩

theorem eq_tab_gt {α : Type} [Scalar α] {l : List α} (h : l.length = n) : l = tab n (gt l) := by
  apply List.ext_getElem?
  intro i
  by_cases hi : i < n
  · rw [tab_getElem? _ hi]
    simp [gt, List.getD_eq_getElem?_getD, h, hi]
  · rw [List.getElem?_eq_none (by omega), List.getElem?_eq_none (by simp; omega)]

/-- an array of finite entries holds a vector -/
theorem exists_ev {l : List (Ext K)} (h : l.length = n) (hf : ∀ i < n, ∃ a, gt l i = fin a) :
    ∃ v : Fin n → K, l = ev v := by
  refine ⟨fun i => (hf i i.2).choose, ?_⟩
  exact (eq_tab_gt h).trans <| tab_eq_ev fun i => (hf i i.2).choose_spec

/-- the matrix by which the affine map of the source multiplies: in sparse form it is transposed -/
def tr (sp : Bool) (Mx : Matrix (Fin n) (Fin n) K) : Matrix (Fin n) (Fin n) K := if sp then Mxᵀ else Mx

theorem tr_symm (sp : Bool) {Mx : Matrix (Fin n) (Fin n) K} (h : Mxᵀ = Mx) : tr sp Mx = Mx := by
  unfold tr
  split
  · exact h
  · rfl

theorem MatIs.cases {sp : Bool} {B : Option (List (Ext K))} {S : Option (CSC (Ext K))} {Mx : Matrix (Fin m) (Fin n) K}
    (h : MatIs sp B S m n Mx) : (sp = true ∧ SpIs S m n Mx) ∨ (sp = false ∧ DnsIs B m n Mx) := by
  unfold MatIs at h
  cases sp
  · exact Or.inr ⟨rfl, h⟩
  · exact Or.inl ⟨rfl, h⟩

theorem affineDS_exact {sp : Bool} {B : Option (List (Ext K))} {S : Option (CSC (Ext K))}
    {Mx : Matrix (Fin n) (Fin n) K} (h : MatIs sp B S n n Mx) (a : K) (b c : Fin n → K) {out : List (Ext K)}
    (ho : out.length = n) :
    affineDS sp B S (fin a) (ev b) (ev c) out n = .ok (ev (a • (tr sp Mx *ᵥ b) + c)) := by
  rcases h.cases with ⟨rfl, T, rfl, hT, hm, hn, hM⟩ | ⟨rfl, M, rfl, hM, hMx⟩
  · subst hn
    simp only [affineDS, if_true, deref_some, ok_bind]
    obtain ⟨e, h1, h2, h3⟩ := C05_spAffine_transposed a T hT (List.ofFn b) (List.ofFn c) out (by simp [hm]) (by simp) ho
    rw [ev, ev, h1, emb_eq_ev h2 h3, hm, hM, vec_ofFn, vec_ofFn]
    rfl
  · simp only [affineDS, deref_some, ok_bind]
    obtain ⟨e, h1, h2, h3⟩ := C05_affine a n n M (List.ofFn b) (List.ofFn c) out hM (by simp) (by simp) ho
    rw [ev, ev]
    simp only [Bool.false_eq_true, if_false]
    rw [h1, emb_eq_ev h2 h3, hMx, vec_ofFn, vec_ofFn]
    rfl

theorem quadDS_exact {sp : Bool} {B : Option (List (Ext K))} {S : Option (CSC (Ext K))}
    {Mx : Matrix (Fin n) (Fin n) K} (h : MatIs sp B S n n Mx) (p : Fin n → K) :
    quadDS sp B S (ev p) n = .ok (fin (p ⬝ᵥ (Mx *ᵥ p))) := by
  rcases h.cases with ⟨rfl, T, rfl, hT, hm, hn, hM⟩ | ⟨rfl, M, rfl, hM, hMx⟩
  · subst hn
    simp only [quadDS, if_true, deref_some, ok_bind]
    rw [ev, C05_spQuadForm T hT hm _ (by simp), vec_ofFn, hM]
  · simp only [quadDS, deref_some, ok_bind, Bool.false_eq_true, if_false]
    rw [ev, C05_quadForm n M _ hM (by simp), vec_ofFn, hMx]

theorem mat_one_vec (l : List K) : mat n 1 l = fun i _ => vec n l i := by
  funext i j
  have : j = 0 := Subsingleton.elim _ _
  subst this
  simp [mat, vec]

theorem mulDS_exact {sp : Bool} {B : Option (List (Ext K))} {S : Option (CSC (Ext K))}
    {Mx : Matrix (Fin m) (Fin n) K} (h : MatIs sp B S m n Mx) (b : Fin n → K) {out : List (Ext K)}
    (ho : out.length = m) : mulDS sp B S (ev b) out m n = .ok (ev (Mx *ᵥ b)) := by
  rcases h.cases with ⟨rfl, T, rfl, hT, hm, hn, hM⟩ | ⟨rfl, M, rfl, hM, hMx⟩
  · subst hn hm
    simp only [mulDS, if_true, deref_some, ok_bind]
    obtain ⟨e, h1, h2, h3⟩ := C02_spMul T hT (List.ofFn b) out (by simp) ho
    rw [ev, h1, emb_eq_ev h2 h3, hM, vec_ofFn]
  · simp only [mulDS, deref_some, ok_bind, Bool.false_eq_true, if_false]
    obtain ⟨e, h1, h2, h3⟩ := C01_matMul m n 1 M (List.ofFn b) out hM (by simp) (by omega)
    rw [ev, h1, emb_eq_ev (v := Mx *ᵥ b) (by simpa using h2) ?_]
    rw [hMx, mat_one_vec, mat_one_vec, vec_ofFn] at h3
    funext i
    have := congrFun (congrFun h3 i) 0
    exact this

theorem tmulDS_exact {sp : Bool} {B : Option (List (Ext K))} {S : Option (CSC (Ext K))}
    {Mx : Matrix (Fin m) (Fin n) K} (h : MatIs sp B S m n Mx) (b : Fin m → K) {out : List (Ext K)}
    (ho : out.length = n) : tmulDS sp B S (ev b) out m n = .ok (ev (Mxᵀ *ᵥ b)) := by
  rcases h.cases with ⟨rfl, T, rfl, hT, hm, hn, hM⟩ | ⟨rfl, M, rfl, hM, hMx⟩
  · subst hn hm
    simp only [tmulDS, if_true, deref_some, ok_bind]
    obtain ⟨e, h1, h2, h3⟩ := C02_spTMul T hT (List.ofFn b) out (by simp) ho
    rw [ev, h1, emb_eq_ev h2 h3, hM, vec_ofFn]
  · simp only [tmulDS, deref_some, ok_bind, Bool.false_eq_true, if_false]
    obtain ⟨e, h1, h2, h3⟩ := C01_matTMul m n 1 M (List.ofFn b) out hM (by simp) (by omega)
    rw [ev, h1, emb_eq_ev (v := Mxᵀ *ᵥ b) (by simpa using h2) ?_]
    rw [hMx, mat_one_vec, mat_one_vec, vec_ofFn] at h3
    funext i
    have := congrFun (congrFun h3 i) 0
    exact this

theorem addTMulDS_exact {sp : Bool} {B : Option (List (Ext K))} {S : Option (CSC (Ext K))}
    {Mx : Matrix (Fin m) (Fin n) K} (h : MatIs sp B S m n Mx) (b : Fin m → K) (c : Fin n → K) :
    addTMulDS sp B S (ev b) (ev c) m n = .ok (ev (c + Mxᵀ *ᵥ b)) := by
  rcases h.cases with ⟨rfl, T, rfl, hT, hm, hn, hM⟩ | ⟨rfl, M, rfl, hM, hMx⟩
  · subst hn hm
    simp only [addTMulDS, if_true, deref_some, ok_bind]
    obtain ⟨e, h1, h2, h3⟩ := C02_addSpTMul T hT (List.ofFn b) (List.ofFn c) (by simp) (by simp)
    rw [ev, ev, h1, emb_eq_ev h2 h3, hM, vec_ofFn, vec_ofFn]
  · simp only [addTMulDS, deref_some, ok_bind, Bool.false_eq_true, if_false]
    obtain ⟨e, h1, h2, h3⟩ := C01_addMatTMul m n 1 M (List.ofFn b) (List.ofFn c) hM (by simp) (by simp)
    rw [ev, ev, h1, emb_eq_ev (v := c + Mxᵀ *ᵥ b) (by simpa using h2) ?_]
    rw [hMx, mat_one_vec, mat_one_vec, mat_one_vec, vec_ofFn, vec_ofFn] at h3
    funext i
    have := congrFun (congrFun h3 i) 0
    exact this

theorem dotProd_exact (a b : Fin n → K) : dotProd (ev a) (ev b) n = .ok (fin (a ⬝ᵥ b)) := by
  rw [dotProd_ok (by simp) (by simp)]
  have : facc zero n (fun i => gt (ev a) i *. gt (ev b) i) = fin (∑ i : Fin n, (a i * b i)) := by
    rw [ev, ev]
    simp only [gt_emb, fin_mul, facc_fin_Fin]
    congr 1
    apply Finset.sum_congr rfl
    intro i _
    simp [List.getD_eq_getElem?_getD]
  rw [this]
  rfl

theorem wva_buf (a b : K) (x y : Fin n → K) {out : List (Ext K)} (ho : out.length = n) :
    weightedVecAdd (fin a) (.buf (ev x)) (fin b) (.buf (ev y)) out n = .ok (ev (a • x + b • y)) := by
  rw [weightedVecAdd_ok (by simp [Src.val]) (by simp [Src.val]) ho]
  congr 1
  apply tab_eq_ev
  intro i
  simp [Src.val, gt_ev]

theorem wva_dst (a b : K) (x y : Fin n → K) :
    weightedVecAdd (fin a) .dst (fin b) (.buf (ev y)) (ev x) n = .ok (ev (a • x + b • y)) := by
  rw [weightedVecAdd_ok (by simp [Src.val]) (by simp [Src.val]) (by simp)]
  congr 1
  apply tab_eq_ev
  intro i
  simp [Src.val, gt_ev]

theorem copyN_ev (x : Fin n → K) : copyN (ev x) n = .ok (ev x) := by
  unfold copyN
  rw [if_pos (by simp), List.take_of_length_le (by simp)]

end LCQ
