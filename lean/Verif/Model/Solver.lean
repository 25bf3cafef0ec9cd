import Verif.Model.Load

/-!
# Running the solver: /repo/src/LCQProblem.cpp:444-560, 799-1034, 1105-1525, and the subsolver
wrappers /repo/src/Subsolver.cpp, /repo/src/SubsolverOSQP.cpp, /repo/src/SubsolverQPOASES.cpp

The problem data `d` is constant once `initializeSolver` has returned; the functions of the main
loop change the iteration data `s` only.  Pointers are dereferenced before a loop, also if the loop
body would not be executed (dimensions of a constructed object are positive).
-/

namespace LCQ
open Scalar

variable {α : Type} [Scalar α]

/-! ## dense/sparse dispatch

The source writes `if (sparseSolver) f(M_sparse, ...) else f(M, ...)` at every use. -/

/-- `AffineLinearTransformation`, dense or sparse, /repo/src/LCQProblem.cpp:1107-1111, 1221-1227,
1249-1253 -/
def affineDS (sp : Bool) (B : Option (List α)) (S : Option (CSC α)) (a : α) (b c out : List α)
    (n : Nat) : M (List α) :=
  if sp then do let S ← deref S; spAffine a S b c out n
  else do let B ← deref B; affine a B b c out n n

/-- `QuadraticFormProduct`, dense or sparse, /repo/src/LCQProblem.cpp:1164-1168, 1180-1184,
1191-1195, 1221-1225 -/
def quadDS (sp : Bool) (B : Option (List α)) (S : Option (CSC α)) (p : List α) (n : Nat) : M α :=
  if sp then do let S ← deref S; spQuadForm S p n
  else do let B ← deref B; quadForm B p n

/-- `MatrixMultiplication` with a vector, dense or sparse, /repo/src/LCQProblem.cpp:1386-1390,
1397-1401, 1461-1467 -/
def mulDS (sp : Bool) (B : Option (List α)) (S : Option (CSC α)) (b out : List α) (m n : Nat) :
    M (List α) :=
  if sp then do let S ← deref S; spMul S b out
  else do let B ← deref B; matMul B b out m n 1

/-- `TransponsedMatrixMultiplication` with a vector, dense or sparse,
/repo/src/LCQProblem.cpp:1257-1261 -/
def tmulDS (sp : Bool) (B : Option (List α)) (S : Option (CSC α)) (b out : List α) (m n : Nat) :
    M (List α) :=
  if sp then do let S ← deref S; spTMul S b out
  else do let B ← deref B; matTMul B b out m n 1

/-- `AddTransponsedMatrixMultiplication` with a vector, dense or sparse,
/repo/src/LCQProblem.cpp:971-985 -/
def addTMulDS (sp : Bool) (B : Option (List α)) (S : Option (CSC α)) (b out : List α) (m n : Nat) :
    M (List α) :=
  if sp then do let S ← deref S; addSpTMul S b out
  else do let B ← deref B; addMatTMul B b out m n 1

/-! ## small functions -/

/-- `updateLinearization`, /repo/src/LCQProblem.cpp:1105-1112 -/
def updateLinearization (d : Data α) (s : St α) : M (St α) := do
  let n ← initd d.dims
  let rho ← initd s.rho
  let x ← deref s.xk
  let gt ← deref s.gTilde
  let gk ← deref s.gk
  let gk ← affineDS d.sparse d.C d.Cs rho x gt gk n.nV
  .ok { s with gk := some gk }

/-- `getObj`, /repo/src/LCQProblem.cpp:1161-1169 -/
def getObj (d : Data α) (s : St α) : M α := do
  let n ← initd d.dims
  let g ← deref d.g
  let x ← deref s.xk
  let lin ← dotProd g x n.nV
  let q ← quadDS d.sparse d.Q d.Qs x n.nV
  .ok (lin +. q /. two)

/-- linear part of `getPhi`, /repo/src/LCQProblem.cpp:1173-1177 -/
def phiLin (gPhi : Option (List α)) (x : List α) (n : Nat) : M α :=
  match gPhi with
  | none => .ok zero
  | some gp => do
    let v ← dotProd gp x n
    .ok (zero +. v)

/-- `getPhi`, /repo/src/LCQProblem.cpp:1172-1185 -/
def getPhi (d : Data α) (s : St α) : M α := do
  let n ← initd d.dims
  let x ← deref s.xk
  let lin ← phiLin d.gPhi x n.nV
  let q ← quadDS d.sparse d.C d.Cs x n.nV
  .ok (d.phiConst +. lin +. q /. two)

/-- `getMerit`, /repo/src/LCQProblem.cpp:1188-1196 -/
def getMerit (d : Data α) (s : St α) : M α := do
  let n ← initd d.dims
  let g ← deref d.g
  let x ← deref s.xk
  let lin ← dotProd g x n.nV
  let q ← quadDS d.sparse s.Qk s.Qks x n.nV
  .ok (lin +. q /. two)

/-- `stationarityCheck`, /repo/src/LCQProblem.cpp:1151-1153 -/
def stationarityCheck (d : Data α) (s : St α) : M Bool := do
  let n ← initd d.dims
  let st ← deref s.statk
  let v ← maxAbs st n.nV
  .ok (v <. d.opts.statTol)

/-- `complementarityCheck`, /repo/src/LCQProblem.cpp:1156-1158 -/
def complementarityCheck (d : Data α) (s : St α) : M Bool := do
  let v ← getPhi d s
  .ok (v <. d.opts.complTol)

/-- `updateStep`, /repo/src/LCQProblem.cpp:1240-1243 (the output is the first input) -/
def updateStep (d : Data α) (s : St α) : M (St α) := do
  let n ← initd d.dims
  let x ← deref s.xk
  let a ← initd s.alpha
  let p ← deref s.pk
  let x ← weightedVecAdd one .dst a (.buf p) x n.nV
  .ok { s with xk := some x }

/-- the box part of `updateStationarity`, /repo/src/LCQProblem.cpp:1266-1271 -/
def boxStat (d : Data α) (s : St α) (n : Nat) (st : List α) : M (List α × Option (List α)) :=
  if d.lb ≠ none ∨ d.ub ≠ none then do
    let y ← deref s.yk
    let b ← deref s.bstat
    let b ← loop n (fun i b => do let v ← rd y i; wr b i v) b
    let st ← weightedVecAdd one .dst (-. one) (.buf b) st n
    .ok (st, some b)
  else .ok (st, s.bstat)

/-- `updateStationarity`, /repo/src/LCQProblem.cpp:1246-1272 -/
def updateStationarity (d : Data α) (s : St α) : M (St α) := do
  let n ← initd d.dims
  let x ← deref s.xk
  let gt ← deref s.gTilde
  let st ← deref s.statk
  let st ← affineDS d.sparse s.Qk s.Qks one x gt st n.nV
  let ya ← deref s.ykA
  let c ← deref s.cstat
  let c ← tmulDS d.sparse d.A d.As ya c n.nA n.nV
  let st ← weightedVecAdd one .dst (-. one) (.buf c) st n.nV
  let r ← boxStat d s n.nV st
  .ok { s with statk := some r.1, cstat := some c, bstat := r.2 }

/-! ## penalised Hessian -/

/-- One column of the merge in the sparse `setQk`, /repo/src/LCQProblem.cpp:812-861.  `q`, `c` are
`idx_Q`, `idx_C`; `hiQ`, `hiC` the ends of the column.  The number of passes of the `while` loop is
at most the number of entries left, which is the first argument.  The second component of the state
is `Qk_indices_of_C`; `Qk_p[j+1]` is the number of entries so far (see `Build`). -/
def mergeCol (rho : α) (Q C : CSC α) (hiQ hiC : Int) :
    Nat → Int → Int → Build α × List Int → M (Build α × List Int)
  | 0, _, _, s => .ok s
  | f + 1, q, c, s =>
    if q < hiQ ∧ hiC ≤ c then do
      let v ← rdI Q.x q
      let r ← rdI Q.i q
      mergeCol rho Q C hiQ hiC f (q + 1) c (s.1.push r v, s.2)
    else if hiQ ≤ q ∧ c < hiC then do
      let v ← rdI C.x c
      let r ← rdI C.i c
      mergeCol rho Q C hiQ hiC f q (c + 1)
        (s.1.push r (rho *. v), s.2 ++ [(s.1.rows.length : Int)])
    else if q < hiQ ∧ c < hiC then do
      let rq ← rdI Q.i q
      let rc ← rdI C.i c
      if rq < rc then do
        let v ← rdI Q.x q
        mergeCol rho Q C hiQ hiC f (q + 1) c (s.1.push rq v, s.2)
      else if rc < rq then do
        let v ← rdI C.x c
        mergeCol rho Q C hiQ hiC f q (c + 1)
          (s.1.push rc (rho *. v), s.2 ++ [(s.1.rows.length : Int)])
      else do
        let v ← rdI Q.x q
        let w ← rdI C.x c
        mergeCol rho Q C hiQ hiC f (q + 1) (c + 1)
          (s.1.push rq (v +. rho *. w), s.2 ++ [(s.1.rows.length : Int)])
    else .ok s

/-- all columns of the merge, /repo/src/LCQProblem.cpp:801-863.  `idx` is `Qk_indices_of_C`, which is
not cleared before. -/
def mergeQC (rho : α) (Q C : CSC α) (nV : Nat) (idx : List Int) : M (Build α × List Int) :=
  loop nV (fun j s => do
    let loQ ← rd Q.p j
    let loC ← rd C.p j
    let hiQ ← rd Q.p (j + 1)
    let hiC ← rd C.p (j + 1)
    let s ← mergeCol rho Q C hiQ hiC ((hiQ - loQ).toNat + (hiC - loC).toNat) loQ loC s
    .ok (s.1.close, s.2)) (Build.init, idx)

/-- `setQk`, /repo/src/LCQProblem.cpp:799-882 -/
def setQk (d : Data α) (s : St α) : M (St α) := do
  let n ← initd d.dims
  let rho ← initd s.rho
  if d.sparse then do
    let Q ← deref d.Qs
    let C ← deref d.Cs
    let b ← mergeQC rho Q C n.nV s.idxC
    .ok { s with
      Qks := some (createCSC n.nV n.nV b.1.rows.length b.1.data b.1.rows b.1.p)
      idxC := b.2 }
  else do
    let Q ← deref d.Q
    let C ← deref d.C
    let qk ← deref s.Qk
    let qk ← weightedAdd one (.buf Q) rho (.buf C) qk n.nV n.nV
    .ok { s with Qk := some qk }

/-- the in-place update of the sparse `updateQk`, /repo/src/LCQProblem.cpp:1319-1322 -/
def bumpQks (factor : α) (C : CSC α) (idx : List Int) (x : List α) : M (List α) :=
  loop idx.length (fun j x => do
    let i ← rd idx j
    let old ← rdI x i
    let c ← rd C.x j
    wrI x i (old +. factor *. c)) x

/-- `updateQk`, /repo/src/LCQProblem.cpp:1316-1326 -/
def updateQk (d : Data α) (s : St α) : M (St α) := do
  let n ← initd d.dims
  let rho ← initd s.rho
  if d.sparse then do
    let qk ← deref s.Qks
    let C ← deref d.Cs
    let x ← bumpQks (rho *. (one -. one /. d.opts.factor)) C s.idxC qk.x
    .ok { s with Qks := some { qk with x := x } }
  else do
    let Q ← deref d.Q
    let C ← deref d.C
    let qk ← deref s.Qk
    let qk ← weightedAdd one (.buf Q) rho (.buf C) qk n.nV n.nV
    .ok { s with Qk := some qk }

/-- update of `g_tilde`, /repo/src/LCQProblem.cpp:1211-1213 -/
def updateGTilde (d : Data α) (s : St α) : M (St α) :=
  match d.gPhi with
  | none => .ok s
  | some gp => do
    let n ← initd d.dims
    let rho ← initd s.rho
    let g ← deref d.g
    let t ← deref s.gTilde
    let t ← weightedVecAdd one (.buf g) rho (.buf gp) t n.nV
    .ok { s with gTilde := some t }

/-- `updatePenalty`, /repo/src/LCQProblem.cpp:1199-1214 -/
def updatePenalty (d : Data α) (s : St α) : M (St α) := do
  let r ← initd s.rho
  let rho := r *. d.opts.factor
  let s := { s with
    hist := if d.opts.nDyn > 0 then [] else s.hist
    rho := some rho
    stats := (s.stats.updateRhoOpt rho).2 }
  let s ← updateQk d s
  updateGTilde d s

/-- `updateOuterIter`, /repo/src/LCQProblem.cpp:1329-1332 -/
def updateOuterIter (s : St α) : M (St α) := do
  let o ← initd s.outer
  let o ← addInt o 1
  let st ← s.stats.updateIterOuter 1
  .ok { s with outer := some o, stats := st.2 }

/-- `updateTotalIter`, /repo/src/LCQProblem.cpp:1335-1338 -/
def updateTotalIter (s : St α) : M (St α) := do
  let t ← initd s.total
  let t ← addInt t 1
  let st ← s.stats.updateIterTotal 1
  .ok { s with total := some t, stats := st.2 }

/-- `innerIter++`, /repo/src/LCQProblem.cpp:501 -/
def incInner (s : St α) : M (St α) := do
  let i ← initd s.inner
  let i ← addInt i 1
  .ok { s with inner := some i }

/-- the three calls of a penalty update in the main loop, /repo/src/LCQProblem.cpp:505-509, 533-537 -/
def bump (d : Data α) (s : St α) : M (St α) := do
  let s ← updatePenalty d s
  let s ← updateOuterIter s
  .ok { s with inner := some 0 }

/-! ## dynamic penalty rule -/

/-- comparison with the history, /repo/src/LCQProblem.cpp:1299-1306 -/
def histCheck (eta cur : α) (hist : List α) (n : Nat) : M Bool := do
  let r ← loopE n (fun i (_ : Unit) => do
    let h ← rd hist i
    if cur <. eta *. h then .ok (.inr ()) else .ok (.inl ())) ()
  .ok (match r with
    | .inl _ => true
    | .inr _ => false)

/-- `(size_t)options.getNDynamicPenalty()` with a 64 bit `size_t`, /repo/src/LCQProblem.cpp:1277 -/
def toSizeT (n : Int) : Nat := if n < 0 then (2 ^ 64 + n).toNat else n.toNat

/-- `leyfferCheckPositive`, /repo/src/LCQProblem.cpp:1275-1313 -/
def leyfferCheckPositive (d : Data α) (s : St α) : M (Bool × St α) :=
  if toSizeT d.opts.nDyn = 0 then .ok (false, s)
  else do
    let cur ← getPhi d s
    if s.hist.length < toSizeT d.opts.nDyn then
      .ok (false, { s with hist := s.hist ++ [cur] })
    else do
      let ok ← complementarityCheck d s
      if ok then .ok (false, { s with hist := s.hist.tail ++ [cur] })
      else do
        let flag ← histCheck d.opts.eta cur s.hist (toSizeT d.opts.nDyn)
        .ok (flag, { s with hist := s.hist.tail ++ [cur] })

/-! ## step length and perturbation -/

/-- `getOptimalStepLength`, /repo/src/LCQProblem.cpp:1217-1237 -/
def getOptimalStepLength (d : Data α) (s : St α) : M (St α) := do
  let n ← initd d.dims
  let p ← deref s.pk
  let x ← deref s.xk
  let gt ← deref s.gTilde
  let lt ← deref s.lkTmp
  let qk ← quadDS d.sparse s.Qk s.Qks p n.nV
  let lt ← affineDS d.sparse s.Qk s.Qks one x gt lt n.nV
  let lk ← dotProd p lt n.nV
  let a := if (zero <. qk) && (lk <. zero) then stdMin ((-. lk) /. qk) one else one
  .ok { s with lkTmp := some lt, alpha := some a }

/-- the loop of `perturbStep` and `perturbGradient`, /repo/src/LCQProblem.cpp:1344-1349, 1356-1361;
`k` random numbers have been used before -/
def perturbLoop (e : Env α) (k n : Nat) (x : List α) : M (List α) :=
  loop n (fun i x => do
    let v ← rd x i
    wr x i (v +. ofInt ((e.rnd (k + i) % 3 : Nat) - 1) *. eps)) x

/-- `perturbStep`, /repo/src/LCQProblem.cpp:1353-1362 -/
def perturbStep (e : Env α) (d : Data α) (s : St α) : M (St α) := do
  let n ← initd d.dims
  let x ← deref s.xk
  let x ← perturbLoop e s.rnd n.nV x
  .ok { s with xk := some x, rnd := s.rnd + n.nV }

/-- `perturbGradient`, /repo/src/LCQProblem.cpp:1341-1350 (not called by the solver) -/
def perturbGradient (e : Env α) (d : Data α) (s : St α) : M (St α) := do
  let n ← initd d.dims
  let g ← deref s.gk
  let g ← perturbLoop e s.rnd n.nV g
  .ok { s with gk := some g, rnd := s.rnd + n.nV }

/-! ## output -/

/-- `storeSteps`, /repo/src/LCQProblem.cpp:1365-1378 -/
def storeSteps (d : Data α) (s : St α) : M (St α) := do
  let n ← initd d.dims
  let x ← deref s.xk
  let inner ← initd s.inner
  let sub ← initd s.qpIter
  let a ← initd s.alpha
  let p ← deref s.pk
  let np ← maxAbs p n.nV
  let st ← deref s.statk
  let ns ← maxAbs st n.nV
  let obj ← getObj d s
  let phi ← getPhi d s
  let merit ← getMerit d s
  let r ← s.stats.track x ⟨inner, sub, a, np, ns, obj, phi, merit⟩ n.nV
  .ok { s with stats := r.2 }

/-- the part of the iteration line for inner iterates, /repo/src/LCQProblem.cpp:1569-1575 -/
def iterMore (d : Data α) (s : St α) : M (Option (α × Int)) :=
  if 2 ≤ d.opts.printLevel then do
    let a ← initd s.alpha
    let q ← initd s.qpIter
    .ok (some (a, q))
  else .ok none

/-- `printIteration`, /repo/src/LCQProblem.cpp:1528-1579; the number formatting is left out and the
inner counter, which is printed with inner iterates only, is recorded always. -/
def printIteration (d : Data α) (s : St α) : M (St α) :=
  if d.opts.printLevel = 0 then .ok s
  else do
    let inner ← initd s.inner
    if d.opts.printLevel = 1 ∧ inner > 0 then .ok s
    else do
      let n ← initd d.dims
      let outer ← initd s.outer
      let s1 := if (2 ≤ d.opts.printLevel ∧ inner.tmod 10 = 0) ∨
          (d.opts.printLevel = 1 ∧ outer.tmod 10 = 0) then s.say .header else s
      let st ← deref s.statk
      let ns ← maxAbs st n.nV
      let phi ← getPhi d s
      let rho ← initd s.rho
      let p ← deref s.pk
      let np ← maxAbs p n.nV
      let more ← iterMore d s
      .ok (s1.say (.iter outer inner ns phi rho np more))

/-! ## duals -/

/-- `y[off + i] = y[off + i] - rho*tmp[i]` for `i < n`, /repo/src/LCQProblem.cpp:1392-1394, 1403-1405 -/
def shiftDuals (rho : α) (tmp : List α) (off n : Nat) (y : List α) : M (List α) :=
  loop n (fun i y => do
    let v ← rd y (off + i)
    let t ← rd tmp i
    wr y (off + i) (v -. rho *. t)) y

/-- `transformDuals`, /repo/src/LCQProblem.cpp:1381-1409 -/
def transformDuals (e : Env α) (d : Data α) (s : St α) : M (St α) := do
  let n ← initd d.dims
  let off ← initd d.boxOff
  let rho ← initd s.rho
  let x ← deref s.xk
  let y ← deref s.yk
  let tmp ← mulDS d.sparse d.R d.Rs x (e.alloc 14 n.nComp) n.nComp n.nV
  let y ← shiftDuals rho tmp (off + n.nC) n.nComp y
  let tmp ← mulDS d.sparse d.L d.Ls x tmp n.nComp n.nV
  let y ← shiftDuals rho tmp (off + n.nC + n.nComp) n.nComp y
  .ok { s with yk := some y }

/-- `getWeakComplementarities`, /repo/src/LCQProblem.cpp:1456-1482 -/
def weakComplementarities (e : Env α) (d : Data α) (s : St α) : M (List Nat) := do
  let n ← initd d.dims
  let x ← deref s.xk
  let Lx ← mulDS d.sparse d.L d.Ls x (e.alloc 15 n.nComp) n.nComp n.nV
  let Rx ← mulDS d.sparse d.R d.Rs x (e.alloc 16 n.nComp) n.nComp n.nV
  loop n.nComp (fun i acc => do
    let l ← rd Lx i
    if l <=. d.opts.complTol then do
      let r ← rd Rx i
      if r <=. d.opts.complTol then .ok (acc ++ [i]) else .ok acc
    else .ok acc) []

/-- the loop and the final decision of `determineStationarityType`,
/repo/src/LCQProblem.cpp:1419-1452; the last two arguments are `s_stationary`, `m_stationary`. -/
def classify (tol : α) (ya : List α) (nC nComp : Nat) : List Nat → Bool → Bool → M AlgStat
  | [], sS, mS => .ok (if sS then .sStat else if mS then .mStat else .cStat)
  | i :: is, sS, mS => do
    let a ← rd ya (nC + i)
    let b ← rd ya (nC + nComp + i)
    let sS := if stdMin a b <. zero then false else sS
    if (tol <=. Scalar.abs (a *. b)) && (stdMin a b <=. zero) then
      if (a *. b) <=. tol then .ok .wStat
      else classify tol ya nC nComp is sS false
    else classify tol ya nC nComp is sS mS

/-- `determineStationarityType`, /repo/src/LCQProblem.cpp:1412-1453 -/
def determineStationarityType (e : Env α) (d : Data α) (s : St α) : M (St α) := do
  let n ← initd d.dims
  let w ← weakComplementarities e d s
  let ya ← deref s.ykA
  let t ← classify d.opts.complTol ya n.nC n.nComp w true true
  .ok { s with algo := some t }

/-! ## subsolver -/

/-- `SubsolverQPOASES::solve`, /repo/src/SubsolverQPOASES.cpp:134-169.  The arrays are read by
qpOASES in the lengths given by the dimensions; `hotstart` gets no guess.  A missing `lbA` or `ubA`
(impossible after a load) counts as a fault. -/
def qpoasesSolve (e : Env α) (d : Data α) (s : St α) (init : Bool) (sub : Sub α) (nV nC : Nat) :
    M (RV × St α) := do
  let g ← deref s.gk
  let g ← copyN g nV
  let lA ← deref d.lbA
  let lA ← copyN lA nC
  let uA ← deref d.ubA
  let uA ← copyN uA nC
  let lb ← copyOpt d.lb nV
  let ub ← copyOpt d.ub nV
  let x0 ← copyOpt (if init then s.xk else none) nV
  let y0 ← copyOpt (if init then s.yk else none) (nV + nC)
  let r := e.qp s.calls ⟨sub, init, g, lA, uA, x0, y0, lb, ub, d.opts.qpoases, d.opts.osqp⟩
  .ok (if r.ret ≠ 0 then .subproblemSolverError else .successfulReturn,
    { s with qpIter := some r.iter, qpExit := some r.ret, calls := s.calls + 1, ans := some r })

/-- what `SubsolverOSQP::solve` does with the answers of the OSQP functions,
/repo/src/SubsolverOSQP.cpp:154-184; `w` is the workspace pointer after the possible `osqp_setup`.
Every use of a freed workspace is a fault. -/
def osqpFinish (s : St α) (init : Bool) (w : Work) (r : Resp α) : M (RV × St α) :=
  if w = .dangling then .error .uaf
  else
    let s := { s with work := w, calls := s.calls + 1 }
    if init = true ∧ s.xk ≠ none ∧ (w = .null ∨ r.warmX = false) then
      .ok (.osqpInitialPrimalGuessFailed, s)
    else if init = true ∧ s.yk ≠ none ∧ (w = .null ∨ r.warmY = false) then
      .ok (.osqpInitialDualGuessFailed, s)
    else if w = .null then .ok (.osqpWorkspaceNotSetUp, s)
    else .ok (if r.ret ≠ 0 ∨ r.status ≤ 0 then .subproblemSolverError else .successfulReturn,
      { s with qpIter := some r.iter, qpExit := some r.status, ans := some r })

/-- `SubsolverOSQP::solve`, /repo/src/SubsolverOSQP.cpp:124-185.  The results of the update functions
are ignored by the source, their effect is part of the oracle.  `osqp_setup` either sets the
workspace up or fails in its validation phase without touching the pointer. -/
def osqpSolve (e : Env α) (d : Data α) (s : St α) (init : Bool) (sub : Sub α) (nV nC : Nat) :
    M (RV × St α) :=
  if d.lb ≠ none ∨ d.ub ≠ none then .ok (.invalidOsqpBoxConstraints, s)
  else do
    let g ← deref s.gk
    let g ← copyN g nV
    let lA ← deref d.lbA
    let lA ← copyN lA nC
    let uA ← deref d.ubA
    let uA ← copyN uA nC
    let x0 ← copyOpt (if init then s.xk else none) nV
    let y0 ← copyOpt (if init then s.yk else none) nC
    let r := e.qp s.calls ⟨sub, init, g, lA, uA, x0, y0, none, none, d.opts.qpoases, d.opts.osqp⟩
    osqpFinish s init (if init && r.setup then .live else s.work) r

/-- `Subsolver::solve`, /repo/src/Subsolver.cpp:90-107 -/
def subSolve (e : Env α) (d : Data α) (s : St α) (init : Bool) : M (RV × St α) := do
  let sub ← initd d.sub
  match sub with
  | .dense nV nC _ _ => qpoasesSolve e d s init sub nV nC
  | .sparse nV nC _ _ => qpoasesSolve e d s init sub nV nC
  | .osqp Q A => osqpSolve e d s init sub Q.n A.m

/-- write the first `n` values of an answer -/
def fillAns (f : Nat → α) (n : Nat) (out : List α) : M (List α) := loop n (fun i b => wr b i (f i)) out

/-- `Subsolver::getSolution`, /repo/src/Subsolver.cpp:80-87, SubsolverQPOASES.cpp:172-181,
SubsolverOSQP.cpp:188-200: writes `xnew` and `yk` -/
def getSolution (d : Data α) (s : St α) : M (List α × List α) := do
  let sub ← initd d.sub
  let r ← deref s.ans
  let x ← deref s.xnew
  let y ← deref s.yk
  match sub with
  | .dense nV nC _ _ => do
    let x ← fillAns r.x nV x
    let y ← fillAns r.y (nV + nC) y
    .ok (x, y)
  | .sparse nV nC _ _ => do
    let x ← fillAns r.x nV x
    let y ← fillAns r.y (nV + nC) y
    .ok (x, y)
  | .osqp Q A => do
    let x ← fillAns r.x Q.n x
    let y ← fillAns (fun i => -. r.y i) A.m y
    .ok (x, y)

/-- the part of `solveQPSubproblem` after a successful solve, /repo/src/LCQProblem.cpp:1136-1147 -/
def takeSolution (d : Data α) (s : St α) : M (St α) := do
  let n ← initd d.dims
  let off ← initd d.boxOff
  let r ← getSolution d s
  let ya ← deref s.ykA
  let ya ← loop n.nA (fun i b => do let v ← rd r.2 (off + i); wr b i v) ya
  let x ← deref s.xk
  let p ← deref s.pk
  let p ← weightedVecAdd one (.buf r.1) (-. one) (.buf x) p n.nV
  .ok { s with xnew := some r.1, yk := some r.2, ykA := some ya, pk := some p }

/-- the statistics and allocation part of `solveQPSubproblem`, /repo/src/LCQProblem.cpp:1120-1130 -/
def afterSolve (e : Env α) (d : Data α) (s : St α) : M (St α) := do
  let it ← initd s.qpIter
  let ex ← initd s.qpExit
  let st ← s.stats.updateSubproblemIter it
  let n ← initd d.dims
  let nd ← initd d.nDuals
  .ok { s with
    stats := (st.2.updateExitFlag ex).2
    xk := some (s.xk.getD (e.alloc 12 n.nV))
    yk := some (s.yk.getD (e.alloc 13 nd)) }

/-- `solveQPSubproblem`, /repo/src/LCQProblem.cpp:1115-1148 -/
def solveQP (e : Env α) (d : Data α) (s : St α) (init : Bool) : M (RV × St α) := do
  let r ← subSolve e d s init
  let s ← afterSolve e d r.2
  if r.1 ≠ .successfulReturn then .ok (r.1, s)
  else do
    let s ← takeSolution d s
    .ok (.successfulReturn, s)

/-! ## initialisation -/

/-- `setLB`, /repo/include/LCQProblem.ipp:54-74 and `setUB`, 93-113 -/
def setBox (d : Data α) (b : Option (List α)) (dflt : α) : M (RV × Option (List α)) := do
  let n ← initd d.dims
  if n.nV = 0 then .ok (.lcqpobjectNotSetup, none)
  else match b with
    | some b => do let b ← copyN b n.nV; .ok (.successfulReturn, some b)
    | none => .ok (.successfulReturn, some (List.replicate n.nV dflt))

/-- both box bounds for the qpOASES solvers, /repo/src/LCQProblem.cpp:896-904, 917-925 -/
def setBoxes (d : Data α) : M (RV × Data α) := do
  let l ← setBox d d.lbTmp (-. inf)
  if l.1 ≠ .successfulReturn then .ok (l.1, d)
  else do
    let u ← setBox d d.ubTmp inf
    if u.1 ≠ .successfulReturn then .ok (u.1, { d with lb := l.2 })
    else .ok (.successfulReturn, { d with lb := l.2, ub := u.2 })

/-- copy of a sparse matrix into the qpOASES wrapper, /repo/src/SubsolverQPOASES.cpp:75-99, 184-214 -/
def qpCopy (S : CSC α) (m n : Nat) : M (CSC α) := do
  let nnz ← rd S.p n
  if nnz < 0 then .error .abort
  else do
    let p ← copyN S.p (n + 1)
    let i ← copyN S.i nnz.toNat
    let x ← copyN S.x nnz.toNat
    .ok { m := m, n := n, nzmax := nnz.toNat, p := p, i := i, x := x }

/-- effect of `subsolver = tmp` on the OSQP workspace: `clear` frees it but keeps the pointer,
/repo/src/SubsolverOSQP.cpp:61-63, 203-205 -/
def Work.clear : Work → M Work
  | .null => .ok .null
  | .live => .ok .dangling
  | .dangling => .error .uaf

/-- the shift of the dual guess for OSQP, /repo/src/LCQProblem.cpp:937-948.  Only `nDuals` *bytes* are
copied back, so of the new array only the first `nDuals/8` entries are set; the following entry is
partly overwritten and, like the others, counts as unknown. -/
def osqpDualGuess (e : Env α) (n : Dims) (yk : Option (List α)) : M (Option (List α)) :=
  match yk with
  | none => .ok none
  | some y => do
    let tmp ← loop n.nA (fun i b => do let v ← rd y (n.nV + i); wr b i v) (e.alloc 17 n.nA)
    .ok (some (tmp.take (n.nA / 8) ++ (e.alloc 18 n.nA).drop (n.nA / 8)))

/-- first part of `initializeSolver`: choice of the subsolver, /repo/src/LCQProblem.cpp:887-961 -/
def chooseSolver (e : Env α) (o : Obj α) : M (RV × Obj α) := do
  let n ← initd o.d.dims
  if o.d.opts.qpSolver = 0 then
    let d := { o.d with nDuals := some (n.nV + n.nC + 2 * n.nComp), boxOff := some n.nV }
    if d.sparse then .ok (.denseSparseMissmatch, { o with d := d })
    else do
      let b ← setBoxes d
      if b.1 ≠ .successfulReturn then .ok (b.1, { o with d := b.2 })
      else do
        let Q ← deref o.d.Q
        let Q ← copyN Q (n.nV * n.nV)
        let A ← deref o.d.A
        let A ← copyN A (n.nA * n.nV)
        .ok (.successfulReturn, { o with d := { b.2 with sub := some (.dense n.nV n.nA Q A) } })
  else if o.d.opts.qpSolver = 1 then
    let d := { o.d with nDuals := some (n.nV + n.nC + 2 * n.nComp), boxOff := some n.nV }
    if !d.sparse then .ok (.denseSparseMissmatch, { o with d := d })
    else do
      let b ← setBoxes d
      if b.1 ≠ .successfulReturn then .ok (b.1, { o with d := b.2 })
      else do
        let Q ← deref o.d.Qs
        let Q ← qpCopy Q n.nV n.nV
        let A ← deref o.d.As
        let A ← qpCopy A n.nA n.nV
        .ok (.successfulReturn, { o with d := { b.2 with sub := some (.sparse n.nV n.nA Q A) } })
  else if o.d.opts.qpSolver = 2 then
    if o.d.lb ≠ none ∨ o.d.ub ≠ none then .ok (.invalidOsqpBoxConstraints, o)
    else do
      let y ← osqpDualGuess e n o.s.yk
      let d := { o.d with nDuals := some n.nA, boxOff := some 0 }
      let o := { d := d, s := { o.s with yk := y } }
      if !d.sparse then .ok (.denseSparseMissmatch, o)
      else if d.lbTmp ≠ none ∨ d.ubTmp ≠ none then .ok (.invalidOsqpBoxConstraints, o)
      else do
        let Q ← deref d.Qs
        let Q ← copyCSCUpper Q
        let A ← deref d.As
        let A ← copyCSC A
        let w ← o.s.work.clear
        .ok (.successfulReturn,
          { d := { d with sub := some (.osqp Q A) }, s := { o.s with work := w } })
  else .ok (.notYetImplemented, o)

/-- `phi_const` and `g_phi`, /repo/src/LCQProblem.cpp:967-990 -/
def initPhi (d : Data α) : M (Data α) :=
  if d.lbL = none ∧ d.lbR = none then .ok d
  else do
    let n ← initd d.dims
    let lL ← deref d.lbL
    let lR ← deref d.lbR
    let c ← dotProd lL lR n.nComp
    let gp ← addTMulDS d.sparse d.R d.Rs lL (List.replicate n.nV zero) n.nComp n.nV
    let gp ← addTMulDS d.sparse d.L d.Ls lR gp n.nComp n.nV
    let gp ← loop n.nV (fun i b => do let v ← rd b i; wr b i (-. v)) gp
    .ok { d with phiConst := c, gPhi := some gp }

/-- second part of `initializeSolver`, /repo/src/LCQProblem.cpp:963-1033.  When only one of `lbL`,
`lbR` is given, `DotProduct` dereferences the null pointer (`nComp ≥ 1`), see `initPhi`. -/
def initRest (o : Obj α) : M (RV × Obj α) := do
  let n ← initd o.d.dims
  let g ← deref o.d.g
  let g ← copyN g n.nV
  let d ← initPhi o.d
  let s := { o.s with
    gTilde := some g
    alpha := some one
    rho := some d.opts.rho0
    outer := some 0
    inner := some 0
    total := some 0
    algo := some .notSolved
    stats := o.s.stats.reset }
  let s := if d.opts.printLevel > 0 then s.say .newline else s
  .ok (.successfulReturn, { d := { d with lbTmp := none, ubTmp := none }, s := s })

/-- `initializeSolver`, /repo/src/LCQProblem.cpp:885-1034 -/
def initializeSolver (e : Env α) (o : Obj α) : M (RV × Obj α) := do
  let r ← chooseSolver e o
  if r.1 ≠ .successfulReturn then .ok r else initRest r.2

/-! ## main loop -/

/-- Outcome of a part of the loop body: go on with `inl s`, or return with `inr (code, s)`. -/
abbrev Step (α : Type) := St α ⊕ (RV × St α)

/-- run the next part unless the function has returned -/
def andThen (m : M (Step α)) (k : St α → M (Step α)) : M (Step α) := do
  let r ← m
  match r with
  | .inl s => k s
  | .inr q => .ok (.inr q)

/-- `if (options.getStoreSteps()) storeSteps();`, /repo/src/LCQProblem.cpp:492-494 -/
def storeIf (d : Data α) (s : St α) : M (St α) :=
  if d.opts.storeSteps then storeSteps d s else .ok s

/-- `if (options.getPerturbStep()) perturbStep();`, /repo/src/LCQProblem.cpp:558-559 -/
def perturbIf (e : Env α) (d : Data α) (s : St α) : M (St α) :=
  if d.opts.perturb then perturbStep e d s else .ok s

/-- the first part of the loop body up to the iteration counters, /repo/src/LCQProblem.cpp:483-501 -/
def advance (d : Data α) (s : St α) : M (St α) := do
  let s ← updateStep d s
  let s ← updateStationarity d s
  let s ← printIteration d s
  let s ← storeIf d s
  let s ← updateTotalIter s
  incInner s

/-- dynamic penalty strategy, /repo/src/LCQProblem.cpp:504-510 -/
def dynamicPenalty (d : Data α) (s : St α) : M (St α) := do
  let r ← leyfferCheckPositive d s
  if r.1 then bump d r.2 else .ok r.2

/-- what happens at an acceptable point, /repo/src/LCQProblem.cpp:518-531 -/
def accept (e : Env α) (d : Data α) (s : St α) : M (RV × St α) := do
  let s ← transformDuals e d s
  let s ← determineStationarityType e d s
  let t ← initd s.algo
  let s := { s with stats := (s.stats.updateStatus t).2 }
  let s := if d.opts.printLevel > 0 then s.say (.solution t) else s
  .ok (.successfulReturn, s)

/-- termination check or penalty update, /repo/src/LCQProblem.cpp:516-539 -/
def checkStationarity (e : Env α) (d : Data α) (s : St α) : M (Step α) := do
  let st ← stationarityCheck d s
  if st then do
    let co ← complementarityCheck d s
    if co then do
      let r ← accept e d s
      .ok (.inr r)
    else do
      let s ← bump d s
      .ok (.inl s)
  else .ok (.inl s)

/-- failure exits, /repo/src/LCQProblem.cpp:542-547 -/
def checkLimits (d : Data α) (s : St α) : M (Step α) := do
  let t ← initd s.total
  let rho ← initd s.rho
  if t > d.opts.maxIter then .ok (.inr (.maxIterationsReached, s))
  else if d.opts.maxRho <. rho then .ok (.inr (.maxPenaltyReached, s))
  else .ok (.inl s)

/-- the last part of the loop body, /repo/src/LCQProblem.cpp:550-564 -/
def nextStep (e : Env α) (d : Data α) (s : St α) : M (Step α) := do
  let s ← updateLinearization d s
  let r ← solveQP e d s false
  if r.1 ≠ .successfulReturn then .ok (.inr (r.1, r.2.say (.msg r.1)))
  else do
    let s ← perturbIf e d r.2
    let s ← getOptimalStepLength d s
    .ok (.inl s)

/-- one pass of the `while (true)` loop, /repo/src/LCQProblem.cpp:480-565 -/
def pass (e : Env α) (d : Data α) (s : St α) : M (Step α) := do
  let s ← advance d s
  let s ← dynamicPenalty d s
  let s ← updateLinearization d s
  andThen (checkStationarity e d s) fun s =>
  andThen (checkLimits d s) fun s =>
  nextStep e d s

/-- at most `fuel` passes of the loop; `none` means that the loop has not returned yet. -/
def mainLoop (e : Env α) (d : Data α) : Nat → St α → M (Option (RV × St α))
  | 0, _ => .ok none
  | f + 1, s => do
    let r ← pass e d s
    match r with
    | .inl s => mainLoop e d f s
    | .inr q => .ok (some q)

/-- the linear term of the first QP, /repo/src/LCQProblem.cpp:452-463 -/
def firstGradient (d : Data α) (s : St α) : M (St α) :=
  if d.opts.zeroFirst then do
    let n ← initd d.dims
    let g ← deref d.g
    let gk ← deref s.gk
    let gk ← loop n.nV (fun i b => do let v ← rd g i; wr b i v) gk
    .ok { s with gk := some gk }
  else updateLinearization d s

/-- the first QP and the penalised Hessian, /repo/src/LCQProblem.cpp:452-478 -/
def firstStep (e : Env α) (d : Data α) (s : St α) : M (Step α) := do
  let s ← firstGradient d s
  let r ← solveQP e d s true
  if r.1 ≠ .successfulReturn then .ok (.inr (r.1, r.2.say (.msg r.1)))
  else do
    let s ← setQk d r.2
    let rho ← initd s.rho
    .ok (.inl { s with stats := (s.stats.updateRhoOpt rho).2 })

/-- `runSolver` observed for at most `fuel` passes of its main loop,
/repo/src/LCQProblem.cpp:444-566.  `none`: the main loop is still running after `fuel` passes. -/
def runSolver (e : Env α) (fuel : Nat) (o : Obj α) : M (Option (RV × Obj α)) := do
  let r ← initializeSolver e o
  if r.1 ≠ .successfulReturn then .ok (some (r.1, { r.2 with s := r.2.s.say (.msg r.1) }))
  else do
    let f ← firstStep e r.2.d r.2.s
    match f with
    | .inr q => .ok (some (q.1, { d := r.2.d, s := q.2 }))
    | .inl s => do
      let q ← mainLoop e r.2.d fuel s
      .ok (q.map fun q => (q.1, { d := r.2.d, s := q.2 }))

/-! ## getters -/

/-- copy of `n` entries into a caller's buffer -/
def copyTo (src : List α) (n : Nat) (out : List α) : M (List α) :=
  loop n (fun i b => do let v ← rd src i; wr b i v) out

/-- the copying part of the getters: nothing happens unless both pointers are non-null;
`n` is the member `nV` or `nDuals` -/
def copyOut (src : Option (List α)) (n : Option Nat) (out : Option (List α)) :
    M (Option (List α)) :=
  match out, src with
  | some b, some x => do
    let n ← initd n
    let b ← copyTo x n b
    .ok (some b)
  | some b, none => .ok (some b)
  | none, _ => .ok none

/-- `getPrimalSolution`, /repo/src/LCQProblem.cpp:1485-1493; result: status and caller's buffer -/
def getPrimalSolution (o : Obj α) (out : Option (List α)) : M (AlgStat × Option (List α)) := do
  let b ← copyOut o.s.xk (o.d.dims.map Dims.nV) out
  let t ← initd o.s.algo
  .ok (t, b)

/-- `getDualSolution`, /repo/src/LCQProblem.cpp:1496-1504 -/
def getDualSolution (o : Obj α) (out : Option (List α)) : M (AlgStat × Option (List α)) := do
  let b ← copyOut o.s.yk o.d.nDuals out
  let t ← initd o.s.algo
  .ok (t, b)

/-- `getNumberOfPrimals`, /repo/src/LCQProblem.cpp:1507-1510 -/
def getNumberOfPrimals (o : Obj α) : M Nat := do
  let n ← initd o.d.dims
  .ok n.nV

/-- `getNumberOfDuals`, /repo/src/LCQProblem.cpp:1513-1516 -/
def getNumberOfDuals (o : Obj α) : M Nat := initd o.d.nDuals

/-- `getOutputStatistics`, /repo/src/LCQProblem.cpp:1519-1522 -/
def getOutputStatistics (o : Obj α) (out : Stats α) : Stats α := out.assign o.s.stats

end LCQ
