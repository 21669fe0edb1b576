import Mathlib.Algebra.Field.Basic

/-!
# R1CS to PLONK: model of `r1cs2plonk` (recursion/src/r1cs2plonk.rs)

The Goldilocks element type is an arbitrary field `F` with decidable equality (the arithmetic of the element type is the subject
of `Verif.GL`).  A `BTreeMap<usize, FGL>` is its list of entries in key order.
-/
namespace Verif.Plonk

variable {F : Type} [Field F] [DecidableEq F]

/-- the entries of a `BTreeMap<usize, FGL>` in iteration (key) order, recursion/src/r1cs2plonk.rs L55 -/
abbrev LC (F : Type) := List (Nat × F)

/-- `PlonkGate(sl, sr, so, qm, ql, qr, qo, qc)`, recursion/src/r1cs2plonk.rs L9-10 -/
structure Gate (F : Type) where
  sl : Nat
  sr : Nat
  so : Nat
  qm : F
  ql : F
  qr : F
  qo : F
  qc : F
  deriving DecidableEq

/-- `PlonkAdd(sl, sr, c1, c2)`, recursion/src/r1cs2plonk.rs L42-43 -/
structure Add (F : Type) where
  sl : Nat
  sr : Nat
  c1 : F
  c2 : F
  deriving DecidableEq

/-- the three mutable locals `plonk_constraints`, `plonk_additions`, `plonk_n_var`, recursion/src/r1cs2plonk.rs L51-53 -/
structure St (F : Type) where
  gates : List (Gate F)
  adds : List (Add F)
  nVar : Nat

/-- `BTreeMap::get` -/
def get? (m : LC F) (k : Nat) : Option F :=
  match m with
  | [] => none
  | (k', v) :: m => if k' = k then some v else get? m k

/-- `BTreeMap::insert` -/
def insert (m : LC F) (k : Nat) (v : F) : LC F :=
  match m with
  | [] => [(k, v)]
  | (k', v') :: m =>
    if k < k' then (k, v) :: (k', v') :: m else if k = k' then (k, v) :: m else (k', v') :: insert m k v

/-- `normalize`, recursion/src/r1cs2plonk.rs L55-57 -/
def normalize (m : LC F) : LC F := m.filter fun e => decide (e.2 ≠ 0)

/-- body of the two loops of `join`, recursion/src/r1cs2plonk.rs L62-69 and L71-78 -/
def addTo (m : LC F) (k : Nat) (v : F) : LC F :=
  match get? m k with
  | none => insert m k v
  | some t => insert m k (v + t)

/-- `join`, recursion/src/r1cs2plonk.rs L59-81 -/
def join (lc1 : LC F) (k : F) (lc2 : LC F) : LC F :=
  normalize (lc2.foldl (fun (r : LC F) e => addTo r e.1 e.2) (lc1.foldl (fun (r : LC F) e => addTo r e.1 (k * e.2)) []))

/-- the `while cs.len() > max_c` loop of `reduce_coefs`, recursion/src/r1cs2plonk.rs L101-119: two terms are replaced by a fresh variable.
(`max_c` is 1 or 3, so two `shift`s succeed; the last branch is not reached.) -/
def reduceLoop (maxC : Nat) (cs : LC F) (st : St F) : LC F × St F :=
  match cs with
  | c1 :: c2 :: rest =>
    if rest.length + 2 > maxC then
      reduceLoop maxC (rest ++ [(st.nVar, 1)])
        { gates := st.gates ++ [⟨c1.1, c2.1, st.nVar, 0, -c1.2, -c2.2, 1, 0⟩],
          adds := st.adds ++ [⟨c1.1, c2.1, c1.2, c2.2⟩],
          nVar := st.nVar + 1 }
    else (c1 :: c2 :: rest, st)
  | [c] => ([c], st)
  | [] => ([], st)
termination_by cs.length
decreasing_by simp

/-- the result `(k, s, coefs)` of `reduce_coefs` -/
structure Red (F : Type) where
  k : F
  s : List Nat
  coefs : List F

/-- `reduce_coefs`, recursion/src/r1cs2plonk.rs L83-129 -/
def reduceCoefs (lc : LC F) (maxC : Nat) (st : St F) : Red F × St F :=
  let k := lc.foldl (fun (k : F) e => if e.1 = 0 then k + e.2 else k) 0
  let cs := lc.filter fun e => decide (e.1 ≠ 0 ∧ e.2 ≠ 0)
  let r := reduceLoop maxC cs st
  ({ k := k
     s := r.1.map (·.1) ++ List.replicate (maxC - r.1.length) 0
     coefs := r.1.map (·.2) ++ List.replicate (maxC - r.1.length) 0 }, r.2)

/-- `add_constraint_mul`, recursion/src/r1cs2plonk.rs L131-151 -/
def addConstraintMul (la lb lc : LC F) (st : St F) : St F :=
  let A := reduceCoefs la 1 st
  let B := reduceCoefs lb 1 A.2
  let C := reduceCoefs lc 1 B.2
  { C.2 with
    gates := C.2.gates ++ [⟨A.1.s.getD 0 0, B.1.s.getD 0 0, C.1.s.getD 0 0,
      A.1.coefs.getD 0 0 * B.1.coefs.getD 0 0, A.1.coefs.getD 0 0 * B.1.k, A.1.k * B.1.coefs.getD 0 0,
      -C.1.coefs.getD 0 0, A.1.k * B.1.k - C.1.k⟩] }

/-- `add_constraint_sum`, recursion/src/r1cs2plonk.rs L153-167 -/
def addConstraintSum (lc : LC F) (st : St F) : St F :=
  let C := reduceCoefs lc 3 st
  { C.2 with
    gates := C.2.gates ++ [⟨C.1.s.getD 0 0, C.1.s.getD 1 0, C.1.s.getD 2 0, 0,
      C.1.coefs.getD 0 0, C.1.coefs.getD 1 0, C.1.coefs.getD 2 0, C.1.k⟩] }

/-- `to_be_map`, recursion/src/r1cs2plonk.rs L169-176; `none` is the failed assertion (a repeated wire) -/
def toBeMap (lc : List (Nat × F)) : Option (LC F) :=
  lc.foldlM (fun (r : LC F) c => if (get? r c.1).isSome then none else some (insert r c.1 c.2)) []

/-- the three values of the string returned by `get_lc_type`: "0", "k", or a positive number -/
inductive LcType where
  | zero
  | k
  | n
  deriving DecidableEq

/-- `get_lc_type`, recursion/src/r1cs2plonk.rs L178-200: removes the zero entries and classifies the rest.
(The loop over a copy of the keys with removal of the visited key is written as a filter and two folds.) -/
def getLcType (lc : LC F) : LC F × LcType :=
  let lc' := lc.filter fun e => decide (e.2 ≠ 0)
  let k := lc'.foldl (fun (k : F) e => if e.1 = 0 then k + e.2 else k) 0
  let n := lc'.countP fun e => decide (e.1 ≠ 0)
  (lc', if n > 0 then .n else if k ≠ 0 then .k else .zero)

/-- a constraint `A * B = C`: three vectors of `(wire, coefficient)` -/
structure Con (F : Type) where
  a : List (Nat × F)
  b : List (Nat × F)
  c : List (Nat × F)

/-- `process`, recursion/src/r1cs2plonk.rs L202-220 (`lc_a[&0]` is present when the type is "k") -/
def process (c : Con F) (st : St F) : Option (St F) := do
  let lcA ← toBeMap c.a
  let lcB ← toBeMap c.b
  let lcC ← toBeMap c.c
  let a := getLcType lcA
  let b := getLcType lcB
  if a.2 = .zero ∨ b.2 = .zero then
    return addConstraintSum (normalize lcC) st
  else if a.2 = .k then
    let k ← get? a.1 0
    return addConstraintSum (join b.1 k lcC) st
  else if b.2 = .k then
    let k ← get? b.1 0
    return addConstraintSum (join a.1 k lcC) st
  else
    return addConstraintMul a.1 b.1 lcC st

/-- `r1cs2plonk`, recursion/src/r1cs2plonk.rs L50-229; `n` is `r1cs.num_variables` -/
def r1cs2plonk (n : Nat) (cs : List (Con F)) : Option (St F) :=
  cs.foldlM (fun st c => process c st) { gates := [], adds := [], nVar := n }

end Verif.Plonk
