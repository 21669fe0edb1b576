import Verif.Io.Digest

/-! # Text of a STARK proof: `Serialize`/`Deserialize for StarkProof` (`starky/src/serializer.rs` L136-446)

A proof is serialised as a JSON object, here its list of entries in the order they are written. The JSON syntax itself is not modelled.
A panic or an error is `none`. -/

namespace Verif.Io.ProofJson

open Verif.GL (F MODULUS)
open Verif.Io.Text Verif.Io.Digest
open Verif.Ext3 (F3G)

/-- What differs between the three Merkle trees: the text of a node (digest.rs L83-162), `from_basefield`, `to_basefield`
(merklehash.rs L278-284, merklehash_bn128.rs L168-174, merklehash_bls12381.rs L168-174), the default node, and whether the prover address is written (serializer.rs L253-257). -/
structure Codec (B M : Type) where
  ser : M → Js
  de : Js → Option M
  fromBase : B → M
  toBase : M → B
  dflt : M
  addr : Bool

/-- fri.rs L22-26 `Query`: for each query the opened leaves with their paths, and the root of the step. -/
@[ext] structure Query (B M : Type) where
  polQueries : List (List (List F × List (List B)))
  root : M

/-- stark_gen.rs L177-188 `StarkProof` with fri.rs L58-62 `FRIProof`. -/
@[ext] structure Proof (B M : Type) where
  root1 : M
  root2 : M
  root3 : M
  root4 : M
  queries : List (Query B M)
  last : List F3G
  evals : List F3G
  publics : List F3G
  rootC : Option M
  addr : List Char

abbrev Entry := List Char × Js

/-- `format!("s{i}_{suffix}")` -/
def key (i : Nat) (suffix : String) : List Char := 's' :: (dec i ++ '_' :: suffix.toList)

/-- the five trees opened in the first step, serializer.rs L225-249, L331 -/
def names : List String := ["1", "2", "3", "4", "C"]

variable {B M : Type} (C : Codec B M)

/-- serializer.rs L163, L192 …: leaf values are written as extension elements of dimension 1. -/
def encVals (v : List F) : Js := .arr (v.map fun x => .str (dec x.val))

/-- serializer.rs L164-172 …: a path, every base field element converted to a node. -/
def encPath (p : List (List B)) : Js := .arr (p.map fun e => .arr (e.map fun b => C.ser (C.fromBase b)))

/-- serializer.rs L158-177: the entries of FRI step `i ≥ 1` (one tree, as many queries as in step 0). -/
def serStep (q0 : Query B M) (i : Nat) (q : Query B M) : Option (List Entry) := do
  let qs ← (List.range q0.polQueries.length).mapM fun j => (q.polQueries[j]?).bind (·[0]?)
  return [(key i "root", C.ser q.root), (key i "vals", .arr (qs.map fun x => encVals x.1)), (key i "siblings", .arr (qs.map fun x => encPath C x.2))]

/-- serializer.rs L190-236: the leaf and path of tree `k` in every query of step 0. -/
def column (q0 : Query B M) (k : Nat) : Option (List (List F × List (List B))) := q0.polQueries.mapM fun qe => qe[k]?

/-- serializer.rs L238-249: columns of the trees 2 and 3 are left out if there is no query. -/
def serCol (f : List F × List (List B) → Js) (pre : String) (k : Nat) (col : List (List F × List (List B))) : List Entry :=
  if (k = 1 ∨ k = 2) ∧ col = [] then [] else [(key 0 (pre ++ names.getD k ""), .arr (col.map f))]

/-- a vector of extension elements -/
def serVec (l : List F3G) : Option Js := (l.mapM serF3).map .arr

/-- serializer.rs L136-259 `Serialize for StarkProof`. -/
def serialize (prf : Proof B M) : Option (List Entry) := do
  let q0 ← prf.queries[0]?
  let evals ← serVec prf.evals
  let steps ← ((List.range (prf.queries.length - 1)).mapM fun j => (prf.queries[j + 1]?).bind (serStep C q0 (j + 1)))
  let cols ← (List.range 5).mapM (column q0)
  let last ← serVec prf.last
  let publics ← serVec prf.publics
  return (match prf.rootC with | some c => [("rootC".toList, C.ser c)] | none => [])
    ++ [("root1".toList, C.ser prf.root1), ("root2".toList, C.ser prf.root2), ("root3".toList, C.ser prf.root3), ("root4".toList, C.ser prf.root4), ("evals".toList, evals)]
    ++ steps.flatten
    ++ ((List.range 5).flatMap fun k => serCol (fun x => encVals x.1) "vals" k (cols.getD k []))
    ++ ((List.range 5).flatMap fun k => serCol (fun x => encPath C x.2) "siblings" k (cols.getD k []))
    ++ [("finalPol".toList, last), ("publics".toList, publics)]
    ++ (if C.addr then [("proverAddr".toList, .str prf.addr)] else [])

/-- the `HashMap` of serializer.rs L277-281: the last entry of a key wins -/
def get (m : List Entry) (k : List Char) : Option Js := (m.reverse.find? fun e => e.1 == k).map (·.2)

/-- `serde_json::from_value` for a vector -/
def deVec {α : Type} (f : Js → Option α) : Js → Option (List α)
  | .arr l => l.mapM f
  | .str _ => none

/-- serializer.rs L340-352: a leaf value is read as an extension element of which the first coefficient is kept. -/
def deVal (j : Js) : Option F := (deF3 j).bind fun a => (Ext3.asElements a)[0]?

/-- traits.rs L124-135 `mt_node_to_basefield` -/
def toBase (p : List (List M)) : List (List B) := p.map fun e => e.map C.toBase

/-- serializer.rs L331-359: values and paths of tree `j` of step 0; nothing if the entry is missing. -/
def deCol (m : List Entry) (name : String) : Option (List (List F) × List (List (List M))) :=
  match get m (key 0 ("vals" ++ name)) with
  | none => some ([], [])
  | some v => do
    let vals ← deVec (deVec deVal) v
    let s ← get m (key 0 ("siblings" ++ name))
    let sibs ← deVec (deVec (deVec C.de)) s
    return (vals, sibs)

/-- `Vec::resize_with(n, Vec::new)` -/
def resize {α : Type} (l : List (List α)) (n : Nat) : List (List α) := l.take n ++ List.replicate (n - l.length) []

/-- serializer.rs L378-396: entry `(i, k)` of the queries of step 0, with the shorter columns extended. -/
def cell (n : Nat) (col : List (List F) × List (List (List M))) (i : Nat) : Option (List F × List (List B)) := do
  let col := if col.1.length < n then (resize col.1 n, resize col.2 n) else col
  let v ← col.1[i]?
  let s ← col.2[i]?
  return (v, toBase C s)

/-- serializer.rs L399-433: step `i ≥ 1`. -/
def deStep (m : List Entry) (n i : Nat) : Option (Query B M) := do
  let root ← (get m (key i "root")).bind C.de
  let vals ← (get m (key i "vals")).bind (deVec (deVec deVal))
  let sibs ← (get m (key i "siblings")).bind (deVec (deVec (deVec C.de)))
  let pq ← (List.range n).mapM fun q => do
    let s ← sibs[q]?
    let v ← vals[q]?
    return [(v, toBase C s)]
  return ⟨pq, root⟩

/-- serializer.rs L314-325: the largest `i` in `1..32` for which there is a root. -/
def numQuery (m : List Entry) : Nat := ((List.range 31).map fun j => if (get m (key (j + 1) "root")).isSome then j + 1 else 0).foldl max 0

/-- serializer.rs L298-302: the root of the constants is optional. -/
def deRootC (m : List Entry) : Option (Option M) :=
  match get m "rootC".toList with
  | some v => (C.de v).map some
  | none => some none

/-- serializer.rs L304-307: the prover address is optional, the default is the empty string. -/
def deAddr (m : List Entry) : Option (List Char) :=
  match get m "proverAddr".toList with
  | some (.str s) => some s
  | some (.arr _) => none
  | none => some []

/-- serializer.rs L261-446 `Deserialize for StarkProof`. -/
def deserialize (m : List Entry) : Option (Proof B M) := do
  let root1 ← (get m "root1".toList).bind C.de
  let root2 ← (get m "root2".toList).bind C.de
  let root3 ← (get m "root3".toList).bind C.de
  let root4 ← (get m "root4".toList).bind C.de
  let rootC ← deRootC C m
  let addr ← deAddr m
  let evals ← (get m "evals".toList).bind (deVec deF3)
  let publics ← (get m "publics".toList).bind (deVec deF3)
  let cols ← names.mapM (deCol C m)
  let n := ((cols.getD 0 ([], [])).1).length
  let pq ← (List.range n).mapM fun i => cols.mapM fun col => cell C n col i
  let steps ← (List.range (numQuery m)).mapM fun j => deStep C m n (j + 1)
  let last ← (get m "finalPol".toList).bind (deVec deF3)
  return ⟨root1, root2, root3, root4, ⟨pq, C.dflt⟩ :: steps, last, evals, publics, rootC, addr⟩

end Verif.Io.ProofJson
