import Verif.Simd.LinearProps
import Verif.Hash.MerkleGLProps

/-!
# The AVX-512 Merkle tree

The parts of `starky/src/merklehash.rs` compiled when all the AVX-512 features are enabled: two rows, or four nodes, are hashed per call of the linear hash.
`h` is `Poseidon::hash` of avx512_poseidon_gl.rs; every panic is `none`.
-/
namespace Verif.Simd
open Verif.GL (F MODULUS)
open Verif.Poseidon (Res)
open Verif.Poseidon.Gl (permGl)
open Verif.Linear (poseidonHash IsState)
open Verif.Tree (nextN nNodes minOps splice merklizeLevel levels leafPass doLevel build row)
open Verif.MerkleGL (MT nodeHash leafHash zeroDigest rowsPerThread rootFromProof)

/-- an indexed assignment -/
def setAt (l : List (List F)) (i : Nat) (x : List F) : Option (List (List F)) := if i < l.length then some (l.set i x) else none

/-- the closure `process`, merklehash.rs L158-164: the digests of the chunk are copied into `four`, the rest of which keeps its contents -/
def process (h : List F → List F → Nat → Res F) (chunk : List (List F)) (four : List F) : Option ((List F × List F) × List F) :=
  let four := chunk.flatten ++ four.drop (4 * chunk.length)
  (hash2 h four 0).map fun d => (d, four)

/-- one turn of the loop of `do_merklize_level`, merklehash.rs L171-175 -/
def levelStep (h : List F → List F → Nat → Res F) (buff : List (List F)) (s : List (List F) × List F) (i : Nat) : Option (List (List F) × List F) :=
  (process h ((buff.drop (i * 4)).take 4) s.2).bind fun r =>
    (setAt s.1 (i * 2) r.1.1).bind fun out => (setAt out (i * 2 + 1) r.1.2).bind fun out => some (out, r.2)

/-- `do_merklize_level`, merklehash.rs L143-182 -/
def doLevel2 (h : List F → List F → Nat → Res F) (buff : List (List F)) : Option (List (List F)) :=
  let nOps := buff.length / 4
  let out := List.replicate (buff.length / 2) zeroDigest
  let four := List.replicate 16 0
  if nOps = 0 then
    if 2 ≤ buff.length then (process h (buff.take 2) four).bind fun r => setAt out 0 r.1.1 else none
  else
    ((List.range nOps).foldlM (levelStep h buff) (out, four)).bind fun s =>
      if buff.length % 4 ≠ 0 then (process h (buff.drop (buff.length - 2)) s.2).bind fun r => setAt s.1 (nOps * 2) r.1.1
      else some s.1

/-- `merklize_level`, merklehash.rs L79-101, with that `do_merklize_level` -/
def merklizeLevel2 (h : List F → List F → Nat → Res F) (workers : Nat) (nodes : List (List F)) (pIn nOps pOut : Nat) : Option (List (List F)) :=
  if workers = 0 then none
  else if pIn + nOps * 2 ≤ nodes.length ∧ pOut + nOps ≤ nodes.length then
    let perThread := max minOps ((nOps - 1) / (workers * 2) + 1)
    let buff := (nodes.drop pIn).take (nOps * 2)
    ((chunks (2 * perThread) buff).mapM (doLevel2 h)).map fun l => splice nodes pOut l.flatten
  else none

/-- the level loop of `merkelize`, merklehash.rs L408-420 -/
def levels2 (h : List F → List F → Nat → Res F) (workers : Nat) : Nat → Nat → Nat → List (List F) → Option (List (List F))
  | 0, _, _, nodes => some nodes
  | fuel + 1, n, pIn, nodes =>
    if n > 1 then
      (merklizeLevel2 h workers nodes pIn (nextN 2 n) (pIn + nextN 2 n * 2)).bind fun nodes' =>
        levels2 h workers fuel (nextN 2 n) (pIn + nextN 2 n * 2) nodes'
    else some nodes

/-- one turn of the row loop, merklehash.rs L380-388 -/
def leafStep (h : List F → List F → Nat → Res F) (width : Nat) (bb : List F) (out : List (List F)) (j : Nat) : Option (List (List F)) :=
  (hash2 h ((bb.drop (j * width * 2)).take (width * 2)) 0).map fun d =>
    if j * 2 < out.length ∧ j * 2 + 1 < out.length then (out.set (j * 2) d.1).set (j * 2 + 1) d.2 else out

/-- the closure of the leaf pass on one chunk of nodes and one chunk of the buffer, merklehash.rs L378-397 -/
def leafChunk (h : List F → List F → Nat → Res F) (width : Nat) (out : List (List F)) (bb : List F) : Option (List (List F)) :=
  let curN := bb.length / width / 2
  ((List.range curN).foldlM (leafStep h width bb) out).bind fun out =>
    if bb.length % (width * 2) ≠ 0 then
      let rem := bb.drop (curN * width * 2)
      -- `batch[..rem.len()].copy_from_slice(rem); batch[rem.len()..].copy_from_slice(rem)` on `width * 2` cells
      if rem.length + rem.length = width * 2 then (hash2 h (rem ++ rem) 0).bind fun d => setAt out (curN * 2) d.1
      else none
    else some out

/-- the leaf pass, merklehash.rs L371-398 -/
def leafPass2 (h : List F → List F → Nat → Res F) (pt width nn : Nat) (buff : List F) : Option (List (List F)) :=
  let nodes := List.replicate nn zeroDigest
  if buff = [] then some nodes
  else if pt = 0 ∨ width = 0 then none
  else
    let cn := chunks pt nodes
    let cb := chunks (pt * width) buff
    ((cn.zip cb).mapM fun p => leafChunk h width p.1 p.2).map fun l => l.flatten ++ (cn.drop cb.length).flatten

/-- `merkelize`, merklehash.rs L355-423 -/
def merkelize2 (h : List F → List F → Nat → Res F) (workers : Nat) (buff : List F) (width height : Nat) : Option (MT F) :=
  if height = 0 ∨ workers = 0 then none
  else ((leafPass2 h (rowsPerThread workers width height) width (nNodes 2 height) buff).bind fun nodes => levels2 h workers height height 0 nodes).map
    fun nodes => ⟨buff, width, height, nodes⟩

/-- `verify_group_proof` with the AVX-512 `calculate_root_from_group_proof`, merklehash.rs L237-248 and L444-453 (the path is folded with the scalar
`Poseidon`, L15-27) -/
def verifyGroupProof2 (h : List F → List F → Nat → Res F) (perm : List F → List F) (root : List F) (mp : List (List F)) (idx : Nat) (vals : List F) :
    Option Bool :=
  ((hash2 h (vals ++ vals) 0).bind fun d => rootFromProof perm mp idx d.1).map fun r => decide (root = r)

end Verif.Simd
