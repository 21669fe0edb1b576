import Verif.Hash.Chunks

/-!
Model of the node array shared by the three Merkle trees of the code base:
starky/src/merklehash.rs (arity 2), starky/src/merklehash_bn128.rs and
starky/src/merklehash_bls12381.rs (arity 16; the two files differ only in the types).
`ar` is the arity, `H` the hash of `ar` nodes, `leaf` the row hash, `zero` the default node.
-/

namespace Verif.Tree
variable {D E : Type*}

/-- Number of groups of the next level: `(n - 1) / ar + 1` (starky/src/merklehash.rs L49, L53, L72,
L332; starky/src/merklehash_bn128.rs L28, L102, L212). -/
def nextN (ar n : Nat) : Nat := (n - 1) / ar + 1

/-- The loop of `get_n_nodes`, starky/src/merklehash.rs L51-59, starky/src/merklehash_bn128.rs
L30-38; `fuel` bounds the number of iterations, `n` suffices. -/
def nNodesLoop (ar : Nat) : Nat → Nat → Nat → Nat
  | 0, _, acc => acc
  | fuel + 1, n, acc =>
    if n > 1 then
      let n' := nextN ar n
      nNodesLoop ar fuel n' (if n' > 1 then acc + nextN ar n' * ar else acc + 1)
    else acc

/-- `get_n_nodes`, starky/src/merklehash.rs L47-61, starky/src/merklehash_bn128.rs L26-40.
(For `n = 0` the code underflows.) -/
def nNodes (ar n : Nat) : Nat := nNodesLoop ar n n (nextN ar n * ar)

/-- `do_merklize_level`, starky/src/merklehash.rs L110-134, starky/src/merklehash_bn128.rs L68-87:
hash the consecutive groups of `ar` nodes of the buffer. -/
def doLevel (ar : Nat) (H : List D → D) (buff : List D) : List D :=
  (List.range (buff.length / ar)).map fun i => H ((buff.drop (i * ar)).take ar)

/-- starky/src/constant.rs: `MIN_OPS_PER_THREAD`. -/
def minOps : Nat := 2 ^ 12
/-- starky/src/constant.rs: `MAX_OPS_PER_THREAD`. -/
def maxOps : Nat := 2 ^ 18

/-- Overwrite a piece of the node array starting at `p` (the `iter_mut().zip(..)` assignment of
starky/src/merklehash.rs L98-99). -/
def splice (nodes : List D) (p : Nat) (new : List D) : List D :=
  nodes.take p ++ new ++ nodes.drop (p + new.length)

/-- `merklize_level`, starky/src/merklehash.rs L79-101, starky/src/merklehash_bn128.rs L44-66, on a
machine with `workers` worker threads.  The rayon `map/reduce` of vectors concatenates the results in
order.  `none` is a panic: division by zero workers or a slice out of range. -/
def merklizeLevel (ar : Nat) (H : List D → D) (workers : Nat) (nodes : List D) (pIn nOps pOut : Nat) :
    Option (List D) :=
  if workers = 0 then none
  else if pIn + nOps * ar ≤ nodes.length ∧ pOut + nOps ≤ nodes.length then
    let perThread := max minOps ((nOps - 1) / (workers * ar) + 1)
    let buff := (nodes.drop pIn).take (nOps * ar)
    some (splice nodes pOut ((chunks (ar * perThread) buff).flatMap (doLevel ar H)))
  else none

/-- The level loop of `merkelize`, starky/src/merklehash.rs L331-343, starky/src/merklehash_bn128.rs
L211-221; `fuel` bounds the number of iterations, `n` suffices. -/
def levels (ar : Nat) (H : List D → D) (workers : Nat) : Nat → Nat → Nat → List D → Option (List D)
  | 0, _, _, nodes => some nodes
  | fuel + 1, n, pIn, nodes =>
    if n > 1 then
      (merklizeLevel ar H workers nodes pIn (nextN ar n) (pIn + nextN ar n * ar)).bind fun nodes' =>
        levels ar H workers fuel (nextN ar n) (pIn + nextN ar n * ar) nodes'
    else some nodes

/-- The leaf pass of `merkelize`, starky/src/merklehash.rs L309-322, starky/src/merklehash_bn128.rs
L191-203: `pt` rows per thread; node chunks of `pt` are zipped with buffer chunks of `pt * width`;
each thread hashes the complete rows of its buffer chunk.  `none` is a panic (`chunks(0)`). -/
def leafPass (leaf : List E → D) (zero : D) (pt width nn : Nat) (buff : List E) : Option (List D) :=
  let nodes := List.replicate nn zero
  if buff = [] then some nodes
  else if pt = 0 ∨ width = 0 then none
  else
    let cn := chunks pt nodes
    let cb := chunks (pt * width) buff
    some ((cn.zip cb).flatMap (fun p =>
        let rows := (List.range (p.2.length / width)).map fun j => leaf ((p.2.drop (j * width)).take width)
        rows.take p.1.length ++ p.1.drop rows.length)
      ++ (cn.drop cb.length).flatten)

/-- `merkelize` after the choice of the rows per thread `pt`; height 0 underflows in the code. -/
def build (ar : Nat) (H : List D → D) (leaf : List E → D) (zero : D) (workers pt : Nat) (buff : List E)
    (width height : Nat) : Option (List D) :=
  if height = 0 ∨ workers = 0 then none
  else (leafPass leaf zero pt width (nNodes ar height) buff).bind fun nodes =>
    levels ar H workers height height 0 nodes

/-! ### Specification -/

/-- `L i` for `i < n`, `zero` beyond: a level of `n` nodes padded with zeros -/
def padded (zero : D) (n : Nat) (L : Nat → D) (i : Nat) : D := if i < n then L i else zero

/-- the parents of a level of `n` nodes -/
def parents (ar : Nat) (H : List D → D) (zero : D) (n : Nat) (L : Nat → D) (i : Nat) : D :=
  H ((List.range ar).map fun j => padded zero n L (i * ar + j))

/-- The root of the `ar`-ary tree over `n` leaves `L`, levels padded with `zero`; `fuel = n` suffices. -/
def rootGo (ar : Nat) (H : List D → D) (zero : D) : Nat → Nat → (Nat → D) → D
  | 0, _, L => L 0
  | fuel + 1, n, L => if n > 1 then rootGo ar H zero fuel (nextN ar n) (parents ar H zero n L) else L 0

def rootOf (ar : Nat) (H : List D → D) (zero : D) (n : Nat) (L : Nat → D) : D := rootGo ar H zero n n L

/-- The node array: each level zero-padded to a multiple of `ar`, the last level being the root alone. -/
def layoutGo (ar : Nat) (H : List D → D) (zero : D) : Nat → Nat → (Nat → D) → List D
  | 0, _, L => [L 0]
  | fuel + 1, n, L =>
    if n > 1 then (List.range (nextN ar n * ar)).map (padded zero n L)
      ++ layoutGo ar H zero fuel (nextN ar n) (parents ar H zero n L)
    else [L 0]

/-- row `i` of a row-major matrix -/
def row (buff : List E) (width i : Nat) : List E := (buff.drop (i * width)).take width

end Verif.Tree
