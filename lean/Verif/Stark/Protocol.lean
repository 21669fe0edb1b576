import Verif.Fri.Model
import Verif.Codegen.Model
import Verif.Stark.Model

/-!
# The STARK prover and verifier protocols, starky/src/stark_gen.rs L193-555 and starky/src/stark_verify.rs

`none` is an error return or a panic.  `G` is the base field, `A` the extension field, `P` the elements of `publics` and
`evals` as they are stored (`F3G` with its dimension tag, on which `as_elements` depends), with value `val : P → A` and
encoding `els : P → List G`.
-/
namespace Verif.Stark
open Fri

variable {G A P Root Path Tree T : Type}

/-! ### `execute_code`, stark_verify.rs L152-235 -/

/-- `Node.type_` as `get_ref` accepts it, stark_verify.rs L169-197; `tree k` is `tree1`..`tree4` -/
inductive VTy
  | tmp | tree (k : Nat) | const_ | eval | number | public_ | challenge | xDivXSubXi | xDivXSubWXi | x | Z | other
deriving DecidableEq

/-- `Node`, starkinfo_codegen.rs L48-58: the fields `execute_code` reads; `value` is the parsed number (C58) -/
structure VNode (A : Type) where
  ty : VTy
  id : Nat := 0
  treePos : Nat := 0
  dim : Nat := 0
  prime : Bool := false
  value : Option A := none

/-- `Section`, starkinfo_codegen.rs L74-79 -/
structure VInstr (A : Type) where
  op : Codegen.IOp
  dest : VNode A
  src : List (VNode A)

/-- the part of `StarkContext` `execute_code` reads; `xDiv`, `xDivW` are `none` when the vectors are empty (reading them
panics) -/
structure VCtx (G A : Type) where
  tree : Nat → List G
  consts : List G
  evals : List A
  publics : List A
  challenge : List A
  xDiv : Option A
  xDivW : Option A
  z : A
  zp : A

/-- the embedding of base elements `F::from` and `F::from_vec` of three elements -/
structure Emb (G A : Type) where
  emb : G → A
  dec : G → G → G → A

/-- `extract_val`, stark_verify.rs L155-165 -/
def extractVal (e : Emb G A) (arr : List G) (pos dim : Nat) : Option A :=
  if dim = 1 then (arr[pos]?).map e.emb
  else if dim = 3 then
    (arr[pos]?).bind fun a => (arr[pos + 1]?).bind fun b => (arr[pos + 2]?).map fun c => e.dec a b c
  else none

/-- `get_ref`, stark_verify.rs L167-201 -/
def getRef (e : Emb G A) (ctx : VCtx G A) (tmp : Nat → Option A) (r : VNode A) : Option A :=
  match r.ty with
  | .tmp => tmp r.id
  | .tree k => extractVal e (ctx.tree k) r.treePos r.dim
  | .const_ => (ctx.consts[r.id]?).map e.emb
  | .eval => ctx.evals[r.id]?
  | .number => r.value
  | .public_ => ctx.publics[r.id]?
  | .challenge => ctx.challenge[r.id]?
  | .xDivXSubXi => ctx.xDiv
  | .xDivXSubWXi => ctx.xDivW
  | .x => ctx.challenge[7]?
  | .Z => some (if r.prime then ctx.zp else ctx.z)
  | .other => none

section
variable [Field A] [DecidableEq A]

/-- the operations, stark_verify.rs L221-228 (operands beyond those used are ignored) -/
def vApply : Codegen.IOp → List A → Option A
  | .add, a :: b :: _ => some (a + b)
  | .sub, a :: b :: _ => some (a - b)
  | .mul, a :: b :: _ => some (a * b)
  | .muladd, a :: b :: c :: _ => some (a * b + c)
  | .copy, a :: _ => some a
  | _, _ => none

/-- one iteration of the loop, stark_verify.rs L216-230; `set_ref` (L203-211) accepts only `tmp` -/
def vStep (e : Emb G A) (ctx : VCtx G A) (tmp : Nat → Option A) (i : VInstr A) : Option (Nat → Option A) :=
  (i.src.mapM (getRef e ctx tmp)).bind fun src => (vApply i.op src).bind fun v =>
  if i.dest.ty = .tmp then some (Function.update tmp i.dest.id (some v)) else none

/-- `execute_code`, stark_verify.rs L152-235: the value of the destination of the last instruction -/
def executeCode (e : Emb G A) (ctx : VCtx G A) (code : List (VInstr A)) : Option A :=
  code.getLast?.bind fun last => (code.foldlM (vStep e ctx) fun _ => none).bind fun tmp => getRef e ctx tmp last.dest

/-! ### The proof and the transcript -/

/-- `StarkProof`, stark_gen.rs L178-188 (without `prover_addr`) -/
structure Proof (G Root Path A P : Type) where
  rootC : Option Root
  root1 : Root
  root2 : Root
  root3 : Root
  root4 : Root
  fri : FriProof G Root Path A
  evals : List P
  publics : List P

/-- `for e in l { transcript.put(e.as_elements() as one-element vectors) }`, stark_gen.rs L272-276, L467-470 and
stark_verify.rs L38-41, L56-59 -/
def putAll (tr : Tr G A T) (els : P → List G) (l : List P) (t : T) : Option T :=
  l.foldlM (fun t p => tr.put ((els p).map fun g => [g]) t) t

/-- What the prover computes between the interactions with the transcript, stark_gen.rs: each piece is an arbitrary function
of the contents of `ctx.challenge` at that point (`none`: a panic or error). -/
structure Rounds (A P Tree : Type) where
  publics : List P
  tree1 : Option Tree
  tree2 : List A → Option Tree
  tree3 : List A → Option Tree
  tree4 : List A → Option Tree
  evals : List A → Option (List P)
  friPol : List A → List P → Option (List A)
  constTree : Tree

/-- the state of the prover before FRI -/
structure Commit (A P Tree T : Type) where
  tree1 : Tree
  tree2 : Tree
  tree3 : Tree
  tree4 : Tree
  evals : List P
  chal : List A
  t : T

/-- stark_gen.rs L271-475: the commitments, the challenges and the openings, in the order of the code; `ctx.challenge`
starts as eight zeros (L104). -/
def commit (mt : MT G Root Path Tree) (tr : Tr G A T) (els : P → List G) (new : T) (w : Rounds A P Tree) :
    Option (Commit A P Tree T) :=
  (putAll tr els w.publics new).bind fun t =>
  w.tree1.bind fun tree1 =>
  (tr.put [mt.rootElems (mt.root tree1)] t).bind fun t =>
  (tr.getField t).bind fun (u, t) =>
  let ch := (List.replicate 8 0).set 0 u
  (tr.getField t).bind fun (defVal, t) =>
  let ch := ch.set 1 defVal
  (w.tree2 ch).bind fun tree2 =>
  (tr.put [mt.rootElems (mt.root tree2)] t).bind fun t =>
  (tr.getField t).bind fun (gamma, t) =>
  let ch := ch.set 2 gamma
  (tr.getField t).bind fun (beta, t) =>
  let ch := ch.set 3 beta
  (w.tree3 ch).bind fun tree3 =>
  (tr.put [mt.rootElems (mt.root tree3)] t).bind fun t =>
  (tr.getField t).bind fun (vc, t) =>
  let ch := ch.set 4 vc
  (w.tree4 ch).bind fun tree4 =>
  (tr.put [mt.rootElems (mt.root tree4)] t).bind fun t =>
  (tr.getField t).bind fun (xi, t) =>
  let ch := ch.set 7 xi
  (w.evals ch).bind fun evals =>
  (putAll tr els evals t).bind fun t =>
  (tr.getField t).bind fun (v1, t) =>
  let ch := ch.set 5 v1
  (tr.getField t).bind fun (v2, t) =>
  let ch := ch.set 6 v2
  some ⟨tree1, tree2, tree3, tree4, evals, ch, t⟩

/-- `query_pol`, stark_gen.rs L532-540 -/
def queryPol (mt : MT G Root Path Tree) (t1 t2 t3 t4 tc : Tree) (idx : Nat) : Option (Q G Path) :=
  [t1, t2, t3, t4, tc].mapM fun t => mt.groupProof t idx

/-- `stark_gen`, stark_gen.rs L193-555.  `query_pol` panics inside `fri.prove` when an opening fails: the model answers an
empty list there and refuses the proof afterwards. -/
def starkGen (mt : MT G Root Path Tree) (tr : Tr G A T) (E : Enc G A) (c : Cfg A) (els : P → List G) (new : T)
    (w : Rounds A P Tree) : Option (Proof G Root Path A P × T) :=
  (commit mt tr els new w).bind fun cm =>
  (w.friPol cm.chal cm.evals).bind fun pol =>
  (prove mt tr E c pol (fun i => (queryPol mt cm.tree1 cm.tree2 cm.tree3 cm.tree4 w.constTree i).getD []) cm.t).bind
    fun (fri, t) =>
  if (fri.queries.head?.map fun q => q.pols.any List.isEmpty) = some true then none else
  some (⟨some (mt.root w.constTree), mt.root cm.tree1, mt.root cm.tree2, mt.root cm.tree3, mt.root cm.tree4, fri, cm.evals,
    w.publics⟩, t)

/-! ### `stark_verify` -/

/-- what the verifier takes from `StarkInfo` and `Program`: `qEv[i] = ev_idx.get("cm", 0, qs[i])` for `i < q_deg`, the code
of the constraint and of the query check -/
structure VInfo (A : Type) where
  qEv : List Nat
  code : List (VInstr A)
  queryCode : List (VInstr A)

/-- the verifier's challenges, stark_verify.rs L38-63 -/
def verChallenges (mt : MT G Root Path Tree) (tr : Tr G A T) (els : P → List G) (new : T) (p : Proof G Root Path A P) :
    Option (List A × T) :=
  (putAll tr els p.publics new).bind fun t =>
  (tr.put [mt.rootElems p.root1] t).bind fun t =>
  (tr.getField t).bind fun (c0, t) =>
  (tr.getField t).bind fun (c1, t) =>
  (tr.put [mt.rootElems p.root2] t).bind fun t =>
  (tr.getField t).bind fun (c2, t) =>
  (tr.getField t).bind fun (c3, t) =>
  (tr.put [mt.rootElems p.root3] t).bind fun t =>
  (tr.getField t).bind fun (c4, t) =>
  (tr.put [mt.rootElems p.root4] t).bind fun t =>
  (tr.getField t).bind fun (c7, t) =>
  (putAll tr els p.evals t).bind fun t =>
  (tr.getField t).bind fun (c5, t) =>
  (tr.getField t).map fun (c6, t) =>
  ((((((((( List.replicate 8 0).set 0 c0).set 1 c1).set 2 c2).set 3 c3).set 4 c4).set 7 c7).set 5 c5).set 6 c6, t)

/-- the context of the constraint check, stark_verify.rs L28-68 -/
def ctxConstraint (mg : Nat → A) (nBits : Nat) (chal evals publics : List A) : VCtx G A :=
  let xi := chal.getD 7 0
  { tree := fun _ => [], consts := [], evals := evals, publics := publics, challenge := chal, xDiv := none, xDivW := none
    z := xi ^ 2 ^ nBits - 1, zp := (xi * mg nBits) ^ 2 ^ nBits - 1 }

/-- the point of query `idx`, stark_verify.rs L125-126 -/
def queryPoint (mg : Nat → A) (shift : A) (nBitsExt idx : Nat) : A := shift * mg nBitsExt ^ idx

/-- the context of a query check, stark_verify.rs L112-131; the divisions panic on a zero divisor (C11) -/
def ctxQuery (mg : Nat → A) (shift : A) (nBits nBitsExt : Nat) (chal evals publics : List A) (rows : Nat → List G)
    (consts : List G) (idx : Nat) : VCtx G A :=
  let x := queryPoint mg shift nBitsExt idx
  let xi := chal.getD 7 0
  { tree := rows, consts := consts, evals := evals, publics := publics, challenge := chal
    xDiv := some (x / (x - xi)), xDivW := some (x / (x - xi * mg nBits)), z := 0, zp := 0 }

/-- `check_query`, stark_verify.rs L88-137 -/
def checkQuery (mt : MT G Root Path Tree) (e : Emb G A) (c : Cfg A) (val : P → A) (info : VInfo A) (constRoot : Root)
    (p : Proof G Root Path A P) (chal : List A) (query : Q G Path) (idx : Nat) : Option (List A) :=
  match query with
  | q0 :: q1 :: q2 :: q3 :: q4 :: _ =>
    if mt.verify p.root1 q0.2 idx q0.1 = some true ∧ mt.verify p.root2 q1.2 idx q1.1 = some true ∧
        mt.verify p.root3 q2.2 idx q2.1 = some true ∧ mt.verify p.root4 q3.2 idx q3.1 = some true ∧
        mt.verify constRoot q4.2 idx q4.1 = some true then
      let x := queryPoint c.mg c.shift c.inNbits idx
      let xi := chal.getD 7 0
      if x = xi ∨ x = xi * c.mg c.maxDegNbits then none
      else
        (executeCode e (ctxQuery c.mg c.shift c.maxDegNbits c.inNbits chal (p.evals.map val) (p.publics.map val)
          (fun k => if k = 1 then q0.1 else if k = 2 then q1.1 else if k = 3 then q2.1 else q3.1) q4.1 idx)
          info.queryCode).map fun v => [v]
    else none
  | _ => none

/-- `stark_verify`, stark_verify.rs L20-150; `c` is `FRI::new(stark_struct)`: `nBits = c.maxDegNbits`,
`nBitsExt = c.inNbits`. -/
def starkVerify (mt : MT G Root Path Tree) (tr : Tr G A T) (E : Enc G A) (e : Emb G A) (c : Cfg A) (els : P → List G)
    (val : P → A) (new : T) (info : VInfo A) (constRoot : Root) (p : Proof G Root Path A P) : Option (Bool × T) :=
  (verChallenges mt tr els new p).bind fun (chal, t) =>
  let ctx : VCtx G A := ctxConstraint c.mg c.maxDegNbits chal (p.evals.map val) (p.publics.map val)
  (executeCode e ctx info.code).bind fun res =>
  (info.qEv.mapM fun i => ctx.evals[i]?).bind fun qs =>
  if res ≠ recombine (chal.getD 7 0 ^ 2 ^ c.maxDegNbits) qs 1 0 * ctx.z then some (false, t)
  else verify mt tr E c p.fri (checkQuery mt e c val info constRoot p chal) t

end

end Verif.Stark
