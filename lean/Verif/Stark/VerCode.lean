import Verif.Stark.Protocol
import Verif.Codegen.Props

/-!
# The verifier's programs

`generate_constraint_polynomial_verifier` (starkinfo_cp_ver.rs) and `generate_fri_verifier` (starkinfo_fri_ver.rs), with
the rewriting of references done by them and by `map` (starkinfo_map.rs).  `none` is a panic or an error.
-/
namespace Verif.Stark
open Codegen

variable {A : Type}

/-- a column that is opened: `Node.type_` (`cm` or `const`), `Node.prime`, `Node.id` of an entry of `ev_map` -/
abbrev EvKey := NTy × Bool × Nat

/-- the mutable state of the rewriting of references: `exp_map` and `tmp_used` of `ContextF` (starkinfo_codegen.rs
L113-119), and the part `L` of the state that depends on the pass -/
structure FixSt (L : Type) where
  leaf : L
  expMap : List ((Bool × Nat) × Nat)
  tmpUsed : Nat

/-- what the `fix_ref` closures do with a reference: the branch `exp` with its `exp_map` (starkinfo_cp_ver.rs L61-74,
starkinfo_map.rs L460-473) for an expression that is not an intermediate polynomial, `tmp` unchanged; everything else is
`leaf`. -/
def fixRef {L : Type} (im : List Nat) (leaf : Node A → L → Option (VNode A × L)) (r : Node A) (st : FixSt L) :
    Option (VNode A × FixSt L) :=
  if r.ty = .tmp then some ({ ty := .tmp, id := r.id, prime := r.prime }, st)
  else if r.ty = .exp ∧ r.id ∉ im then
    match st.expMap.lookup (r.prime, r.id) with
    | some s => some ({ ty := .tmp, id := s, prime := r.prime }, st)
    | none => some ({ ty := .tmp, id := st.tmpUsed, prime := r.prime },
        { st with expMap := ((r.prime, r.id), st.tmpUsed) :: st.expMap, tmpUsed := st.tmpUsed + 1 })
  else (leaf r st.leaf).map fun x => (x.1, { st with leaf := x.2 })

/-- the operands, in order: `for s in c.src.iter_mut()`, starkinfo_codegen.rs L659-661 -/
def fixSrc {L : Type} (im : List Nat) (leaf : Node A → L → Option (VNode A × L)) : List (Node A) → FixSt L →
    Option (List (VNode A) × FixSt L)
  | [], st => some ([], st)
  | r :: rs, st => (fixRef im leaf r st).bind fun x => (fixSrc im leaf rs x.2).map fun y => (x.1 :: y.1, y.2)

/-- `iterate_code`, starkinfo_codegen.rs L651-668: for every instruction its operands, then its destination -/
def fixCode {L : Type} (im : List Nat) (leaf : Node A → L → Option (VNode A × L)) : List (Instr A) → FixSt L →
    Option (List (VInstr A) × FixSt L)
  | [], st => some ([], st)
  | i :: is, st =>
    (fixSrc im leaf i.src st).bind fun x => (fixRef im leaf i.dest x.2).bind fun y =>
    (fixCode im leaf is y.2).map fun z => (⟨i.op, y.1, x.1⟩ :: z.1, z.2)

/-! ### The constraint check -/

/-- `ev_idx` (newest entry first) and `ev_map` -/
structure EvSt where
  idx : List (EvKey × Nat) := []
  map : List EvKey := []

/-- starkinfo_cp_ver.rs L76-94 (and L39-59): the index of the opening of a column, a new one if it has none -/
def evRef (k : EvKey) (ev : EvSt) : Nat × EvSt :=
  match ev.idx.lookup k with
  | some i => (i, ev)
  | none => (ev.map.length, ⟨(k, ev.map.length) :: ev.idx, ev.map ++ [k]⟩)

/-- the remaining branches of `fix_ref`, starkinfo_cp_ver.rs L33-97: an intermediate polynomial becomes the opening of its
column, so does a column; `im_exp2cm[..]` panics on a missing key -/
def leafConstraint (im2cm : Nat → Option Nat) (r : Node A) (ev : EvSt) : Option (VNode A × EvSt) :=
  match r.ty with
  | .exp => (im2cm r.id).map fun c => ({ ty := .eval, id := (evRef (.cm, r.prime, c) ev).1 }, (evRef (.cm, r.prime, c) ev).2)
  | .cm => some ({ ty := .eval, id := (evRef (.cm, r.prime, r.id) ev).1 }, (evRef (.cm, r.prime, r.id) ev).2)
  | .const_ => some ({ ty := .eval, id := (evRef (.const_, r.prime, r.id) ev).1 }, (evRef (.const_, r.prime, r.id) ev).2)
  | .number => some ({ ty := .number, id := r.id, prime := r.prime, value := r.value }, ev)
  | .challenge => some ({ ty := .challenge, id := r.id, prime := r.prime }, ev)
  | .public_ => some ({ ty := .public_, id := r.id, prime := r.prime }, ev)
  | .x => some ({ ty := .x, id := r.id, prime := r.prime }, ev)
  | .eval => some ({ ty := .eval, id := r.id, prime := r.prime }, ev)
  | _ => none

/-- the openings of the quotient pieces, starkinfo_cp_ver.rs L101-110 -/
def addQs (qs : List Nat) (ev : EvSt) : EvSt :=
  qs.foldl (fun ev q => ⟨((.cm, false, q), ev.map.length) :: ev.idx, ev.map ++ [(.cm, false, q)]⟩) ev

/-- what `generate_constraint_polynomial_verifier` leaves in `starkinfo` and `program` -/
structure VerOut (A : Type) where
  code : List (VInstr A)
  ev : EvSt

/-- `generate_constraint_polynomial_verifier`, starkinfo_cp_ver.rs L8-119, on the fresh context of starkinfo.rs L251-255
(the intermediate polynomials are marked as calculated for both rows).  `execute_code` runs `first`; the other two lists of
the segment (`rest`, built from the same code) are rewritten after it. -/
def genVerifier (zero : A) (exps : List (Expr A)) (fuel : Nat) (im : List Nat) (im2cm : Nat → Option Nat) (cExp : Nat)
    (qs : List Nat) (rest : List (Code A) → List (Instr A)) : Option (VerOut A) :=
  (pilCodeGen zero exps fuel ⟨0, [], im.flatMap fun k => [(false, k), (true, k)]⟩ cExp false none true).bind fun ctx =>
  (fixCode im (leafConstraint im2cm) (linearCode ctx) ⟨{}, [], ctx.tmpUsed⟩).bind fun x =>
  (fixCode im (leafConstraint im2cm) (rest ctx.code) x.2).map fun y => ⟨x.1, addQs qs y.2.leaf⟩

/-! ### The query check -/

/-- the part of `PolType` (starkinfo_codegen.rs L189-195) of a committed column on the extended domain: its tree, position
and dimension -/
structure ColPos where
  tree : Nat
  pos : Nat
  dim : Nat

/-- the two rewritings of a reference of `verifier_query_code`, starkinfo_map.rs L441-480 (`fix_prover_code`) and L255-281
(`cm` becomes `tree1`..`tree4`); an intermediate polynomial is first turned into its column -/
def leafQuery (im2cm : Nat → Option Nat) (pos : Nat → Option ColPos) (r : Node A) (u : Unit) : Option (VNode A × Unit) :=
  let col : Nat → Option (VNode A × Unit) := fun c =>
    (pos c).map fun p => ({ ty := .tree p.tree, id := c, treePos := p.pos, dim := p.dim, prime := r.prime }, u)
  match r.ty with
  | .cm => col r.id
  | .exp => (im2cm r.id).bind col
  | .const_ => some ({ ty := .const_, id := r.id, prime := r.prime }, u)
  | .number => some ({ ty := .number, id := r.id, prime := r.prime, value := r.value }, u)
  | .challenge => some ({ ty := .challenge, id := r.id, prime := r.prime }, u)
  | .public_ => some ({ ty := .public_, id := r.id, prime := r.prime }, u)
  | .x => some ({ ty := .x, id := r.id, prime := r.prime }, u)
  | .eval => some ({ ty := .eval, id := r.id, prime := r.prime }, u)
  | .xDivXSubXi => some ({ ty := .xDivXSubXi, id := r.id, prime := r.prime }, u)
  | .xDivXSubWXi => some ({ ty := .xDivXSubWXi, id := r.id, prime := r.prime }, u)
  | _ => none

/-- `generate_fri_verifier`, starkinfo_fri_ver.rs L7-21, on the fresh context of starkinfo.rs L262, and the rewritings of
`map`, starkinfo_map.rs L251-290 -/
def genQuery (zero : A) (exps : List (Expr A)) (fuel : Nat) (im : List Nat) (im2cm : Nat → Option Nat)
    (pos : Nat → Option ColPos) (friExp : Nat) (rest : List (Code A) → List (Instr A)) : Option (List (VInstr A)) :=
  (pilCodeGen zero exps fuel ⟨0, [], []⟩ friExp false none true).bind fun ctx =>
  (fixCode im (leafQuery im2cm pos) (linearCode ctx) ⟨(), [], ctx.tmpUsed⟩).bind fun x =>
  (fixCode im (leafQuery im2cm pos) (rest ctx.code) x.2).map fun _ => x.1

end Verif.Stark
