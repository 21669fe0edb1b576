import Verif.Codegen.Traverse

/-!
# Code generation (starky/src/starkinfo_codegen.rs L296-580)

Expressions are trees whose nodes carry an operator; `pil_code_gen` turns an expression, and the expressions it
refers to, into three-address code.  Panics and `bail!` are `none`.
-/
namespace Verif.Codegen

/-- `Expression.op` -/
inductive Op
  | add | sub | mul | muladd | addc | mulc | neg | cm | const_ | exp | q | number | public_ | challenge | eval
  | xDivXSubXi | xDivXSubWXi | x | other
deriving DecidableEq

/-- `Expression`, types.rs L36-55, without its `values`: `value` and `const_` hold the parsed number (the text is carried
unchanged to the interpreter, which parses it, see C58); a missing `next` is `false` (L64-68); `deg`, `keep`, `keep2ns`
and `idQ` are not read by code generation. -/
structure Label (E : Type) where
  op : Op
  id : Option Nat := none
  next : Bool := false
  value : Option E := none
  const_ : Option E := none

/-- an expression; `values: None` and `Some(vec![])` are both the empty list -/
abbrev Expr (E : Type) := Tree (Label E)

/-- `Node.type_` -/
inductive NTy
  | tmp | exp | cm | const_ | q | number | public_ | challenge | eval | xDivXSubXi | xDivXSubWXi | x | f
deriving DecidableEq

/-- `Node`, starkinfo_codegen.rs L48-58 (type, id, number, prime) -/
structure Node (E : Type) where
  ty : NTy
  id : Nat := 0
  prime : Bool := false
  value : Option E := none

/-- `Section.op` -/
inductive IOp | add | sub | mul | muladd | copy
deriving DecidableEq

/-- `Section`, L74-79 -/
structure Instr (E : Type) where
  op : IOp
  dest : Node E
  src : List (Node E)

/-- `ContextC`, L20-24 (`exp_id` is only used in error messages) -/
structure CodeCtx (E : Type) where
  tmpUsed : Nat
  code : List (Instr E)

/-- `Code`, L32-38 -/
structure Code (E : Type) where
  expId : Nat
  prime : Bool
  code : List (Instr E)

/-- `Context`, L12-18.  `calculated` is the set of keys of the map: `pil_code_gen` tests `contains_key` and never looks at
the stored flag. -/
structure Ctx (E : Type) where
  tmpUsed : Nat
  code : List (Code E)
  calculated : List (Bool × Nat)

variable {E : Type}

/-- allocating a temporary and pushing the instruction that fills it, e.g. L455-460 -/
def emit (op : IOp) (src : List (Node E)) : StateT (CodeCtx E) Option (Node E) := fun c =>
  let r : Node E := { ty := .tmp, id := c.tmpUsed }
  some (r, { tmpUsed := c.tmpUsed + 1, code := c.code ++ [⟨op, r, src⟩] })

/-- the references to columns, L514-536 -/
def refNode (ty : NTy) (l : Label E) (prime : Bool) : StateT (CodeCtx E) Option (Node E) := fun c =>
  if l.next && prime then none else l.id.map fun i => ({ ty := ty, id := i, prime := l.next || prime }, c)

/-- the references without a row, L538-543 -/
def idNode (ty : NTy) (l : Label E) : StateT (CodeCtx E) Option (Node E) := fun c =>
  l.id.map fun i => ({ ty := ty, id := i }, c)

/-- `eval_single_op`, L446-547.  `zero` is the number `"0"`; a `number` without text (`value: None`), which the interpreter
would refuse, is refused here. -/
def evalSingleOp (zero : E) (prime : Bool) (e : Expr E) (values : List (Node E)) : StateT (CodeCtx E) Option (Node E) :=
  match e.label.op with
  | .add => emit .add values
  | .sub => emit .sub values
  | .mul => emit .mul values
  | .muladd => emit .muladd values
  | .addc => fun c => values.head?.bind fun a => e.label.const_.bind fun k =>
    emit .add [a, { ty := .number, value := some k }] c
  | .mulc => fun c => values.head?.bind fun a => e.label.const_.bind fun k =>
    emit .mul [a, { ty := .number, value := some k }] c
  | .neg => fun c => values.head?.bind fun b => emit .sub [{ ty := .number, value := some zero }, b] c
  | .cm => refNode .cm e.label prime
  | .const_ => refNode .const_ e.label prime
  | .exp => refNode .exp e.label prime
  | .q => refNode .q e.label prime
  | .number => fun c => e.label.value.map fun v => ({ ty := .number, value := some v }, c)
  | .public_ => idNode .public_ e.label
  | .challenge => idNode .challenge e.label
  | .eval => idNode .eval e.label
  | .xDivXSubXi => fun c => some ({ ty := .xDivXSubXi }, c)
  | .xDivXSubWXi => fun c => some ({ ty := .xDivXSubWXi }, c)
  | .x => fun c => some ({ ty := .x }, c)
  | .other => fun _ => none

/-- `eval_exp`, L427-443 (`nop` is one of the `other` operators, refused either way) -/
def evalExp (zero : E) (prime : Bool) (e : Expr E) : StateT (CodeCtx E) Option (Node E) :=
  traverse (fun _ _ => none) (evalSingleOp zero prime) e

mutual
/-- `find_muladd`, L354-381 (for an `add` with two operands; on other arities, which no parser produces, the code drops or
misses operands) -/
def findMuladd : Expr E → Option (Expr E)
  | .node l vs =>
    match l.op, vs with
    | .add, [.node l0 vs0, v1] =>
      if l0.op = .mul then
        match vs0 with
        | a :: b :: _ => do
          let a' ← findMuladd a
          let b' ← findMuladd b
          let c' ← findMuladd v1
          some (.node { op := .muladd } [a', b', c'])
        | _ => none
      else
        match v1 with
        | .node l1 vs1 =>
          if l1.op = .mul then
            match vs1 with
            | a :: b :: _ => do
              let a' ← findMuladd a
              let b' ← findMuladd b
              let c' ← findMuladd (.node l0 vs0)
              some (.node { op := .muladd } [a', b', c'])
            | _ => none
          else do
            let x ← findMuladd (.node l0 vs0)
            let y ← findMuladd (.node l1 vs1)
            some (.node l [x, y])
    | _, vs => (findMuladdL vs).map fun vs' => .node l vs'
/-- `values.map(find_muladd)`, L374-375 -/
def findMuladdL : List (Expr E) → Option (List (Expr E))
  | [] => some []
  | v :: vs => do
    let v' ← findMuladd v
    let vs' ← findMuladdL vs
    some (v' :: vs')
end

mutual
/-- `calculate_deps`, L549-573; `gen` is the recursive call of `pil_code_gen` -/
def calcDeps (gen : Ctx E → Nat → Bool → Option (Ctx E)) (prime : Bool) : Expr E → Ctx E → Option (Ctx E)
  | .node l vs, ctx =>
    (if l.op = .exp then
      l.id.bind fun id => if prime && l.next then none else gen ctx id (prime || l.next)
    else some ctx).bind fun ctx => calcDepsL gen prime vs ctx
/-- L570-572 -/
def calcDepsL (gen : Ctx E → Nat → Bool → Option (Ctx E)) (prime : Bool) : List (Expr E) → Ctx E → Option (Ctx E)
  | [], ctx => some ctx
  | v :: vs, ctx => (calcDeps gen prime v ctx).bind fun ctx => calcDepsL gen prime vs ctx
end

/-- L305-317: an additional copy of the result of an expression that has already been generated, appended to the code of
that expression -/
def copyResult (ctx : Ctx E) (expId : Nat) (prime : Bool) (ty : NTy) (rid : Nat) : Option (Ctx E) :=
  (ctx.code.findIdx? fun x => x.expId == expId && x.prime == prime).bind fun i =>
  ctx.code[i]?.bind fun c =>
  c.code.getLast?.bind fun last =>
  some { ctx with code := ctx.code.set i { c with code := c.code ++ [⟨.copy, { ty := ty, id := rid, prime := prime }, [last.dest]⟩] } }

/-- L330-345: turn the last temporary into the expression's own register, or copy the operand into it -/
def finish (expId : Nat) (prime : Bool) (r : Node E) (c : CodeCtx E) : Option (CodeCtx E) :=
  let d : Node E := { ty := .exp, id := expId, prime := prime }
  if r.ty = .tmp then
    c.code.getLast?.map fun last => { tmpUsed := c.tmpUsed - 1, code := c.code.dropLast ++ [{ last with dest := d }] }
  else some { c with code := c.code ++ [⟨.copy, d, [r]⟩] }

/-- L336-345: the copy of the expression into the requested result -/
def addResult (expId : Nat) (prime : Bool) (res : Option (NTy × Nat)) (c : CodeCtx E) : Option (CodeCtx E) :=
  match res with
  | none => some c
  | some (ty, rid) =>
    if prime then none
    else some { c with code := c.code ++ [⟨.copy, { ty := ty, id := rid, prime := prime }, [{ ty := .exp, id := expId, prime := prime }]⟩] }

/-- L321-350: the code of one expression, its dependencies being available -/
def genOne (zero : E) (exps : List (Expr E)) (ctx : Ctx E) (expId : Nat) (prime : Bool) (res : Option (NTy × Nat))
    (muladd : Bool) : Option (Ctx E) :=
  exps[expId]?.bind fun e =>
  (if muladd then findMuladd e else some e).bind fun e =>
  (evalExp zero prime e { tmpUsed := ctx.tmpUsed, code := [] }).bind fun rc =>
  (finish expId prime rc.1 rc.2).bind fun c =>
  (addResult expId prime res c).map fun c =>
  { tmpUsed := max ctx.tmpUsed c.tmpUsed, code := ctx.code ++ [⟨expId, prime, c.code⟩],
    calculated := (prime, expId) :: ctx.calculated }

/-- `pil_code_gen`, L296-352.  `fuel` bounds the depth of the recursion through references between expressions (the code
would overflow its stack on circular references).  Dependencies are generated without result and without `muladd` (L320
passes `false`). -/
def pilCodeGen (zero : E) (exps : List (Expr E)) : Nat → Ctx E → Nat → Bool → Option (NTy × Nat) → Bool → Option (Ctx E)
  | 0, _, _, _, _, _ => none
  | fuel + 1, ctx, expId, prime, res, muladd =>
    if (prime, expId) ∈ ctx.calculated then
      match res with
      | none => some ctx
      | some (ty, rid) => copyResult ctx expId prime ty rid
    else
      exps[expId]?.bind fun e =>
      (calcDeps (fun c id p => pilCodeGen zero exps fuel c id p none false) prime e ctx).bind fun ctx =>
      genOne zero exps ctx expId prime res muladd

/-- `build_linear_code(ctx, pil, "first")`, L594-616: the code of all entries in order (for the `first` position the
exclusion map is empty) -/
def linearCode (ctx : Ctx E) : List (Instr E) := ctx.code.flatMap Code.code

end Verif.Codegen
