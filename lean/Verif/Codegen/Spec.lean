import Verif.Codegen.Model

/-!
# What expressions and three-address code mean

Independent of code generation: the value of an expression tree at a row (`Val`) and the execution of a list of
three-address instructions on a store of named registers (`exec`).
-/
namespace Verif.Codegen.Spec
open Verif.Codegen

/-- The operations of the coefficient domain; partial, because the extension field arithmetic can panic. -/
structure Ops (E : Type) where
  add : E → E → Option E
  sub : E → E → Option E
  mul : E → E → Option E
  zero : E

/-- A store: the value of each register (type, id, prime); for the columns, `prime = false` is the current row and
`prime = true` the next row. -/
abbrev Store (E : Type) := NTy → Nat → Bool → Option E

variable {E : Type}

def Store.set (σ : Store E) (n : Node E) (v : E) : Store E :=
  fun t i p => if t = n.ty ∧ i = n.id ∧ p = n.prime then some v else σ t i p

/-- the value of an operand -/
def readN (σ : Store E) (n : Node E) : Option E :=
  if n.ty = .number then n.value else σ n.ty n.id n.prime

/-- the result of an instruction -/
def apply (K : Ops E) : IOp → List E → Option E
  | .add, [a, b] => K.add a b
  | .sub, [a, b] => K.sub a b
  | .mul, [a, b] => K.mul a b
  | .muladd, [a, b, c] => (K.mul a b).bind fun ab => K.add ab c
  | .copy, [a] => some a
  | _, _ => none

/-- one instruction -/
def step (K : Ops E) (σ : Store E) (i : Instr E) : Option (Store E) :=
  (i.src.mapM (readN σ)).bind fun vs => (apply K i.op vs).map fun v => σ.set i.dest v

/-- a list of instructions -/
def exec (K : Ops E) (code : List (Instr E)) (σ : Store E) : Option (Store E) := code.foldlM (step K) σ

/-- the column operators and their registers -/
def colTy : Op → Option NTy
  | .cm => some .cm
  | .const_ => some .const_
  | .q => some .q
  | _ => none

/-- the operators that read one value -/
def idTy : Op → Option NTy
  | .public_ => some .public_
  | .challenge => some .challenge
  | .eval => some .eval
  | _ => none

/-- the operators without argument -/
def nullTy : Op → Option NTy
  | .xDivXSubXi => some .xDivXSubXi
  | .xDivXSubWXi => some .xDivXSubWXi
  | .x => some .x
  | _ => none

/-- `Val K exps σ d p e v`: in the environment `σ` (the values of the columns at the current and the next row, of the
publics, challenges, ...) the expression `e` evaluates to `v` at the current row (`p = false`) or at the next row
(`p = true`); `d` bounds the depth of nested references to other expressions.  `exp` refers to another expression of the
list `exps`; a reference with `next` shifts the row by one, and shifting twice is not allowed. -/
inductive Val (K : Ops E) (exps : List (Expr E)) (σ : Store E) : Nat → Bool → Expr E → E → Prop
  | add {d p l a b x y z} : l.op = .add → Val K exps σ d p a x → Val K exps σ d p b y → K.add x y = some z →
      Val K exps σ d p (.node l [a, b]) z
  | sub {d p l a b x y z} : l.op = .sub → Val K exps σ d p a x → Val K exps σ d p b y → K.sub x y = some z →
      Val K exps σ d p (.node l [a, b]) z
  | mul {d p l a b x y z} : l.op = .mul → Val K exps σ d p a x → Val K exps σ d p b y → K.mul x y = some z →
      Val K exps σ d p (.node l [a, b]) z
  | muladd {d p l a b c x y w xy z} : l.op = .muladd → Val K exps σ d p a x → Val K exps σ d p b y →
      Val K exps σ d p c w → K.mul x y = some xy → K.add xy w = some z → Val K exps σ d p (.node l [a, b, c]) z
  | addc {d p l a k x z} : l.op = .addc → l.const_ = some k → Val K exps σ d p a x → K.add x k = some z →
      Val K exps σ d p (.node l [a]) z
  | mulc {d p l a k x z} : l.op = .mulc → l.const_ = some k → Val K exps σ d p a x → K.mul x k = some z →
      Val K exps σ d p (.node l [a]) z
  | neg {d p l a x z} : l.op = .neg → Val K exps σ d p a x → K.sub K.zero x = some z → Val K exps σ d p (.node l [a]) z
  | number {d p l v} : l.op = .number → l.value = some v → Val K exps σ d p (.node l []) v
  | col {d p l t i v} : colTy l.op = some t → l.id = some i → (l.next && p) = false → σ t i (l.next || p) = some v →
      Val K exps σ d p (.node l []) v
  | byId {d p l t i v} : idTy l.op = some t → l.id = some i → σ t i false = some v → Val K exps σ d p (.node l []) v
  | nullary {d p l t v} : nullTy l.op = some t → σ t 0 false = some v → Val K exps σ d p (.node l []) v
  | exp {d p l i e v} : l.op = .exp → l.id = some i → (l.next && p) = false → exps[i]? = some e →
      Val K exps σ d (l.next || p) e v → Val K exps σ (d + 1) p (.node l []) v

/-- the expression number `id` has the value `v` -/
def ExpVal (K : Ops E) (exps : List (Expr E)) (σ : Store E) (p : Bool) (id : Nat) (v : E) : Prop :=
  ∃ d e, exps[id]? = some e ∧ Val K exps σ d p e v

end Verif.Codegen.Spec
