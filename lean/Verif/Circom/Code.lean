import Verif.Stark.Protocol

/-!
# The recursive verifier circuit: unrolled code, starky/src/stark_verifier_circom.rs L162-459

`pil2circom` prints the verifier as a circom template.  Here: the printed form of the verifier's programs
(`unrollCode`), with the dimensions `set_code_dimensions_first` (starkinfo_map.rs L305-426) computes for it, and the meaning of
the printed statements.  `none` is a panic, or a program the circom compiler refuses.
-/
namespace Verif.Circom
open Stark Codegen

variable {G A : Type}

/-! ### Dimensions, starkinfo_map.rs L305-426 -/

/-- `get_dim` with `dim_x = 3`, starkinfo_map.rs L321-364, on a reference that is not a temporary (`exp`, `cm`, `q`, `Zi` do not
occur in the verifier's programs) -/
def leafDim (r : VNode A) : Option Nat :=
  match r.ty with
  | .tree _ => if r.dim = 0 then none else some r.dim
  | .const_ | .number | .public_ => some 1
  | .eval | .challenge | .Z => some 3
  | .xDivXSubXi | .xDivXSubWXi | .x => some 3
  | .tmp | .other => none

/-- `get_dim`, starkinfo_map.rs L321-364: the dimension, which is also stored in the reference (L362) -/
def getDim (tmpDim : Nat → Option Nat) (r : VNode A) : Option (Nat × VNode A) :=
  ((if r.ty = .tmp then tmpDim r.id else leafDim r)).map fun d => (d, { r with dim := d })

/-- the operands whose dimension is looked at, starkinfo_map.rs L373-399; the others keep theirs -/
def opDims (tmpDim : Nat → Option Nat) (op : IOp) (src : List (VNode A)) : Option (Nat × List (VNode A)) :=
  match op, src with
  | .copy, a :: rest => (getDim tmpDim a).map fun x => (x.1, x.2 :: rest)
  | .add, a :: b :: rest | .sub, a :: b :: rest | .mul, a :: b :: rest =>
    (getDim tmpDim a).bind fun x => (getDim tmpDim b).map fun y => (max x.1 y.1, x.2 :: y.2 :: rest)
  | .muladd, a :: b :: c :: rest =>
    (getDim tmpDim a).bind fun x => (getDim tmpDim b).bind fun y => (getDim tmpDim c).map fun z =>
      (max (max x.1 y.1) z.1, x.2 :: y.2 :: z.2 :: rest)
  | _, _ => none

/-- `_set_code_dimensions`, starkinfo_map.rs L366-410, and `set_dim`, L306-319 (a destination that is not a temporary, which the
verifier's programs do not have, is refused) -/
def setDims : (Nat → Option Nat) → List (VInstr A) → Option (List (VInstr A))
  | _, [] => some []
  | td, i :: is =>
    (opDims td i.op i.src).bind fun x =>
    if i.dest.ty = .tmp then
      (setDims (Function.update td i.dest.id (some x.1)) is).map fun is' =>
        ⟨i.op, { i.dest with dim := x.1 }, x.2⟩ :: is'
    else none

/-! ### The printed program -/

/-- a name `ref_` can print, stark_verifier_circom.rs L163-183; `num` is a literal -/
inductive Sig (G : Type)
  | eval (i : Nat) | challenge (i : Nat) | public_ (i : Nat) | Z | xDiv | xDivW | tmp (i : Nat) | tree (k i : Nat)
  | const_ (i : Nat) | num (g : G)
deriving DecidableEq

/-- `ref_`, stark_verifier_circom.rs L163-183; `nCm` are `n_cm1`, `n_cm2`, `n_cm3`, whose sums are subtracted from the number
of the column (a subtraction below zero panics); `lit` is the number as circom reads it -/
def ref (lit : A → G) (nCm : Nat → Nat) (r : VNode A) : Option (Sig G) :=
  match r.ty with
  | .eval => some (.eval r.id)
  | .challenge => some (.challenge r.id)
  | .public_ => some (.public_ r.id)
  | .x => some (.challenge 7)
  | .Z => some .Z
  | .xDivXSubXi => some .xDiv
  | .xDivXSubWXi => some .xDivW
  | .tmp => some (.tmp r.id)
  | .tree 1 => some (.tree 1 r.id)
  | .tree 2 => if r.id < nCm 1 then none else some (.tree 2 (r.id - nCm 1))
  | .tree 3 => if r.id < nCm 1 + nCm 2 then none else some (.tree 3 (r.id - nCm 1 - nCm 2))
  | .tree 4 => if r.id < nCm 1 + nCm 2 + nCm 3 then none else some (.tree 4 (r.id - nCm 1 - nCm 2 - nCm 3))
  | .tree _ => none
  | .const_ => some (.const_ r.id)
  | .number => r.value.map fun v => .num (lit v)
  | .other => none

/-- an expression of scalars: a signal, a component of a signal, and arithmetic -/
inductive SE (G : Type)
  | sig (s : Sig G) | at (s : Sig G) (k : Nat) | add (a b : SE G) | sub (a b : SE G) | neg (a : SE G) | mul (a b : SE G)

/-- an argument of `CMul`, `CMulAdd`: a signal of three elements, or `[s, 0, 0]` -/
inductive Arg (G : Type)
  | whole (s : Sig G) | pad (s : Sig G)

/-- the right side of `<==` -/
inductive Rhs (G : Type)
  | scalar (e : SE G) | vec (a b c : SE G) | whole (s : Sig G) | cmul (a b : Arg G) | cmuladd (a b c : Arg G)

/-- `signal dest <== rhs;` (`three = false`) or `signal dest[3] <== rhs;` -/
structure Stmt (G : Type) where
  dest : Sig G
  three : Bool
  rhs : Rhs G

/-- the statement printed for one instruction, stark_verifier_circom.rs L206-455, by operation and dimensions -/
def unrollOne (lit : A → G) (nCm : Nat → Nat) (i : VInstr A) : Option (Stmt G) :=
  (ref lit nCm i.dest).bind fun d =>
  match i.op, i.src with
  | .add, a :: b :: _ => (ref lit nCm a).bind fun x => (ref lit nCm b).bind fun y =>
    if a.dim = 1 ∧ b.dim = 1 then some ⟨d, false, .scalar (.add (.sig x) (.sig y))⟩
    else if a.dim = 1 ∧ b.dim = 3 then some ⟨d, true, .vec (.add (.sig x) (.at y 0)) (.at y 1) (.at y 2)⟩
    else if a.dim = 3 ∧ b.dim = 1 then some ⟨d, true, .vec (.add (.at x 0) (.sig y)) (.at x 1) (.at x 2)⟩
    else if a.dim = 3 ∧ b.dim = 3 then
      some ⟨d, true, .vec (.add (.at x 0) (.at y 0)) (.add (.at x 1) (.at y 1)) (.add (.at x 2) (.at y 2))⟩
    else none
  | .sub, a :: b :: _ => (ref lit nCm a).bind fun x => (ref lit nCm b).bind fun y =>
    if a.dim = 1 ∧ b.dim = 1 then some ⟨d, false, .scalar (.sub (.sig x) (.sig y))⟩
    else if a.dim = 1 ∧ b.dim = 3 then some ⟨d, true, .vec (.sub (.sig x) (.at y 0)) (.neg (.at y 1)) (.neg (.at y 2))⟩
    else if a.dim = 3 ∧ b.dim = 1 then some ⟨d, true, .vec (.sub (.at x 0) (.sig y)) (.at x 1) (.at x 2)⟩
    else if a.dim = 3 ∧ b.dim = 3 then
      some ⟨d, true, .vec (.sub (.at x 0) (.at y 0)) (.sub (.at x 1) (.at y 1)) (.sub (.at x 2) (.at y 2))⟩
    else none
  | .mul, a :: b :: _ => (ref lit nCm a).bind fun x => (ref lit nCm b).bind fun y =>
    if a.dim = 1 ∧ b.dim = 1 then some ⟨d, false, .scalar (.mul (.sig x) (.sig y))⟩
    else if a.dim = 1 ∧ b.dim = 3 then
      some ⟨d, true, .vec (.mul (.sig x) (.at y 0)) (.mul (.sig x) (.at y 1)) (.mul (.sig x) (.at y 2))⟩
    else if a.dim = 3 ∧ b.dim = 1 then
      some ⟨d, true, .vec (.mul (.at x 0) (.sig y)) (.mul (.at x 1) (.sig y)) (.mul (.at x 2) (.sig y))⟩
    else if a.dim = 3 ∧ b.dim = 3 then some ⟨d, true, .cmul (.whole x) (.whole y)⟩
    else none
  | .copy, a :: _ => (ref lit nCm a).bind fun x =>
    if a.dim = 1 then some ⟨d, false, .scalar (.sig x)⟩
    else if a.dim = 3 then some ⟨d, true, .whole x⟩
    else none
  | .muladd, a :: b :: c :: _ => (ref lit nCm a).bind fun x => (ref lit nCm b).bind fun y => (ref lit nCm c).bind fun z =>
    if c.dim = 1 then
      if a.dim = 1 ∧ b.dim = 1 then some ⟨d, false, .scalar (.add (.mul (.sig x) (.sig y)) (.sig z))⟩
      else if a.dim = 1 ∧ b.dim = 3 then
        some ⟨d, true, .vec (.add (.mul (.sig x) (.at y 0)) (.sig z)) (.mul (.sig x) (.at y 1)) (.mul (.sig x) (.at y 2))⟩
      else if a.dim = 3 ∧ b.dim = 1 then
        some ⟨d, true, .vec (.add (.mul (.at x 0) (.sig y)) (.sig z)) (.mul (.at x 1) (.sig y)) (.mul (.at x 2) (.sig y))⟩
      else if a.dim = 3 ∧ b.dim = 3 then some ⟨d, true, .cmuladd (.whole x) (.whole y) (.pad z)⟩
      else none
    else if c.dim = 3 then
      if a.dim = 1 ∧ b.dim = 1 then some ⟨d, true, .vec (.add (.mul (.sig x) (.sig y)) (.at z 0)) (.at z 1) (.at z 2)⟩
      else if (a.dim = 1 ∨ a.dim = 3) ∧ (b.dim = 1 ∨ b.dim = 3) then
        some ⟨d, true, .cmuladd (if a.dim = 3 then .whole x else .pad x) (if b.dim = 3 then .whole y else .pad y) (.whole z)⟩
      else none
    else none
  | _, _ => none

/-- `unrollCode`, stark_verifier_circom.rs L162-459: the statements, and the name of the result -/
def unrollCode (lit : A → G) (nCm : Nat → Nat) (code : List (VInstr A)) : Option (List (Stmt G) × Sig G) :=
  (code.mapM (unrollOne lit nCm)).bind fun stmts => code.getLast?.bind fun last => (ref lit nCm last.dest).map fun s => (stmts, s)

/-! ### What the statements mean -/

/-- the value of a signal: one field element or three -/
inductive Val (G : Type)
  | one (g : G) | three (a b c : G)

/-- whether the value has three elements -/
def Val.isThree : Val G → Bool
  | .one _ => false
  | .three _ _ _ => true

/-- number of elements -/
def Val.size : Val G → Nat
  | .one _ => 1
  | .three _ _ _ => 3

/-- the element of the extension field a signal stands for -/
def Val.val (e : Emb G A) : Val G → A
  | .one g => e.emb g
  | .three a b c => e.dec a b c

/-- the values of the signals declared so far; a literal is a scalar -/
abbrev Env (G : Type) := Sig G → Option (Val G)

/-- the value of a name -/
def look (env : Env G) : Sig G → Option (Val G)
  | .num g => some (.one g)
  | s => env s

section
variable [Ring G]

/-- the value of a scalar expression; using an array as a scalar, or indexing a scalar, does not compile -/
def evalS (env : Env G) : SE G → Option G
  | .sig s => (look env s).bind fun v => match v with | .one g => some g | .three _ _ _ => none
  | .at s k => (look env s).bind fun v => match v with
    | .three a b c => if k = 0 then some a else if k = 1 then some b else if k = 2 then some c else none
    | .one _ => none
  | .add a b => (evalS env a).bind fun x => (evalS env b).map fun y => x + y
  | .sub a b => (evalS env a).bind fun x => (evalS env b).map fun y => x - y
  | .neg a => (evalS env a).map fun x => -x
  | .mul a b => (evalS env a).bind fun x => (evalS env b).map fun y => x * y

/-- the three elements of an argument -/
def evalArg (env : Env G) : Arg G → Option (G × G × G)
  | .whole s => (look env s).bind fun v => match v with | .three a b c => some (a, b, c) | .one _ => none
  | .pad s => (look env s).bind fun v => match v with | .one g => some (g, 0, 0) | .three _ _ _ => none

variable [Ring A]

/-- the value of a right side.  `CMul()` and `CMulAdd()` are the templates of cmuladd.circom (not in the repository), assumed
to compute the product, and the product plus a third argument, in the extension field; `co` are the coordinates. -/
def evalRhs (e : Emb G A) (co : A → G × G × G) (env : Env G) : Rhs G → Option (Val G)
  | .scalar x => (evalS env x).map .one
  | .vec a b c => (evalS env a).bind fun x => (evalS env b).bind fun y => (evalS env c).map fun z => .three x y z
  | .whole s => (look env s).bind fun v => match v with | .three a b c => some (.three a b c) | .one _ => none
  | .cmul a b => (evalArg env a).bind fun x => (evalArg env b).map fun y =>
    let r := co (e.dec x.1 x.2.1 x.2.2 * e.dec y.1 y.2.1 y.2.2)
    .three r.1 r.2.1 r.2.2
  | .cmuladd a b c => (evalArg env a).bind fun x => (evalArg env b).bind fun y => (evalArg env c).map fun z =>
    let r := co (e.dec x.1 x.2.1 x.2.2 * e.dec y.1 y.2.1 y.2.2 + e.dec z.1 z.2.1 z.2.2)
    .three r.1 r.2.1 r.2.2

variable [DecidableEq G]

/-- one statement: declares `dest` (a second declaration does not compile) and fixes its value; the number of elements of both
sides must agree -/
def runOne (e : Emb G A) (co : A → G × G × G) (env : Env G) (s : Stmt G) : Option (Env G) :=
  if env s.dest ≠ none then none else
  (evalRhs e co env s.rhs).bind fun v => if v.isThree = s.three then some (Function.update env s.dest (some v)) else none

/-- the statements in order: `<==` leaves no freedom, the values of the signals are determined -/
def runStmts (e : Emb G A) (co : A → G × G × G) (env : Env G) (l : List (Stmt G)) : Option (Env G) := l.foldlM (runOne e co) env

end

/-- `emb`, `dec` and `co` are the inclusion of the base field, the element with given coordinates and the coordinates of an
element of an extension of degree three -/
structure ExtOk [Ring G] [Ring A] (e : Emb G A) (co : A → G × G × G) : Prop where
  base : ∀ a, e.dec a 0 0 = e.emb a
  add : ∀ a b c a' b' c', e.dec (a + a') (b + b') (c + c') = e.dec a b c + e.dec a' b' c'
  smul : ∀ s a b c, e.dec (s * a) (s * b) (s * c) = e.emb s * e.dec a b c
  dec_co : ∀ v, e.dec (co v).1 (co v).2.1 (co v).2.2 = v
  co_dec : ∀ a b c, co (e.dec a b c) = (a, b, c)

end Verif.Circom
