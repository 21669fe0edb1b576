import Verif.Circom.Example
import Verif.Gadget.GLComplete

/-!
# The programs of the verifier in the on-chain circuit, starky/src/stark_verifier_circom_onchain.rs L189-414

`unrollCode` prints the verifier's programs as statements over BLS12-381 scalars; multiplications are components of gl.circom (C111).
Names, expressions and dimensions are those of Verif/Circom/Code.lean (`ref_`, L190-213, is the same function; the dimensions are in
the program).  `none` is a panic, or a circuit the circom compiler refuses.
-/
namespace Verif.Gadget.OnCode
open Verif.GL (F)
open Verif.Ext3 (K coord)
open Stark Codegen Circom

variable {r : Nat} {A : Type}

/-- the right side of `<==` in the on-chain circuit, L215-411 -/
inductive Rhs (G : Type)
  | scalar (e : SE G) | vec (a b c : SE G) | whole (s : Sig G) | cmul (a b : Arg G) | cmuladd (a b c : Arg G) | muladd (a b c : Sig G)

/-- `signal dest <== rhs;` (`three = false`) or `signal dest[3] <== rhs;` -/
structure Stmt (G : Type) where
  dest : Sig G
  three : Bool
  rhs : Rhs G

/-- `p`, printed as the variable `p = 0xFFFFFFFF00000001`, L430, L629 -/
def pE : SE (ZMod r) := .sig (.num (P : ZMod r))

/-- an argument: three elements as they are, one padded with zeros, L381-397 -/
def argOf (d : Nat) (s : Sig (ZMod r)) : Arg (ZMod r) := if d = 1 then .pad s else .whole s

/-- the statement printed for one instruction, L215-411.  Three cases are printed in a form the compiler refuses: the sum of two
scalars is `a[0] + b[0]` (L219-226), the product of two scalars is `signal t = GLCMul1()(a, b)` (L309-315),
a template that does not exist, and the product of scalars plus three elements closes a bracket with a parenthesis (L370-378). -/
def unrollOne (lit : A → ZMod r) (nCm : Nat → Nat) (i : VInstr A) : Option (Stmt (ZMod r)) :=
  (ref lit nCm i.dest).bind fun d =>
  match i.op, i.src with
  | .add, a :: b :: _ => (ref lit nCm a).bind fun x => (ref lit nCm b).bind fun y =>
    if a.dim = 1 ∧ b.dim = 1 then none
    else if a.dim = 1 ∧ b.dim = 3 then some ⟨d, true, .vec (.add (.sig x) (.at y 0)) (.at y 1) (.at y 2)⟩
    else if a.dim = 3 ∧ b.dim = 1 then some ⟨d, true, .vec (.add (.at x 0) (.sig y)) (.at x 1) (.at x 2)⟩
    else if a.dim = 3 ∧ b.dim = 3 then
      some ⟨d, true, .vec (.add (.at x 0) (.at y 0)) (.add (.at x 1) (.at y 1)) (.add (.at x 2) (.at y 2))⟩
    else none
  | .sub, a :: b :: _ => (ref lit nCm a).bind fun x => (ref lit nCm b).bind fun y =>
    if a.dim = 1 ∧ b.dim = 1 then some ⟨d, false, .scalar (.sub (.sig x) (.sig y))⟩
    else if a.dim = 1 ∧ b.dim = 3 then
      some ⟨d, true, .vec (.add (.sub (.sig x) (.at y 0)) pE) (.add (.neg (.at y 1)) pE) (.add (.neg (.at y 2)) pE)⟩
    else if a.dim = 3 ∧ b.dim = 1 then some ⟨d, true, .vec (.add (.sub (.at x 0) (.sig y)) pE) (.at x 1) (.at x 2)⟩
    else if a.dim = 3 ∧ b.dim = 3 then
      some ⟨d, true, .vec (.add (.sub (.at x 0) (.at y 0)) pE) (.add (.sub (.at x 1) (.at y 1)) pE) (.add (.sub (.at x 2) (.at y 2)) pE)⟩
    else none
  | .mul, a :: b :: _ => (ref lit nCm a).bind fun x => (ref lit nCm b).bind fun y =>
    if a.dim = 1 ∧ b.dim = 1 then none
    else if (a.dim = 1 ∨ a.dim = 3) ∧ (b.dim = 1 ∨ b.dim = 3) then some ⟨d, true, .cmul (argOf a.dim x) (argOf b.dim y)⟩
    else none
  | .copy, a :: _ => (ref lit nCm a).bind fun x =>
    if a.dim = 1 then some ⟨d, false, .scalar (.sig x)⟩
    else if a.dim = 3 then some ⟨d, true, .whole x⟩
    else none
  | .muladd, a :: b :: c :: _ => (ref lit nCm a).bind fun x => (ref lit nCm b).bind fun y => (ref lit nCm c).bind fun z =>
    if a.dim = 1 ∧ b.dim = 1 then
      if c.dim = 1 then some ⟨d, false, .muladd x y z⟩ else none
    else some ⟨d, true, .cmuladd (argOf a.dim x) (argOf b.dim y) (argOf c.dim z)⟩
  | _, _ => none

/-- `unrollCode`, L189-414: the statements, and the name of the result -/
def unrollCode (lit : A → ZMod r) (nCm : Nat → Nat) (code : List (VInstr A)) : Option (List (Stmt (ZMod r)) × Sig (ZMod r)) :=
  (code.mapM (unrollOne lit nCm)).bind fun stmts => code.getLast?.bind fun last => (ref lit nCm last.dest).map fun s => (stmts, s)

/-! ### The constraints -/

/-- three elements as a vector -/
def f3 (x : ZMod r × ZMod r × ZMod r) : Fin 3 → ZMod r := ![x.1, x.2.1, x.2.2]

/-- `rhs` may have the value `v` when the signals have the values `env`: components leave the freedom their constraints leave -/
def RhsRel (env : Env (ZMod r)) : Rhs (ZMod r) → Val (ZMod r) → Prop
  | .scalar e, .one g => evalS env e = some g
  | .vec a b c, .three x y z => evalS env a = some x ∧ evalS env b = some y ∧ evalS env c = some z
  | .whole s, .three x y z => look env s = some (.three x y z)
  | .cmul a b, .three x y z => ∃ u v, evalArg env a = some u ∧ evalArg env b = some v ∧ GLCMul (f3 u) (f3 v) ![x, y, z]
  | .cmuladd a b c, .three x y z =>
    ∃ u v w, evalArg env a = some u ∧ evalArg env b = some v ∧ evalArg env c = some w ∧ GLCMulAdd (f3 u) (f3 v) (f3 w) ![x, y, z]
  | .muladd a b c, .one g =>
    ∃ u v w, look env a = some (.one u) ∧ look env b = some (.one v) ∧ look env c = some (.one w) ∧ GLMulAdd u v w g
  | _, _ => False

/-- a statement holds of the values of the signals -/
def Sat (env : Env (ZMod r)) (s : Stmt (ZMod r)) : Prop := ∃ v, RhsRel env s.rhs v ∧ v.isThree = s.three ∧ env s.dest = some v

/-! ### Sizes of the unreduced values

Sums and differences are not reduced.  `(lo, hi)` says that a signal is a number in `[-lo p, hi p)`. -/

/-- the range of a signal of the template: 64-bit values, `Z` which is such a value minus 1 plus `p`, and literals between `-p` and `2p` -/
def ivLeaf (t : VTy) : Nat × Nat := if t = .number then (1, 2) else if t = .Z then (0, 3) else (0, 2)

/-- the range of an operand -/
def ivRef (iv : Nat → Option (Nat × Nat)) (x : VNode A) : Option (Nat × Nat) := if x.ty = .tmp then iv x.id else some (ivLeaf x.ty)

/-- the range of the result of an instruction; operands of multiplications have to lie within `lim` (the third operand of `GLMulAdd`
must not be negative) -/
def ivOne (lim : Nat × Nat) (iv : Nat → Option (Nat × Nat)) (i : VInstr A) : Option (Nat × Nat) :=
  match i.op, i.src with
  | .add, a :: b :: _ => (ivRef iv a).bind fun x => (ivRef iv b).map fun y => (x.1 + y.1, x.2 + y.2)
  | .sub, a :: b :: _ => (ivRef iv a).bind fun x => (ivRef iv b).map fun y =>
    if a.dim = 1 ∧ b.dim = 1 then (x.1 + y.2, x.2 + y.1) else (x.1 + (y.2 - 1), max x.2 1 + y.1 + 1)
  | .mul, a :: b :: _ => (ivRef iv a).bind fun x => (ivRef iv b).bind fun y =>
    if x.1 ≤ lim.1 ∧ x.2 ≤ lim.2 ∧ y.1 ≤ lim.1 ∧ y.2 ≤ lim.2 then some (0, 2) else none
  | .copy, a :: _ => ivRef iv a
  | .muladd, a :: b :: c :: _ => (ivRef iv a).bind fun x => (ivRef iv b).bind fun y => (ivRef iv c).bind fun z =>
    if x.1 ≤ lim.1 ∧ x.2 ≤ lim.2 ∧ y.1 ≤ lim.1 ∧ y.2 ≤ lim.2 ∧ z.1 ≤ lim.1 ∧ z.2 ≤ lim.2 ∧ (a.dim = 1 ∧ b.dim = 1 → z.1 = 0)
    then some (0, 2) else none
  | _, _ => none

/-- the ranges of the temporaries of a program; `none`: an operand of a multiplication may be out of range -/
def ivals (lim : Nat × Nat) : (Nat → Option (Nat × Nat)) → List (VInstr A) → Option (Nat → Option (Nat × Nat))
  | iv, [] => some iv
  | iv, i :: is => (ivOne lim iv i).bind fun x => ivals lim (Function.update iv i.dest.id (some x)) is

/-! ### What a value stands for -/

/-- the scalar is a number in `[-lo p, hi p)` congruent to `x` -/
def RI (lo hi : Nat) (s : ZMod r) (x : F) : Prop := ∃ z : ℤ, -((lo : ℤ) * (P : ℤ)) ≤ z ∧ z < (hi : ℤ) * (P : ℤ) ∧ s = (z : ZMod r) ∧ (z : F) = x

/-- a signal of one or three elements stands for the element `v` of the extension field, unreduced in range `(lo, hi)` -/
def RV (lo hi : Nat) : Val (ZMod r) → K → Prop
  | .one g, v => ∃ x : F, RI lo hi g x ∧ algebraMap F K x = v
  | .three a b c, v => Lift3 (RI lo hi) ![a, b, c] v

end Verif.Gadget.OnCode
