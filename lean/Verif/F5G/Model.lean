import Verif.F3G.Model

/-!
# Model of the quintic extension `F5G` (`/repo/starky/src/f5g.rs`)

Base-field elements are values of `F = ZMod MODULUS` (see `Verif.GL`). A panic is `none`; non-termination is
represented by an explicit fuel argument running out (`lt`).
-/
namespace Verif.Ext5
open Verif.GL (F MODULUS)

/-- `f5g.rs` L15-18: `struct F5G { cube: [Fr;5], dim: usize }`, `PartialEq` derived. -/
@[ext] structure F5G where
  c0 : F
  c1 : F
  c2 : F
  c3 : F
  c4 : F
  dim : Nat
deriving DecidableEq

/-- `f5g.rs` L28-30 `new`. -/
def new (a b c d e : F) : F5G := ⟨a, b, c, d, e, 5⟩

/-- `f5g.rs` L505-510 `From<Fr>`. -/
def ofF (v : F) : F5G := ⟨v, 0, 0, 0, 0, 1⟩

/-- `f5g.rs` L40 `ZERO`. -/
def ZERO : F5G := ⟨0, 0, 0, 0, 0, 1⟩
/-- `f5g.rs` L41 `ONE`. -/
def ONE : F5G := ⟨1, 0, 0, 0, 0, 1⟩
/-- `f5g.rs` L42 `ZEROS`. -/
def ZEROS : F5G := ⟨0, 0, 0, 0, 0, 5⟩
/-- `f5g.rs` L43 `ONES`. -/
def ONES : F5G := ⟨1, 0, 0, 0, 0, 5⟩

/-- `f5g.rs` L56-59 `to_be`. -/
def toBe (a : F5G) : Option F := if a.dim = 1 then some a.c0 else none

/-- `f5g.rs` L62-68 `as_elements`. -/
def asElements (a : F5G) : List F := [a.c0, a.c1, a.c2, a.c3, a.c4].take a.dim

/-- `f5g.rs` L71-79 `mul_scalar`. -/
def mulScalar (a : F5G) (b : F) : Option F5G :=
  if a.dim = 1 then some (ofF (a.c0 * b))
  else match asElements a with
    | [x, y, z, u, v] => some (new (x * b) (y * b) (z * b) (u * b) (v * b))
    | _ => none

/-- `f5g.rs` L82-98 `_eq`. -/
def eq' (a b : F5G) : Bool :=
  if a.dim = b.dim then decide (a.c0 = b.c0 ∧ a.c1 = b.c1 ∧ a.c2 = b.c2 ∧ a.c3 = b.c3 ∧ a.c4 = b.c4)
  else if a.dim = 1 then decide (a.c0 = b.c0 ∧ b.c1 = 0 ∧ b.c2 = 0 ∧ b.c3 = 0 ∧ b.c4 = 0)
  else decide (a.c0 = b.c0 ∧ a.c1 = 0 ∧ a.c2 = 0 ∧ a.c3 = 0 ∧ a.c4 = 0)

/-- The base-field `>` (C06). -/
def fgt (x y : F) : Bool := decide (y.val < x.val)

/-- `f5g.rs` L101-130 `gt`. Note the first disjunct, which also demands the other coefficients equal. -/
def gt (a b : F5G) : Option Bool :=
  if a.dim ≠ b.dim then none
  else if a.dim = 5 then
    some ((fgt a.c0 b.c0 && decide (a.c1 = b.c1) && decide (a.c2 = b.c2) && decide (a.c3 = b.c3) && decide (a.c4 = b.c4))
      || (decide (a.c0 = b.c0) && fgt a.c1 b.c1)
      || (decide (a.c0 = b.c0) && decide (a.c1 = b.c1) && fgt a.c2 b.c2)
      || (decide (a.c0 = b.c0) && decide (a.c1 = b.c1) && decide (a.c2 = b.c2) && fgt a.c3 b.c3)
      || (decide (a.c0 = b.c0) && decide (a.c1 = b.c1) && decide (a.c2 = b.c2) && decide (a.c3 = b.c3) && fgt a.c4 b.c4))
  else if a.dim = 1 then some (fgt a.c0 b.c0)
  else none

/-- `f5g.rs` L133-135 `geq`. -/
def geq (a b : F5G) : Option Bool := if eq' a b then some true else gt a b

/-- `f5g.rs` L138-140 `lt`: `!self.gt(rhs) || self.lt(rhs)`, i.e. it calls itself. `fuel` bounds the depth of
the recursion; the outer `none` is "did not return within `fuel` calls", the inner one a panic. -/
def lt : Nat → F5G → F5G → Option (Option Bool)
  | 0, _, _ => none
  | fuel + 1, a, b =>
    match gt a b with
    | none => some none
    | some false => some (some true)
    | some true => lt fuel a b

/-- `f5g.rs` L143-145 `leq`. -/
def leq (a b : F5G) : Option Bool := (gt a b).map not

/-- `f5g.rs` L226-231 `is_zero`. -/
def isZero (a : F5G) : Bool := if a.dim = 1 then eq' a ZERO else eq' a ZEROS

/-- `f5g.rs` L321-356 `Add::add`. -/
def add (a b : F5G) : Option F5G :=
  if a.dim = 5 then
    if b.dim = 5 then some ⟨a.c0 + b.c0, a.c1 + b.c1, a.c2 + b.c2, a.c3 + b.c3, a.c4 + b.c4, 5⟩
    else (toBe b).map fun s => new (a.c0 + s) a.c1 a.c2 a.c3 a.c4
  else if a.dim = 1 then
    if b.dim = 1 then some (ofF (a.c0 + b.c0))
    else match asElements b with
      | [x, y, z, u, v] => some (new (x + a.c0) y z u v)
      | _ => none
  else none

/-- `f5g.rs` L365-402 `Sub::sub`. -/
def sub (a b : F5G) : Option F5G :=
  if a.dim = 5 then
    if b.dim = 5 then some ⟨a.c0 - b.c0, a.c1 - b.c1, a.c2 - b.c2, a.c3 - b.c3, a.c4 - b.c4, 5⟩
    else if b.dim = 1 then some (new (a.c0 - b.c0) a.c1 a.c2 a.c3 a.c4)
    else none
  else if a.dim = 1 then
    if b.dim = 1 then some (ofF (a.c0 - b.c0))
    else match asElements b with
      | [x, y, z, u, v] => some (new (a.c0 - x) (-y) (-z) (-u) (-v))
      | _ => none
  else none

/-- `f5g.rs` L421-441: schoolbook product of two five-coefficient values. -/
def mul55 (a b : F5G) : F5G :=
  let d0 := a.c0 * b.c0 + 3 * (a.c1 * b.c4 + a.c2 * b.c3 + a.c3 * b.c2 + a.c4 * b.c1)
  let d1 := a.c0 * b.c1 + a.c1 * b.c0 + 3 * (a.c2 * b.c4 + a.c3 * b.c3 + a.c4 * b.c2)
  let d2 := a.c0 * b.c2 + a.c1 * b.c1 + a.c2 * b.c0 + 3 * (a.c3 * b.c4 + a.c4 * b.c3)
  let d3 := a.c0 * b.c3 + a.c1 * b.c2 + a.c2 * b.c1 + a.c3 * b.c0 + 3 * (a.c4 * b.c4)
  let d4 := a.c0 * b.c4 + a.c1 * b.c3 + a.c2 * b.c2 + a.c3 * b.c1 + a.c4 * b.c0
  ⟨d0, d1, d2, d3, d4, 5⟩

/-- `f5g.rs` L411-463 `Mul::mul`. -/
def mul (a b : F5G) : Option F5G :=
  if a.dim = 5 then
    if b.dim = 1 then some (new (b.c0 * a.c0) (b.c0 * a.c1) (b.c0 * a.c2) (b.c0 * a.c3) (b.c0 * a.c4))
    else if b.dim = 5 then some (mul55 a b)
    else none
  else if a.dim = 1 then
    if b.dim = 1 then some (ofF (a.c0 * b.c0))
    else if b.dim = 5 then some (new (a.c0 * b.c0) (a.c0 * b.c1) (a.c0 * b.c2) (a.c0 * b.c3) (a.c0 * b.c4))
    else none
  else none

/-- `f5g.rs` L234-266 `square`. -/
def square (a : F5G) : Option F5G :=
  if a.dim = 5 then
    let d0 := a.c0 * a.c0 + 3 * (a.c1 * a.c4 + a.c2 * a.c3 + a.c3 * a.c2 + a.c4 * a.c1)
    let d1 := a.c0 * a.c1 + a.c1 * a.c0 + 3 * (a.c2 * a.c4 + a.c3 * a.c3 + a.c4 * a.c2)
    let d2 := a.c0 * a.c2 + a.c1 * a.c1 + a.c2 * a.c0 + 3 * (a.c3 * a.c4 + a.c4 * a.c3)
    let d3 := a.c0 * a.c3 + a.c1 * a.c2 + a.c2 * a.c1 + a.c3 * a.c0 + 3 * (a.c4 * a.c4)
    let d4 := a.c0 * a.c4 + a.c1 * a.c3 + a.c2 * a.c2 + a.c3 * a.c1 + a.c4 * a.c0
    some ⟨d0, d1, d2, d3, d4, 5⟩
  else if a.dim = 1 then some ⟨a.c0 * a.c0, 0, 0, 0, 0, 1⟩
  else none

/-- `f5g.rs` L489-503 `Neg::neg`: the vector case is guarded by `dim == 3`, which no `F5G` value has. -/
def neg (a : F5G) : Option F5G :=
  if a.dim = 3 then some ⟨-a.c0, -a.c1, -a.c2, -a.c3, -a.c4, 3⟩
  else if a.dim = 1 then some (ofF (-a.c0))
  else none

/-- `f5g.rs` L580-594 `frob1` (its `assert_eq!(dim, 5)` is discharged by the only caller `inv5`). -/
def frob1 (a : F5G) : F5G :=
  ⟨a.c0, a.c1 * 1041288259238279555, a.c2 * 15820824984080659046, a.c3 * 211587555138949697,
    a.c4 * 1373043270956696022, 5⟩

/-- `f5g.rs` L598-607 `frob2`. -/
def frob2 (a : F5G) : F5G :=
  ⟨a.c0, a.c1 * 15820824984080659046, a.c2 * 1373043270956696022, a.c3 * 1041288259238279555,
    a.c4 * 211587555138949697, 5⟩

/-- `f5g.rs` L612-670 `_inv` (Itoh-Tsujii), called with `dim == 5` only. -/
def inv5 (a : F5G) : Option F5G :=
  let t0 := frob1 a
  (mul t0 (frob1 t0)).bind fun t1 =>
  (mul t1 (frob2 t1)).bind fun t2 =>
  let t3 := a.c0 * t2.c0 + 3 * (a.c1 * t2.c4 + a.c2 * t2.c3 + a.c3 * t2.c2 + a.c4 * t2.c1)
  let t3 := if t3 = 0 then 1 else t3
  mul t2 (ofF t3⁻¹)

/-- `f5g.rs` L180-188 `inv`. -/
def inv (a : F5G) : Option F5G :=
  if a.dim = 5 then inv5 a
  else if a.dim = 1 then some (ofF a.c0⁻¹)
  else none

/-- `f5g.rs` L472-479 `Div::div`. -/
def div (a b : F5G) : Option F5G := (inv b).bind fun i => mul a i

/-- `f5g.rs` L166-174: one iteration of the square-and-multiply loop. -/
def expStep (x : F5G) (res : Option F5G) (bit : Bool) : Option F5G :=
  (res.bind square).bind fun r => if bit then mul r x else some r

/-- `f5g.rs` L148-177 `exp` (the bit loop L154-161 is textually that of `f3g.rs`, `Ext3.bitsLE`). -/
def exp (x : F5G) (e : Nat) : Option F5G :=
  if e = 0 then some ONE
  else (Ext3.bitsLE e).dropLast.reverse.foldl (expStep x) (some x)

/-- Values the API constructs: dimension 1 with zero upper coefficients, or dimension 5. -/
def WF (a : F5G) : Prop := a.dim = 5 ∨ (a.dim = 1 ∧ a.c1 = 0 ∧ a.c2 = 0 ∧ a.c3 = 0 ∧ a.c4 = 0)

instance (a : F5G) : Decidable (WF a) := by unfold WF; infer_instance

end Verif.Ext5
