import Verif.GL.Lemmas2

/-!
# Model of the cubic extension `F3G` (`/repo/starky/src/f3g.rs`)

Base-field elements are values of `F = ZMod MODULUS`; the refinement of the Montgomery limbs to `F` is
proved in `Verif.GL` (C01-C06). A panic (`assert_eq!`, `panic!`, out-of-range index) is `none`.
-/
namespace Verif.Ext3
open Verif.GL (F MODULUS)

/-- `f3g.rs` L15-18: `struct F3G { cube: [Fr;3], dim: usize }`. `PartialEq` is derived (L14), hence
structural equality is `==` of the code. -/
@[ext] structure F3G where
  c0 : F
  c1 : F
  c2 : F
  dim : Nat
deriving DecidableEq

/-- `f3g.rs` L31-33 `new`. -/
def new (a b c : F) : F3G := ⟨a, b, c, 3⟩

/-- `f3g.rs` L489-494 `From<Fr>`. -/
def ofF (v : F) : F3G := ⟨v, 0, 0, 1⟩

/-- `f3g.rs` L52 `ZERO`. -/
def ZERO : F3G := ⟨0, 0, 0, 1⟩
/-- `f3g.rs` L53 `ONE`. -/
def ONE : F3G := ⟨1, 0, 0, 1⟩
/-- `f3g.rs` L55 `ZEROS` (also `Field::zero`, L245). -/
def ZEROS : F3G := ⟨0, 0, 0, 3⟩
/-- `f3g.rs` L56 `ONES` (also `Field::one`, L250). -/
def ONES : F3G := ⟨1, 0, 0, 3⟩

/-- `f3g.rs` L63-66 `from_vec`: asserts three values. -/
def fromVec : List F → Option F3G
  | [a, b, c] => some ⟨a, b, c, 3⟩
  | _ => none

/-- `f3g.rs` L69-72 `to_be`: asserts `dim == 1`. -/
def toBe (a : F3G) : Option F := if a.dim = 1 then some a.c0 else none

/-- `f3g.rs` L75-81 `as_elements`: the first `dim` coefficients (a dimension above 3 would read out of
bounds in the code; it is never constructed). -/
def asElements (a : F3G) : List F := [a.c0, a.c1, a.c2].take a.dim

/-- `f3g.rs` L84-92 `mul_scalar`, `b` already converted by `Fr::from(b as u64)`; indexing
`elems[1]`, `elems[2]` panics if fewer elements. -/
def mulScalar (a : F3G) (b : F) : Option F3G :=
  if a.dim = 1 then some (ofF (a.c0 * b))
  else match asElements a with
    | [x, y, z] => some (new (x * b) (y * b) (z * b))
    | _ => none

/-- `f3g.rs` L95-103 `_eq`. -/
def eq' (a b : F3G) : Bool :=
  if a.dim = b.dim then decide (a.c0 = b.c0 ∧ a.c1 = b.c1 ∧ a.c2 = b.c2)
  else if a.dim = 1 then decide (a.c0 = b.c0 ∧ b.c1 = 0 ∧ b.c2 = 0)
  else decide (a.c0 = b.c0 ∧ a.c1 = 0 ∧ a.c2 = 0)

/-- The base-field `>` (C06: the order of the canonical integers). -/
def fgt (x y : F) : Bool := decide (y.val < x.val)

/-- `f3g.rs` L106-121 `gt`. -/
def gt (a b : F3G) : Option Bool :=
  if a.dim ≠ b.dim then none
  else if a.dim = 3 then
    some (fgt a.c0 b.c0 || (decide (a.c0 = b.c0) && fgt a.c1 b.c1)
      || (decide (a.c0 = b.c0) && decide (a.c1 = b.c1) && fgt a.c2 b.c2))
  else if a.dim = 1 then some (fgt a.c0 b.c0)
  else none

/-- `f3g.rs` L124-126 `geq` (short-circuit `||`). -/
def geq (a b : F3G) : Option Bool := if eq' a b then some true else gt a b

/-- `f3g.rs` L129-131 `lt`. -/
def lt (a b : F3G) : Option Bool := (geq a b).map not

/-- `f3g.rs` L134-136 `leq`. -/
def leq (a b : F3G) : Option Bool := (gt a b).map not

/-- `f3g.rs` L255-260 `is_zero`. -/
def isZero (a : F3G) : Bool := if a.dim = 1 then eq' a ZERO else eq' a ZEROS

/-- `f3g.rs` L323-356 `Add::add`. -/
def add (a b : F3G) : Option F3G :=
  if a.dim = 3 then
    if b.dim = 3 then some ⟨a.c0 + b.c0, a.c1 + b.c1, a.c2 + b.c2, 3⟩
    else (toBe b).map fun s => new (a.c0 + s) a.c1 a.c2
  else if a.dim = 1 then
    if b.dim = 1 then some (ofF (a.c0 + b.c0))
    else match asElements b with
      | [x, y, z] => some (new (x + a.c0) y z)
      | _ => none
  else none

/-- `f3g.rs` L365-398 `Sub::sub`. -/
def sub (a b : F3G) : Option F3G :=
  if a.dim = 3 then
    if b.dim = 3 then some ⟨a.c0 - b.c0, a.c1 - b.c1, a.c2 - b.c2, 3⟩
    else (toBe b).map fun s => new (a.c0 - s) a.c1 a.c2
  else if a.dim = 1 then
    if b.dim = 1 then some (ofF (a.c0 - b.c0))
    else match asElements b with
      | [x, y, z] => some (new (a.c0 - x) (-y) (-z))
      | _ => none
  else none

/-- `f3g.rs` L417-433: the Karatsuba product of two three-coefficient values. -/
def mul33 (a b : F3G) : F3G :=
  let aa := (a.c0 + a.c1) * (b.c0 + b.c1)
  let bb := (a.c0 + a.c2) * (b.c0 + b.c2)
  let cc := (a.c1 + a.c2) * (b.c1 + b.c2)
  let dd := a.c0 * b.c0
  let ee := a.c1 * b.c1
  let ff := a.c2 * b.c2
  let gg := dd - ee
  ⟨cc + gg - ff, aa + cc - ee - ee - dd, bb - gg, 3⟩

/-- `f3g.rs` L407-449 `Mul::mul`. With `self.dim = 3` every `rhs.dim ≠ 1` takes the 3×3 branch. -/
def mul (a b : F3G) : Option F3G :=
  if a.dim = 3 then
    if b.dim = 1 then some (new (b.c0 * a.c0) (b.c0 * a.c1) (b.c0 * a.c2))
    else some (mul33 a b)
  else if a.dim = 1 then
    if b.dim = 1 then some (ofF (a.c0 * b.c0))
    else match asElements b with
      | [x, y, z] => some (new (a.c0 * x) (a.c0 * y) (a.c0 * z))
      | _ => none
  else none

/-- `f3g.rs` L263-285 `square`. -/
def square (a : F3G) : Option F3G :=
  if a.dim = 3 then
    let aa := (a.c0 + a.c1) * (a.c0 + a.c1)
    let bb := (a.c0 + a.c2) * (a.c0 + a.c2)
    let cc := (a.c1 + a.c2) * (a.c1 + a.c2)
    let dd := a.c0 * a.c0
    let ee := a.c1 * a.c1
    let ff := a.c2 * a.c2
    let gg := dd - ee
    some ⟨cc + gg - ff, aa + cc - ee - ee - dd, bb - gg, 3⟩
  else if a.dim = 1 then some ⟨a.c0 * a.c0, 0, 0, 1⟩
  else none

/-- `f3g.rs` L288-290 `double`. -/
def double (a : F3G) : Option F3G := add a a

/-- `f3g.rs` L474-486 `Neg::neg` (and `negate`, L293-295). -/
def neg (a : F3G) : Option F3G :=
  if a.dim = 3 then some ⟨-a.c0, -a.c1, -a.c2, 3⟩
  else if a.dim = 1 then some (ofF (-a.c0))
  else none

/-- `f3g.rs` L207-234 `_inv`; `Fr::inverse().unwrap()` is the field inverse with `0 ↦ 0` (C03). -/
def inv3 (a : F3G) : F3G :=
  let aa := a.c0 * a.c0
  let ac := a.c0 * a.c2
  let ba := a.c1 * a.c0
  let bb := a.c1 * a.c1
  let bc := a.c1 * a.c2
  let cc := a.c2 * a.c2
  let aaa := aa * a.c0
  let aac := aa * a.c2
  let abc := ba * a.c2
  let abb := ba * a.c1
  let acc := ac * a.c2
  let bbb := bb * a.c1
  let bcc := bc * a.c2
  let ccc := cc * a.c2
  let t := -aaa - aac - aac + abc + abc + abc + abb - acc - bbb + bcc - ccc
  let tinv := t⁻¹
  ⟨(-aa - ac - ac + bc + bb - cc) * tinv, (ba - cc) * tinv, (-bb + ac + cc) * tinv, 3⟩

/-- `f3g.rs` L182-190 `inv` (and `Field::inverse`, L313-315, which wraps it in `Some`). -/
def inv (a : F3G) : Option F3G :=
  if a.dim = 3 then some (inv3 a)
  else if a.dim = 1 then some (ofF a.c0⁻¹)
  else none

/-- `f3g.rs` L458-465 `Div::div`. -/
def div (a b : F3G) : Option F3G := (inv b).bind fun i => mul a i

/-- `f3g.rs` L145-152: the `while e != 0` loop collecting the bits of `e`, least significant first. -/
def bitsLE (e : Nat) : List Bool :=
  if h : e = 0 then [] else (e % 2 == 1) :: bitsLE (e / 2)
termination_by e
decreasing_by omega

/-- `f3g.rs` L159-164: one iteration of the square-and-multiply loop. -/
def expStep (x : F3G) (res : Option F3G) (bit : Bool) : Option F3G :=
  (res.bind square).bind fun r => if bit then mul r x else some r

/-- `f3g.rs` L139-167 `exp`: the bits below the leading one, most significant first. -/
def exp (x : F3G) (e : Nat) : Option F3G :=
  if e = 0 then some ONE
  else (bitsLE e).dropLast.reverse.foldl (expStep x) (some x)

/-- `f3g.rs` L177-179 `as_int`: canonical integer of coefficient 0 (index panics when `dim = 0`). -/
def asInt (a : F3G) : Nat := a.c0.val

/-- Values that the API constructs: dimension 1 with zero upper coefficients, or dimension 3.
(`new`, `From<..>`, the constants and every operator return such values: `F3G.wf_closed`.) -/
def WF (a : F3G) : Prop := a.dim = 3 ∨ (a.dim = 1 ∧ a.c1 = 0 ∧ a.c2 = 0)

instance (a : F3G) : Decidable (WF a) := by unfold WF; infer_instance

end Verif.Ext3
