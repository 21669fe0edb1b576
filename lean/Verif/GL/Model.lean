/-!
# Limb-level model of the Goldilocks field: `/repo/fields/src/field_gl.rs`

An `FrRepr` is one 64-bit limb (`FrRepr(pub [u64; 1])`, l.28-29) and an `Fr` wraps an
`FrRepr` (l.9) holding the *Montgomery form* of the element with `R = 2^128 mod p`.
Both are modelled by the `Nat` value of the limb; all wrap-around of `u64` arithmetic is explicit.
`Limb x` says that `x` is a possible `u64` value, `Valid x` that `is_valid` (l.513) holds.
-/
namespace Verif.GL

/-- `2^64`, the modulus of `u64` arithmetic. -/
abbrev W : Nat := 18446744073709551616

/-- field_gl.rs l.12 `MODULUS`. -/
abbrev MODULUS : Nat := 18446744069414584321
/-- field_gl.rs l.16 `R` (the code's comment says `2^{limbs*64}`; it is `2^128 mod p`). -/
abbrev R : Nat := 18446744065119617025
/-- field_gl.rs l.18 `R2`. -/
abbrev R2 : Nat := 4294967295
/-- field_gl.rs l.20 `INV`. -/
abbrev INV : Nat := 18446744069414584319
/-- field_gl.rs l.23 `GENERATOR`. -/
abbrev GENERATOR : Nat := 18446744039349813249
/-- field_gl.rs l.25 `S`. -/
abbrev S : Nat := 32
/-- field_gl.rs l.27 `ROOT_OF_UNITY`. -/
abbrev ROOT_OF_UNITY : Nat := 959634606461954525

/-- External crate `ff_ce`, `adc(a, b, &mut carry)`: sum of the three, returned as (low limb, new carry). -/
def adc (a b carry : Nat) : Nat × Nat := ((a + b + carry) % W, (a + b + carry) / W)

/-- External crate `ff_ce`, `sbb(a, b, &mut borrow)` with incoming borrow 0:
`(1 << 64) + a - b`, low limb returned, borrow = 1 iff no high bit. -/
def sbb (a b : Nat) : Nat × Nat := ((W + a - b) % W, if (W + a - b) / W = 0 then 1 else 0)

/-- External crate `ff_ce`, `mac_with_carry(a, b, c, &mut carry)`: `a + b*c + carry`. -/
def mac (a b c carry : Nat) : Nat × Nat := ((a + b * c + carry) % W, (a + b * c + carry) / W)

/-- `u64::wrapping_mul`. -/
def wmul (a b : Nat) : Nat := (a * b) % W

/-- field_gl.rs l.513-515 `is_valid`. -/
def isValid (x : Nat) : Bool := decide (x < MODULUS)

/-- field_gl.rs l.244-253 `FrRepr::add_nocarry`. On a carry it adds `R2`; the `+=` there panics on
overflow in debug builds and wraps in release: modelled as wrapping, and `Props` shows
no overflow for valid operands. -/
def addNocarry (a b : Nat) : Nat :=
  let (lo, carry) := adc a b 0
  if carry > 0 then (lo + R2) % W else lo

/-- field_gl.rs l.255-260 `FrRepr::sub_noborrow`. -/
def subNoborrow (a b : Nat) : Nat := (sbb a b).1

/-- field_gl.rs l.519-523 `reduce`. -/
def reduce (x : Nat) : Nat := if !isValid x then subNoborrow x MODULUS else x

/-- field_gl.rs l.525-538 `mont_reduce(r0, r1)` (two rounds with a single-limb modulus). -/
def montReduce (r0 r1 : Nat) : Nat :=
  let k := wmul r0 INV
  let c1 := (mac r0 k MODULUS 0).2
  let m2 := mac r1 k 0 c1
  let r1 := m2.1
  let r2 := (adc 0 0 m2.2).1
  let k := wmul r1 INV
  let c3 := (mac r1 k MODULUS 0).2
  let r2 := (mac r2 k 0 c3).1
  reduce r2

/-- field_gl.rs l.385-388 `add_assign`. -/
def add (a b : Nat) : Nat := reduce (addNocarry a b)

/-- field_gl.rs l.196-207 `FrRepr::mul2`. -/
def mul2 (a : Nat) : Nat :=
  let last := a >>> 63
  let lo := ((a <<< 1) % W) ||| 0
  if last > 0 then (lo + R2) % W else lo

/-- field_gl.rs l.390-393 `double`. -/
def double (a : Nat) : Nat := reduce (mul2 a)

/-- field_gl.rs l.395-403 `sub_assign`. -/
def sub (a b : Nat) : Nat :=
  if b > a then addNocarry a (subNoborrow MODULUS b) else subNoborrow a b

/-- field_gl.rs l.405-411 `negate`. -/
def neg (a : Nat) : Nat := if a ≠ 0 then subNoborrow MODULUS a else a

/-- field_gl.rs l.454-458 `mul_assign`. -/
def mul (a b : Nat) : Nat :=
  let m := mac 0 a b 0
  montReduce m.1 m.2

/-- field_gl.rs l.460-462 `square`. -/
def square (a : Nat) : Nat := mul a a

/-- field_gl.rs l.373-375 `zero`. -/
def zero : Nat := 0
/-- field_gl.rs l.377-379 `one`. -/
def one : Nat := R
/-- field_gl.rs l.381-383 `is_zero` (l.159-161). -/
def isZero (a : Nat) : Bool := a == 0

/-- field_gl.rs l.325-336 `from_repr` (`Err(NotInField)` is `none`). -/
def fromRepr (r : Nat) : Option Nat := if isValid r then some (mul r R2) else none

/-- field_gl.rs l.337-347 `from_raw_repr`. -/
def fromRawRepr (r : Nat) : Option Nat := if isValid r then some r else none

/-- field_gl.rs l.348-352 `into_repr`. -/
def intoRepr (a : Nat) : Nat := montReduce a 0

/-- field_gl.rs l.353-356 `into_raw_repr`. -/
def intoRawRepr (a : Nat) : Nat := a

/-- field_gl.rs l.542-544 `as_int`. -/
def asInt (a : Nat) : Nat := intoRepr a

/-- field_gl.rs l.496-501 `From<u64> for Fr`: `from_repr(..).unwrap()`, a panic is `none`. -/
def fromU64 (v : Nat) : Option Nat := fromRepr v

/-- field_gl.rs l.503-507 `From<Fr> for u64`: the raw limb. -/
def toU64 (a : Nat) : Nat := a

/-- A loop `for _ in 0..n { x = f(x) }`. -/
def iter {α : Type} (f : α → α) : Nat → α → α
  | 0, x => x
  | n + 1, x => iter f n (f x)

/-- `N` squarings, the loop of l.649-651. -/
def sqn (n x : Nat) : Nat := iter square n x

/-- field_gl.rs l.647-653 `exp_acc::<N>(base, tail)`. -/
def expAcc (n base tail : Nat) : Nat := mul (sqn n base) tail

/-- field_gl.rs l.415-449 `inverse`. -/
def inverse (x : Nat) : Option Nat :=
  let sf := square x
  let sf := mul sf x
  let sf := square sf
  let t3 := mul sf x
  let t6 := expAcc 3 t3 t3
  let t12 := expAcc 6 t6 t6
  let t24 := expAcc 12 t12 t12
  let t30 := expAcc 6 t24 t6
  let t30 := square t30
  let t31 := mul t30 x
  let t63 := expAcc 32 t31 t31
  let t63 := square t63
  some (mul t63 x)

/-- field_gl.rs l.624-632 `Div`: `self * rhs.inverse().unwrap()`. -/
def div (a b : Nat) : Option Nat := (inverse b).map (mul a)

/-- One iteration of the loop l.470-477 of `exp` for bit `i` of `power`. -/
def expStep (x power : Nat) (r : Nat) (i : Nat) : Nat :=
  let r := square r
  let b := mul r x
  let mask := if (power >>> i) &&& 1 = 1 then W - 1 else 0
  r ^^^ (mask &&& (r ^^^ b))

/-- field_gl.rs l.467-479 `Fr::exp`: bits 63 down to 0. -/
def exp (x power : Nat) : Nat := ((List.range 64).reverse).foldl (expStep x power) one

/-- One iteration of the loop of `ff_ce`'s `pow` for one exponent bit; the state is the result
and `found_one`. Parametric in the element type and its operations. -/
def powStep {α : Type} (sq : α → α) (mulX : α → α) (s : α × Bool) (bit : Bool) : α × Bool :=
  let s' : α × Bool := if s.2 then (sq s.1, true) else (s.1, bit)
  (if bit then mulX s'.1 else s'.1, s'.2)

/-- Bits 63..0 of an exponent, most significant first (`ff::BitIterator` on one limb). -/
def bitsMsb (e : Nat) : List Bool := ((List.range 64).reverse).map fun i => (e >>> i) % 2 == 1

/-- External crate `ff_ce`, `Field::pow([e])`: most significant bit first square-and-multiply that
starts squaring after the first one bit (used by l.549, 564, 565). -/
def pow (x e : Nat) : Nat :=
  ((bitsMsb e).foldl (powStep square (fun r => mul r x)) (one, false)).1

/-- `ff::LegendreSymbol`. -/
inductive Legendre | zero | residue | nonResidue
  deriving DecidableEq, Repr

/-- field_gl.rs l.548-557 `legendre`. -/
def legendre (x : Nat) : Legendre :=
  let s := pow x 9223372034707292160
  if s = zero then .zero else if s = one then .residue else .nonResidue

/-- The inner `loop` l.572-578 of `sqrt` (with fuel; `none` = fuel exhausted), parametric in the
element type: `one` and the squaring function. -/
def sqrtInner {α : Type} [DecidableEq α] (one : α) (sq : α → α) : Nat → α → Nat → Option Nat
  | 0, _, _ => none
  | f + 1, t2i, i => if t2i = one then some i else sqrtInner one sq f (sq t2i) (i + 1)

/-- The outer `while` l.567-588 of `sqrt` (with fuel; `none` = fuel exhausted or the
subtraction `m - i - 1` underflows, which is a panic in debug builds). -/
def sqrtLoop {α : Type} [DecidableEq α] (one : α) (sq : α → α) (mul : α → α → α) :
    Nat → α → α → α → Nat → Option α
  | 0, _, _, _, _ => none
  | f + 1, c, r, t, m =>
    if t = one then some r else
      match sqrtInner one sq 64 (sq t) 1 with
      | none => none
      | some i =>
        if m < i + 1 then none else
          let c := iter sq (m - i - 1) c
          let r := mul r c
          let c := sq c
          let t := mul t c
          sqrtLoop one sq mul f c r t i

/-- The three `match` arms l.559-591 of `sqrt`; `loop` is the result of the residue arm. -/
def sqrtArms {α : Type} (l : Legendre) (x : α) (loop : Option α) : Option (Option α) :=
  match l with
  | .zero => some (some x)
  | .nonResidue => some none
  | .residue => loop.map some

/-- field_gl.rs l.558-592 `sqrt`.  Outer `Option`: `none` = does not terminate within the fuel /
panics; inner `Option`: the value returned. -/
def sqrt (x : Nat) : Option (Option Nat) :=
  sqrtArms (legendre x) x
    (sqrtLoop one square mul 64 ROOT_OF_UNITY (pow x 2147483648) (pow x 4294967295) S)

/-- field_gl.rs l.130-140 `Ord for FrRepr` (one limb). -/
def cmpRepr (a b : Nat) : Ordering := if a ≠ b then compare a b else .eq

/-- field_gl.rs l.285-290 `Ord for Fr`. -/
def cmp (a b : Nat) : Ordering := cmpRepr (intoRepr a) (intoRepr b)

/-- field_gl.rs l.151-153 `is_odd`. -/
def isOdd (a : Nat) : Bool := a &&& 1 == 1
/-- field_gl.rs l.155-157 `is_even`. -/
def isEven (a : Nat) : Bool := !isOdd a

/-- field_gl.rs l.186-194 `div2`. -/
def div2 (a : Nat) : Nat := (a >>> 1) ||| 0

/-- field_gl.rs l.163-184 `shr`. The `while n >= 64` loop swaps the limb with 0 (at most once as
`n < 128`). The intermediate `*i << (64-n)` only feeds the (absent) next limb. -/
def shr (a n : Nat) : Nat :=
  if n ≥ 64 * 2 then 0 else
    let (a, n) := if n ≥ 64 then (0, n - 64) else (a, n)
    if n > 0 then (a >>> n) ||| 0 else a

/-- field_gl.rs l.209-230 `shl`. -/
def shl (a n : Nat) : Nat :=
  if n ≥ 64 * 2 then 0 else
    let (a, n) := if n ≥ 64 then (0, n - 64) else (a, n)
    if n > 0 then ((a <<< n) % W) ||| 0 else a

/-- `u64::leading_zeros`. -/
def leadingZeros (a : Nat) : Nat := 64 - (if a = 0 then 0 else Nat.log2 a + 1)

/-- field_gl.rs l.232-242 `num_bits`. -/
def numBits (a : Nat) : Nat := 2 * 64 - leadingZeros a

/-- field_gl.rs l.8-9, 28-29: `Deserialize` is *derived* for `Fr` and `FrRepr`, so deserialising
accepts every `u64` as the raw limb, without `is_valid`. -/
def deserialize (limb : Nat) : Nat := limb

/-- field_gl.rs l.8-9, 28-29: derived `Serialize`: the raw limb. -/
def serialize (a : Nat) : Nat := a

/-- Field elements constructible through the safe arithmetic API of field_gl.rs (everything
except the derived `Deserialize` and the public tuple constructor). -/
inductive Elem : Nat → Prop
  | zero : Elem zero
  | one : Elem one
  | generator : Elem GENERATOR
  | root : Elem ROOT_OF_UNITY
  | fromRepr {r a} : fromRepr r = some a → r < W → Elem a
  | fromRawRepr {r a} : fromRawRepr r = some a → Elem a
  | add {a b} : Elem a → Elem b → Elem (add a b)
  | sub {a b} : Elem a → Elem b → Elem (sub a b)
  | neg {a} : Elem a → Elem (neg a)
  | double {a} : Elem a → Elem (double a)
  | mul {a b} : Elem a → Elem b → Elem (mul a b)
  | square {a} : Elem a → Elem (square a)
  | inverse {a b} : Elem a → inverse a = some b → Elem b
  | exp {a} (e : Nat) : Elem a → e < W → Elem (exp a e)
  | pow {a} (e : Nat) : Elem a → e < W → Elem (pow a e)
  | sqrt {a b} : Elem a → sqrt a = some (some b) → Elem b

end Verif.GL
