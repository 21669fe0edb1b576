import Verif.Io.Text
import Verif.Io.Witness
import Verif.F5G.Model

/-! # Digests, scalars and their text (C54): `starky/src/digest.rs`, first part of `starky/src/serializer.rs`

A JSON value of these encodings is a string or an array of strings (`Js`); the JSON syntax itself (`serde_json`) is not modelled.
`FGL` elements are values of `F = ZMod p` (C01-C06), `as_int` is `ZMod.val`, `FGL::from(u64)` is the cast. -/

namespace Verif.Io.Digest

open Verif.GL (F MODULUS)
open Verif.Io.Text
open Verif.Ext3 (F3G)
open Verif.Ext5 (F5G)

/-- a JSON string, or an array of values -/
inductive Js where
  | str (s : List Char)
  | arr (l : List Js)

/-- digest.rs L19-20 `ElementDigest<4, _>`: four Goldilocks elements. -/
@[ext] structure Dig where
  d0 : F
  d1 : F
  d2 : F
  d3 : F
deriving DecidableEq

/-- the 64-bit limb number `i` of a raw representation -/
def limb (v i : Nat) : Nat := v / 2 ^ (64 * i) % 2 ^ 64

/-- digest.rs L46-54 `from_scalar`: the four limbs of the raw (Montgomery) representation `v`, each converted with `FGL::from(u64)`. -/
def fromScalar (v : Nat) : Dig := ⟨(limb v 0 : F), (limb v 1 : F), (limb v 2 : F), (limb v 3 : F)⟩

/-- digest.rs L57-65 `as_scalar`: the raw representation with these limbs. -/
def asScalar (d : Dig) : Nat := d.d0.val + d.d1.val * 2 ^ 64 + d.d2.val * 2 ^ 128 + d.d3.val * 2 ^ 192

/-- digest.rs L24-27 `is_dim_1` -/
def isDim1 (d : Dig) : Bool := decide (d.d1 = d.d2 ∧ d.d1 = d.d3 ∧ d.d1 = 0)

/-- `Fr(repr)` then helper.rs L52-58 `fr_to_biguint`: the integer whose Montgomery representation mod `r` is the raw value `v`
(`into_repr` of `ff`: Montgomery reduction, always canonical). -/
def frToNat (r v : Nat) : Nat := ((v : ZMod r) * ((2 ^ 256 : Nat) : ZMod r)⁻¹).val

/-- the raw representation of a scalar: `x · 2^256 mod r` (`into_raw_repr` of `ff`) -/
def rawOf (r : Nat) (x : ZMod r) : Nat := (x * ((2 ^ 256 : Nat) : ZMod r)).val

/-- digest.rs L83-113 `serialize` for a BN128 / BLS12-381 tree (`r` the scalar modulus). -/
def serScalar (r : Nat) (d : Dig) : Js := .str (dec (frToNat r (asScalar d)))

/-- digest.rs L83-113 `serialize` for the Goldilocks tree: one string if the last three elements are zero, four strings otherwise. -/
def serGL (d : Dig) : Js :=
  if isDim1 d then .str (dec d.d0.val) else .arr [.str (dec d.d0.val), .str (dec d.d1.val), .str (dec d.d2.val), .str (dec d.d3.val)]

/-- `next_element::<String>` then `parse::<u64>().unwrap()` then `FGL::from` (digest.rs L134-137, serializer.rs L60-63); an entry that is not a string is an error. -/
def entry : Js → Option F
  | .str s => (parseU64 s).map fun v : Nat => (v : F)
  | .arr _ => none

/-- digest.rs L31-36 `new`: panics on fewer than four values. -/
def newDig : List F → Option Dig
  | a :: b :: c :: d :: _ => some ⟨a, b, c, d⟩
  | _ => none

/-- digest.rs L115-162 `deserialize` for the Goldilocks tree. -/
def deGL : Js → Option Dig
  | .str s => (fieldFromStr MODULUS s).map fun v => ⟨v, 0, 0, 0⟩
  | .arr l => (l.mapM entry).bind newDig

/-- digest.rs L115-162 `deserialize` for a tree over the scalar field mod `r`. -/
def deScalar (r : Nat) : Js → Option Dig
  | .str s => (fieldFromStr r s).map fun t => fromScalar (rawOf r t)
  | .arr l => (l.mapM entry).bind newDig

/-- serializer.rs L20-39 `Serialize for F3G`; other dimensions panic. -/
def serF3 (a : F3G) : Option Js :=
  if a.dim = 1 then some (.str (dec a.c0.val))
  else if a.dim = 3 then some (.arr [.str (dec a.c0.val), .str (dec a.c1.val), .str (dec a.c2.val)]) else none

/-- serializer.rs L41-80 `Deserialize for F3G` -/
def deF3 : Js → Option F3G
  | .str s => (parseU64 s).map fun v : Nat => Ext3.ofF (v : F)
  | .arr l => (l.mapM entry).bind Ext3.fromVec

/-- f5g.rs L50-53 `from_vec` -/
def fromVec5 : List F → Option F5G
  | [a, b, c, d, e] => some ⟨a, b, c, d, e, 5⟩
  | _ => none

/-- serializer.rs L82-101 `Serialize for F5G` -/
def serF5 (a : F5G) : Option Js :=
  if a.dim = 1 then some (.str (dec a.c0.val))
  else if a.dim = 5 then some (.arr [.str (dec a.c0.val), .str (dec a.c1.val), .str (dec a.c2.val), .str (dec a.c3.val), .str (dec a.c4.val)]) else none

/-- serializer.rs L103-134 `Deserialize for F5G` -/
def deF5 : Js → Option F5G
  | .str s => (parseU64 s).map fun v : Nat => Ext5.ofF (v : F)
  | .arr l => (l.mapM entry).bind fromVec5

/-- digest.rs L165-178 `to_bn128` (and L180-193 `to_bls12381`): the four integers as one 256-bit little-endian number, which must be below the modulus (`from_repr` fails otherwise). -/
def toScalar (r : Nat) (d : Dig) : Option (ZMod r) := if asScalar d < r then some (asScalar d : ZMod r) else none

/-! ## Proofs -/

theorem val_lt (x : F) : x.val < MODULUS := ZMod.val_lt x

theorem val_lt64 (x : F) : x.val < 2 ^ 64 := lt_trans (val_lt x) (by decide)

theorem entry_dec (x : F) : entry (.str (dec x.val)) = some x := by
  rw [entry, parseU64_dec _ (val_lt64 x), Option.map_some, ZMod.natCast_val, ZMod.cast_id]

/-- **C54**: a Goldilocks digest is recovered from its text. -/
theorem deGL_serGL (d : Dig) : deGL (serGL d) = some d := by
  unfold serGL
  split
  · rename_i h
    rw [isDim1, decide_eq_true_eq] at h
    rw [deGL, fieldFromStr_dec, Option.map_some, ZMod.natCast_val, ZMod.cast_id]
    congr 1
    ext <;> dsimp only
    · exact h.2.2.symm
    · exact (h.1 ▸ h.2.2.symm)
    · exact (h.2.1 ▸ h.2.2.symm)
  · rw [deGL]
    simp only [List.mapM_cons, List.mapM_nil, entry_dec]
    rfl

/-- **C54**: an element of the cubic extension (base field elements having zero upper coefficients) is recovered from its text. -/
theorem deF3_serF3 (a : F3G) (h : a.dim = 3 ∨ (a.dim = 1 ∧ a.c1 = 0 ∧ a.c2 = 0)) : (serF3 a).bind deF3 = some a := by
  unfold serF3
  rcases h with h | ⟨h, h1, h2⟩
  · rw [if_neg (by omega), if_pos h, Option.bind_some, deF3]
    simp only [List.mapM_cons, List.mapM_nil, entry_dec]
    show some _ = some a
    congr 1
    cases a; simp_all
  · rw [if_pos h, Option.bind_some, deF3, parseU64_dec _ (val_lt64 _), Option.map_some, ZMod.natCast_val, ZMod.cast_id]
    cases a; simp_all [Ext3.ofF]

/-- **C54** for the quintic extension -/
theorem deF5_serF5 (a : F5G) (h : a.dim = 5 ∨ (a.dim = 1 ∧ a.c1 = 0 ∧ a.c2 = 0 ∧ a.c3 = 0 ∧ a.c4 = 0)) : (serF5 a).bind deF5 = some a := by
  unfold serF5
  rcases h with h | ⟨h, h1, h2, h3, h4⟩
  · rw [if_neg (by omega), if_pos h, Option.bind_some, deF5]
    simp only [List.mapM_cons, List.mapM_nil, entry_dec]
    show some _ = some a
    congr 1
    cases a; simp_all
  · rw [if_pos h, Option.bind_some, deF5, parseU64_dec _ (val_lt64 _), Option.map_some, ZMod.natCast_val, ZMod.cast_id]
    cases a; simp_all [Ext5.ofF]

theorem limb_lt (v i : Nat) : limb v i < 2 ^ 64 := Nat.mod_lt _ (by norm_num)

theorem limbs_sum (v : Nat) (h : v < 2 ^ 256) : v = limb v 0 + limb v 1 * 2 ^ 64 + limb v 2 * 2 ^ 128 + limb v 3 * 2 ^ 192 := by
  unfold limb
  norm_num at h ⊢
  omega

theorem limb_sum (a b c d : Nat) (ha : a < 2 ^ 64) (hb : b < 2 ^ 64) (hc : c < 2 ^ 64) (hd : d < 2 ^ 64) :
    let v := a + b * 2 ^ 64 + c * 2 ^ 128 + d * 2 ^ 192
    limb v 0 = a ∧ limb v 1 = b ∧ limb v 2 = c ∧ limb v 3 = d := by
  unfold limb
  norm_num at *
  omega

theorem asScalar_lt (d : Dig) : asScalar d < 2 ^ 256 := by
  have h0 := val_lt64 d.d0
  have h1 := val_lt64 d.d1
  have h2 := val_lt64 d.d2
  have h3 := val_lt64 d.d3
  unfold asScalar
  norm_num at *
  omega

/-- **C54**: a digest is recovered from the (raw) scalar made of its limbs. -/
theorem fromScalar_asScalar (d : Dig) : fromScalar (asScalar d) = d := by
  obtain ⟨h0, h1, h2, h3⟩ := limb_sum _ _ _ _ (val_lt64 d.d0) (val_lt64 d.d1) (val_lt64 d.d2) (val_lt64 d.d3)
  unfold fromScalar asScalar
  rw [h0, h1, h2, h3]
  simp only [ZMod.natCast_val, ZMod.cast_id', id]

theorem cast_val_iff (x : Nat) : ((x : F)).val = x ↔ x < MODULUS := by
  rw [ZMod.val_natCast]
  constructor
  · intro h; rw [← h]; exact Nat.mod_lt _ (by decide)
  · exact Nat.mod_eq_of_lt

/-- **C54 (partial)**: a raw scalar is recovered from its digest exactly when its four limbs are below the Goldilocks modulus.
Missing: scalars with a larger limb, for which the claim is false (`fromScalar_collision`). -/
theorem asScalar_fromScalar_partial (v : Nat) (h : v < 2 ^ 256) : asScalar (fromScalar v) = v ↔ ∀ i < 4, limb v i < MODULUS := by
  have hall : (∀ i < 4, limb v i < MODULUS) ↔ limb v 0 < MODULUS ∧ limb v 1 < MODULUS ∧ limb v 2 < MODULUS ∧ limb v 3 < MODULUS := by
    constructor
    · intro h; exact ⟨h 0 (by norm_num), h 1 (by norm_num), h 2 (by norm_num), h 3 (by norm_num)⟩
    · rintro ⟨h0, h1, h2, h3⟩ i hi
      interval_cases i <;> assumption
  rw [hall]
  simp only [← cast_val_iff]
  constructor
  · intro he
    have hs := limb_sum _ _ _ _ (val_lt64 (limb v 0 : F)) (val_lt64 (limb v 1 : F)) (val_lt64 (limb v 2 : F)) (val_lt64 (limb v 3 : F))
    have he' : ((limb v 0 : F)).val + ((limb v 1 : F)).val * 2 ^ 64 + ((limb v 2 : F)).val * 2 ^ 128 + ((limb v 3 : F)).val * 2 ^ 192 = v := he
    dsimp only at hs
    rw [he'] at hs
    exact ⟨hs.1.symm, hs.2.1.symm, hs.2.2.1.symm, hs.2.2.2.symm⟩
  · rintro ⟨h0, h1, h2, h3⟩
    unfold asScalar fromScalar
    dsimp only
    rw [h0, h1, h2, h3]
    exact (limbs_sum v h).symm

/-- **C54 violated**: two different scalars of the BN128 field have the same digest (raw limbs `0` and `p`), so the conversion to a digest loses information. -/
theorem fromScalar_collision : ∃ x y : ZMod rBN, x ≠ y ∧ fromScalar (rawOf rBN x) = fromScalar (rawOf rBN y) := by
  have hR : ((2 ^ 256 : Nat) : ZMod rBN) * ((2 ^ 256 : Nat) : ZMod rBN)⁻¹ = 1 := ZMod.coe_mul_inv_eq_one _ (by
    show Nat.gcd _ _ = 1
    decide +kernel)
  refine ⟨0, (MODULUS : ZMod rBN) * ((2 ^ 256 : Nat) : ZMod rBN)⁻¹, ?_, ?_⟩
  · intro h
    have h2 := congrArg (· * ((2 ^ 256 : Nat) : ZMod rBN)) h
    rw [zero_mul, mul_assoc, mul_comm _ ((2 ^ 256 : Nat) : ZMod rBN), hR, mul_one] at h2
    have := (ZMod.natCast_eq_zero_iff _ _).mp h2.symm
    revert this
    decide +kernel
  · have e : rawOf rBN ((MODULUS : ZMod rBN) * ((2 ^ 256 : Nat) : ZMod rBN)⁻¹) = MODULUS := by
      rw [rawOf, mul_assoc, mul_comm _ ((2 ^ 256 : Nat) : ZMod rBN), hR, mul_one, ZMod.val_natCast]
      decide +kernel
    have e0 : rawOf rBN 0 = 0 := by rw [rawOf, zero_mul, ZMod.val_zero]
    rw [e, e0]
    decide +kernel

/-- the text of a scalar digest is the text of the scalar whose raw representation it holds, so reading it back reduces it mod `r` -/
theorem deScalar_serScalar (r : Nat) [NeZero r] (hr : Nat.Coprime (2 ^ 256) r) (d : Dig) : deScalar r (serScalar r d) = some (fromScalar (asScalar d % r)) := by
  have hR : ((2 ^ 256 : Nat) : ZMod r) * ((2 ^ 256 : Nat) : ZMod r)⁻¹ = 1 := ZMod.coe_mul_inv_eq_one _ hr
  rw [serScalar, deScalar, fieldFromStr_dec, Option.map_some]
  congr 2
  rw [rawOf, frToNat, ZMod.natCast_val, ZMod.cast_id, mul_assoc, mul_comm _ ((2 ^ 256 : Nat) : ZMod r), hR, mul_one, ZMod.val_natCast]

/-- **C54 (partial)**: a digest whose raw scalar is below the modulus is recovered from its text. Missing: digests holding larger raw
values, which are not recovered (`deScalar_ne`). -/
theorem deScalar_serScalar_partial (r : Nat) [NeZero r] (hr : Nat.Coprime (2 ^ 256) r) (d : Dig) (h : asScalar d < r) :
    deScalar r (serScalar r d) = some d := by
  rw [deScalar_serScalar r hr, Nat.mod_eq_of_lt h, fromScalar_asScalar]

/-- **C54 violated** for text: the digest of four Goldilocks elements `p - 1` does not survive serialisation in a BN128 tree. -/
theorem deScalar_ne : ∃ d : Dig, deScalar rBN (serScalar rBN d) ≠ some d := by
  have : NeZero rBN := ⟨by decide⟩
  refine ⟨⟨-1, -1, -1, -1⟩, ?_⟩
  rw [deScalar_serScalar rBN (by show Nat.gcd _ _ = 1; decide +kernel)]
  decide +kernel

/-- the conversion to a scalar by value agrees with the digest: it is defined iff the value is below the modulus and then has this value -/
theorem toScalar_spec (r : Nat) (d : Dig) : (∀ x, toScalar r d = some x → x.val = asScalar d) ∧ ((toScalar r d).isSome ↔ asScalar d < r) := by
  unfold toScalar
  split
  · rename_i h
    refine ⟨fun x hx => ?_, by simp [h]⟩
    rw [← Option.some.inj hx, ZMod.val_natCast, Nat.mod_eq_of_lt h]
  · rename_i h
    exact ⟨fun x hx => absurd hx (by simp), by simp [h]⟩

/-- a scalar with small limbs, a one-element digest and a general digest -/
example : (∀ i < 4, limb (3 + 5 * 2 ^ 64 + 2 ^ 192) i < MODULUS) ∧ deGL (serGL ⟨7, 0, 0, 0⟩) = some ⟨7, 0, 0, 0⟩ ∧ asScalar ⟨1, 2, 3, 4⟩ < rBN := by
  refine ⟨by decide +kernel, deGL_serGL _, by decide +kernel⟩

end Verif.Io.Digest
