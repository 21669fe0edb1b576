import Verif.Io.Bytes
import Mathlib.Algebra.BigOperators.Group.List.Basic

/-!
# Witness files and limbs: model of algebraic/src/witness/witness_calculator.rs and algebraic/src/reader.rs L79-132

`u32` products are the wrapping ones of a release build (a debug build panics instead).
-/
namespace Verif.Io

/-! ### Limbs -/

/-- `from_array32`, algebraic/src/witness/witness_calculator.rs L26-33: most significant limb first -/
def fromArray32 (arr : List Nat) : Nat := arr.foldl (fun res val => res * 0x100000000 + val) 0

/-- the loop of `to_array32`, algebraic/src/witness/witness_calculator.rs L40-44: `c` limbs are left to fill, `acc` are those already written; `none` is the panic of
`c -= 1` at `c = 0`.  `rem` is a natural number: for a negative one the conversion to `u32` panics, see `toArray32`. -/
def toArrayLoop : Nat → Nat → List Nat → Option (List Nat)
  | 0, rem, acc => if rem = 0 then some acc else none
  | c + 1, rem, acc => if rem = 0 then some (List.replicate (c + 1) 0 ++ acc) else toArrayLoop c (rem / 0x100000000) (rem % 0x100000000 :: acc)

/-- `to_array32`, algebraic/src/witness/witness_calculator.rs L35-47 -/
def toArray32 (s : Int) (size : Nat) : Option (List Nat) := if s < 0 then none else toArrayLoop size s.toNat []

theorem fromArray_foldl (l : List Nat) (x : Nat) : l.foldl (fun res val => res * 0x100000000 + val) x = x * 0x100000000 ^ l.length + fromArray32 l := by
  unfold fromArray32
  induction l generalizing x with
  | nil => simp
  | cons a l ih =>
    simp only [List.foldl_cons, List.length_cons]
    rw [ih, ih (0 * 0x100000000 + a), pow_succ]
    ring

theorem fromArray_cons (a : Nat) (l : List Nat) : fromArray32 (a :: l) = a * 0x100000000 ^ l.length + fromArray32 l := by
  rw [fromArray32, List.foldl_cons, fromArray_foldl]; ring

theorem fromArray_replicate (n : Nat) (l : List Nat) : fromArray32 (List.replicate n 0 ++ l) = fromArray32 l := by
  induction n with
  | zero => rfl
  | succ n ih => rw [List.replicate_succ, List.cons_append, fromArray_cons, ih]; ring

theorem toArrayLoop_spec (c rem : Nat) (acc : List Nat) :
    (rem < 0x100000000 ^ c → ∃ l, toArrayLoop c rem acc = some l ∧ l.length = c + acc.length ∧
      fromArray32 l = rem * 0x100000000 ^ acc.length + fromArray32 acc ∧ ((∀ x ∈ acc, x < 0x100000000) → ∀ x ∈ l, x < 0x100000000)) ∧
    (0x100000000 ^ c ≤ rem → toArrayLoop c rem acc = none) := by
  induction c generalizing rem acc with
  | zero =>
    constructor
    · intro h
      have : rem = 0 := by simpa using h
      subst this
      exact ⟨acc, by simp [toArrayLoop], by simp, by simp, fun h => h⟩
    · intro h
      simp only [pow_zero] at h
      rw [toArrayLoop, if_neg (by omega)]
  | succ c ih =>
    rw [toArrayLoop]
    constructor
    · intro h
      split
      · rename_i h0
        subst h0
        refine ⟨_, rfl, by simp, by rw [fromArray_replicate]; simp, fun hacc x hx => ?_⟩
        rcases List.mem_append.mp hx with hx | hx
        · rw [List.eq_of_mem_replicate hx]; norm_num
        · exact hacc x hx
      · obtain ⟨l, h1, h2, h3, h4⟩ := (ih (rem / 0x100000000) (rem % 0x100000000 :: acc)).1 (by
          rw [pow_succ] at h
          exact Nat.div_lt_of_lt_mul (by rw [mul_comm]; exact h))
        refine ⟨l, h1, by rw [h2, List.length_cons]; omega, ?_, fun hacc => h4 fun x hx => ?_⟩
        · rw [h3, fromArray_cons, List.length_cons, pow_succ]
          have e := Nat.div_add_mod rem 0x100000000
          calc rem / 0x100000000 * (0x100000000 ^ acc.length * 0x100000000) + (rem % 0x100000000 * 0x100000000 ^ acc.length + fromArray32 acc)
              = (0x100000000 * (rem / 0x100000000) + rem % 0x100000000) * 0x100000000 ^ acc.length + fromArray32 acc := by ring
            _ = _ := by rw [e]
        · rcases List.mem_cons.mp hx with rfl | hx
          · exact Nat.mod_lt _ (by norm_num)
          · exact hacc x hx
    · intro h
      rw [if_neg (by have : 0 < 0x100000000 ^ (c + 1) := by positivity
                     omega)]
      refine (ih _ _).2 ?_
      rw [pow_succ] at h
      exact (Nat.le_div_iff_mul_le (by norm_num)).mpr h

/-- **Limb conversion** (C57): every `0 ≤ n < 2^(32*size)` becomes `size` limbs below `2^32` from which it is recovered; any other integer
makes the conversion panic (nothing is truncated silently). -/
theorem limbs_roundtrip (n : Int) (size : Nat) :
    (0 ≤ n ∧ n < 2 ^ (32 * size) → ∃ l, toArray32 n size = some l ∧ l.length = size ∧ (∀ x ∈ l, x < 2 ^ 32) ∧ (fromArray32 l : Int) = n) ∧
    (¬ (0 ≤ n ∧ n < 2 ^ (32 * size)) → toArray32 n size = none) := by
  have hp : (0x100000000 : Nat) ^ size = 2 ^ (32 * size) := by rw [pow_mul]; norm_num
  have hpi : ((2 : Int) ^ (32 * size)) = ((2 ^ (32 * size) : Nat) : Int) := by push_cast; rfl
  unfold toArray32
  constructor
  · rintro ⟨h0, h1⟩
    rw [if_neg (by omega)]
    rw [hpi] at h1
    obtain ⟨l, e1, e2, e3, e4⟩ := (toArrayLoop_spec size n.toNat []).1 (by rw [hp]; omega)
    refine ⟨l, e1, by simpa using e2, fun x hx => ?_, ?_⟩
    · have := e4 (by simp) x hx
      norm_num at this ⊢
      exact this
    · have : fromArray32 l = n.toNat := by rw [e3]; simp [fromArray32]
      rw [this]
      exact Int.toNat_of_nonneg h0
  · intro h
    split
    · rfl
    · rename_i h0
      rw [hpi] at h
      exact (toArrayLoop_spec size n.toNat []).2 (by rw [hp]; omega)

example : toArray32 (2 ^ 100 + 5) 4 = some [16, 0, 0, 5] := by decide +kernel
example : toArray32 (2 ^ 128) 4 = none := by decide +kernel
example : toArray32 (-1) 4 = none := by decide +kernel

/-! ### The witness file -/

/-- the scalar field of BN254; its 32 little-endian bytes are the literal of algebraic/src/reader.rs L112 -/
def rBN : Nat := 21888242871839275222246405745257275088548364400416034343698204186575808495617

/-- `hex!("010000f093f5e1439170b97948e833285d588181b64550b829a031e1724e6430")`, algebraic/src/reader.rs L112 -/
def primeHex : List Byte := [0x01, 0x00, 0x00, 0xf0, 0x93, 0xf5, 0xe1, 0x43, 0x91, 0x70, 0xb9, 0x79, 0x48, 0xe8, 0x33, 0x28, 0x5d, 0x58, 0x81, 0x81, 0xb6,
  0x45, 0x50, 0xb8, 0x29, 0xa0, 0x31, 0xe1, 0x72, 0x4e, 0x64, 0x30]

theorem primeHex_eq : primeHex = le 32 rBN := by decide +kernel

/-- `[119, 116, 110, 115]`, "wtns" -/
def magicW : List Byte := [119, 116, 110, 115]

/-- a field element: `repr.read_le` and `E::Fr::from_repr`, algebraic/src/reader.rs L127-129: an error if not below the modulus -/
def rdField (k p : Nat) : Rd Nat := do
  let v ← rdLe k
  check (v < p)
  return v

/-- `load_witness_from_bin_reader` for BN254, algebraic/src/reader.rs L83-132 (field elements as canonical representatives) -/
def loadWitness : Rd (List Nat) := do
  let header ← rdN 4
  check (header = magicW)
  let version ← rdLe 4
  check (version ≤ 2)
  let numSections ← rdLe 4
  check (numSections = 2)
  let secType ← rdLe 4
  check (secType = 1)
  let secSize ← rdLe 8
  check (secSize = 4 + 32 + 4)
  let fieldSize ← rdLe 4
  check (fieldSize = 32)
  let prime ← rdN fieldSize
  check (prime = primeHex)
  let witnessLen ← rdLe 4
  let secType ← rdLe 4
  check (secType = 2)
  let secSize ← rdLe 8
  check (secSize = witnessLen * fieldSize % 2 ^ 32)
  rdMany (rdField 32 rBN) witnessLen

/-- `BigInt::to_bytes_le` of a positive number: as few bytes as possible -/
def bytesLe (n : Nat) : List Byte := le (Nat.log2 n / 8 + 1) n

/-- `save_witness_from_bin_writer`, algebraic/src/witness/witness_calculator.rs L194-243: `n32` limbs per element, least significant first (as `calculate_witness_bin`
returns them); `none`: the prime has another length, or `n32 = 0` -/
def saveWitness (version n32 prime : Nat) (wtns : List Nat) : Option (List Byte) :=
  let fieldSize := n32 * 4 % 2 ^ 32
  let primeBuf := bytesLe prime
  if primeBuf.length ≠ fieldSize ∨ n32 = 0 then none
  else
    let size := wtns.length % 2 ^ 32 / n32
    some (magicW ++ le 4 version ++ le 4 2 ++ le 4 1 ++ le 8 ((n32 * 4 + 8) % 2 ^ 32) ++ le 4 fieldSize ++ primeBuf ++ le 4 size ++ le 4 2 ++
      le 8 (size * fieldSize % 2 ^ 32) ++ wtns.flatMap (le 4))

/-- **Specification of the format**: version, field elements -/
def witnessFile (version : Nat) (ws : List Nat) : List Byte :=
  magicW ++ le 4 version ++ le 4 2 ++ le 4 1 ++ le 8 40 ++ le 4 32 ++ le 32 rBN ++ le 4 ws.length ++ le 4 2 ++ le 8 (ws.length * 32 % 2 ^ 32) ++
    ws.flatMap (le 32)

theorem rdField_iff (k p : Nat) (bs : List Byte) (v : Nat) (rest : List Byte) :
    rdField k p bs = some (v, rest) ↔ (v < 256 ^ k ∧ v < p) ∧ bs = le k v ++ rest := by
  simp only [rdField, check_bind, bind_iff (rdLe _), rdLe_iff, pure_iff, Prod.mk.injEq]
  constructor
  · rintro ⟨a, bs1, ⟨h1, rfl⟩, h2, rfl, rfl⟩
    exact ⟨⟨h1, h2⟩, rfl⟩
  · rintro ⟨⟨h1, h2⟩, rfl⟩
    exact ⟨v, rest, ⟨h1, rfl⟩, h2, rfl, rfl⟩

/-- **What the reader accepts** (C55): exactly the files that begin with the encoding of the returned witness, with version at most 2, fewer
than `2^32` elements, all below the modulus.  Every other header, and every truncated body, is rejected. -/
theorem loadWitness_iff (bs : List Byte) (ws : List Nat) (rest : List Byte) :
    loadWitness bs = some (ws, rest) ↔
      ∃ version ≤ 2, ws.length < 2 ^ 32 ∧ (∀ w ∈ ws, w < rBN) ∧ bs = witnessFile version ws ++ rest := by
  have hr : rBN < 256 ^ 32 := by norm_num [rBN]
  simp only [loadWitness, check_bind, bind_iff (rdN _), bind_iff (rdLe _), rdLe_iff, rdN_iff, rdMany_iff _ _ _ (rdField_iff 32 rBN)]
  constructor
  · rintro ⟨m, b1, ⟨-, rfl⟩, rfl, version, b2, ⟨h2, rfl⟩, hv, ns, b3, ⟨-, rfl⟩, rfl, st, b4, ⟨-, rfl⟩, rfl,
      ss, b5, ⟨-, rfl⟩, rfl, fs, b6, ⟨-, rfl⟩, rfl, pr, b7, ⟨-, rfl⟩, rfl, wl, b8, ⟨h8, rfl⟩, st2, b9, ⟨-, rfl⟩,
      rfl, ss2, b10, ⟨-, rfl⟩, rfl, rfl, hok, rfl⟩
    refine ⟨version, hv, by norm_num at h8 ⊢; exact h8, fun w hw => (hok w hw).2, ?_⟩
    rw [primeHex_eq]
    simp only [witnessFile, List.append_assoc]
  · rintro ⟨version, hv, hl, hok, rfl⟩
    simp only [witnessFile, List.append_assoc, ← primeHex_eq]
    refine ⟨_, _, ⟨by rfl, rfl⟩, rfl, version, _, ⟨by omega, rfl⟩, hv, 2, _, ⟨by norm_num, rfl⟩, rfl, 1, _, ⟨by norm_num, rfl⟩, rfl,
      40, _, ⟨by norm_num, rfl⟩, rfl, 32, _, ⟨by norm_num, rfl⟩, rfl, primeHex, _, ⟨rfl, rfl⟩, rfl,
      ws.length, _, ⟨by norm_num at hl ⊢; exact hl, rfl⟩, 2, _, ⟨by norm_num, rfl⟩, rfl, _, _, ⟨?_, rfl⟩, rfl, rfl, ?_, rfl⟩
    · have : ws.length * 32 % 2 ^ 32 < 2 ^ 32 := Nat.mod_lt _ (by norm_num)
      norm_num at this ⊢
      omega
    · intro w hw
      exact ⟨Nat.lt_trans (hok w hw) hr, hok w hw⟩

/-- the value of limbs, least significant first -/
def limbsVal : List Nat → Nat
  | [] => 0
  | a :: l => a + 2 ^ 32 * limbsVal l

/-- the elements of a witness given as limbs -/
def elements (n32 : Nat) : Nat → List Nat → List Nat
  | 0, _ => []
  | m + 1, w => limbsVal (w.take n32) :: elements n32 m (w.drop n32)

theorem elements_length (n32 m : Nat) (w : List Nat) : (elements n32 m w).length = m := by
  induction m generalizing w with
  | zero => rfl
  | succ m ih => simp [elements, ih]

theorem limbs_bytes (l : List Nat) (h : ∀ x ∈ l, x < 2 ^ 32) : l.flatMap (le 4) = le (4 * l.length) (limbsVal l) := by
  have key : unle (l.flatMap (le 4)) = limbsVal l ∧ (l.flatMap (le 4)).length = 4 * l.length := by
    induction l with
    | nil => exact ⟨rfl, rfl⟩
    | cons a l ih =>
      obtain ⟨i1, i2⟩ := ih fun x hx => h x (by simp [hx])
      have ha := h a (by simp)
      rw [List.flatMap_cons, unle_append, List.length_append, i1, i2, le_length, unle_le_of_lt (by norm_num at ha ⊢; exact ha)]
      exact ⟨by simp only [limbsVal]; norm_num, by rw [List.length_cons]; omega⟩
  rw [← key.1, ← key.2, le_unle]

theorem elements_bytes (n32 m : Nat) (w : List Nat) (hl : w.length = m * n32) (h : ∀ x ∈ w, x < 2 ^ 32) :
    w.flatMap (le 4) = (elements n32 m w).flatMap (le (4 * n32)) := by
  induction m generalizing w with
  | zero =>
    have : w = [] := by simpa using hl
    subst this
    rfl
  | succ m ih =>
    have hlen : n32 ≤ w.length := by rw [hl]; exact Nat.le_mul_of_pos_left _ (by omega)
    conv_lhs => rw [← List.take_append_drop n32 w]
    rw [List.flatMap_append, elements, List.flatMap_cons,
      limbs_bytes (w.take n32) (fun x hx => h x (List.mem_of_mem_take hx)), List.length_take, Nat.min_eq_left hlen,
      ih (w.drop n32) (by rw [List.length_drop, hl, Nat.succ_mul]; omega) (fun x hx => h x (List.mem_of_mem_drop hx))]

theorem bytes_rBN : bytesLe rBN = le 32 rBN := by
  have : Nat.log2 rBN / 8 + 1 = 32 := by decide +kernel
  rw [bytesLe, this]

/-- **Round trip** (C55): a witness of `m` elements of 8 limbs, all below the modulus of BN254, is written, and read back as the elements. -/
theorem witness_roundtrip (version m : Nat) (wtns : List Nat) (hv : version ≤ 2) (hm : wtns.length = m * 8) (h32 : wtns.length < 2 ^ 32)
    (hlimb : ∀ x ∈ wtns, x < 2 ^ 32) (hr : ∀ w ∈ elements 8 m wtns, w < rBN) :
    ∃ file, saveWitness version 8 rBN wtns = some file ∧ loadWitness file = some (elements 8 m wtns, []) := by
  have e1 : wtns.length % 2 ^ 32 / 8 = m := by rw [Nat.mod_eq_of_lt h32, hm]; omega
  refine ⟨witnessFile version (elements 8 m wtns), ?_, ?_⟩
  · unfold saveWitness
    rw [bytes_rBN]
    dsimp only
    rw [if_neg (by rw [le_length]; norm_num), e1, elements_bytes 8 m wtns hm hlimb]
    simp only [witnessFile, elements_length]
    norm_num
  · rw [loadWitness_iff]
    exact ⟨version, hv, by rw [elements_length]; omega, hr, by rw [List.append_nil]⟩

theorem witnessFile_length (version : Nat) (ws : List Nat) : (witnessFile version ws).length = 76 + 32 * ws.length := by
  simp only [witnessFile, List.length_append, le_length, List.length_flatMap, List.map_const', List.sum_replicate]
  simp only [magicW, List.length_cons, List.length_nil]
  rw [show ws.length • 32 = ws.length * 32 from rfl]
  omega

/-- **An interrupted write is detected** (C55): no proper prefix of a witness file is accepted. -/
theorem witness_truncated (version : Nat) (ws : List Nat) (k : Nat) (hl : ws.length < 2 ^ 32) (hk : k < (witnessFile version ws).length) :
    loadWitness ((witnessFile version ws).take k) = none := by
  cases h : loadWitness ((witnessFile version ws).take k) with
  | none => rfl
  | some q =>
    exfalso
    obtain ⟨ws', rest⟩ := q
    obtain ⟨v', -, hl', -, e⟩ := (loadWitness_iff _ _ _).mp h
    have hlen := congrArg List.length e
    rw [List.length_take, List.length_append, witnessFile_length] at hlen
    rw [witnessFile_length] at hk hlen
    -- the length fields agree
    have hfield : ∀ (v : Nat) (ws : List Nat), ((witnessFile v ws).drop 60).take 4 = le 4 ws.length := by
      intro v ws
      have e1 : witnessFile v ws = (magicW ++ le 4 v ++ le 4 2 ++ le 4 1 ++ le 8 40 ++ le 4 32 ++ le 32 rBN) ++ (le 4 ws.length ++ (le 4 2 ++
          (le 8 (ws.length * 32 % 2 ^ 32) ++ ws.flatMap (le 32)))) := by
        simp only [witnessFile, List.append_assoc]
      rw [e1, List.drop_left' (by simp [magicW]), List.take_left' (le_length _ _)]
    have h1 : (((witnessFile version ws).take k).drop 60).take 4 = le 4 ws.length := by
      rw [List.drop_take, List.take_take, Nat.min_eq_left (by omega), hfield]
    rw [e, List.drop_append_of_le_length (by rw [witnessFile_length]; omega), List.take_append_of_le_length (by
      rw [List.length_drop, witnessFile_length]; omega), hfield] at h1
    have h2 := le_inj (by norm_num at hl' ⊢; exact hl') (by norm_num at hl ⊢; exact hl) h1
    omega

/-- two elements, the second one above `2^64` -/
example : ∃ file, saveWitness 2 8 rBN [1, 0, 0, 0, 0, 0, 0, 0, 7, 0, 5, 0, 0, 0, 0, 0] = some file ∧ loadWitness file = some ([1, 7 + 5 * 2 ^ 64], []) := by
  obtain ⟨file, h1, h2⟩ := witness_roundtrip 2 2 [1, 0, 0, 0, 0, 0, 0, 0, 7, 0, 5, 0, 0, 0, 0, 0] (by norm_num) (by norm_num) (by norm_num) (by decide)
    (by decide +kernel)
  exact ⟨file, h1, by rw [h2]; decide +kernel⟩

/-- a witness over a 64-bit field is written but not read back: the reader accepts only BN254 -/
example : ∃ file, saveWitness 2 2 0xFFFFFFFF00000001 [1, 0] = some file ∧ loadWitness file = none := by
  refine ⟨_, rfl, ?_⟩
  decide +kernel

end Verif.Io
