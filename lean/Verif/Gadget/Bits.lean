import Verif.Gadget.GLComplete
import Verif.Transcript.BN

/-!
# bn1togl3.circom, compconstant64.circom, treeselector.circom (C112-C114)
-/
set_option linter.unusedSectionVars false

namespace Verif.Gadget
open Verif.GL (F)

variable {r : Nat}

/-! ### BN1toGL3 -/

/-- `BN1toGL3`, stark-circuits/circuits/bn1togl3.circom L5-24 -/
def BN1toGL3 (i : ZMod r) (o : Fin 3 → ZMod r) : Prop :=
  ∃ b, Num2Bits 255 i b ∧ ∀ e : Fin 3, Bits2Num 64 (fun j => b (64 * e.val + j)) (o e)

/-- **Specification**: 64-bit digit `e` of `v` -/
def digit64 (v e : Nat) : Nat := v / 2 ^ (64 * e) % 2 ^ 64

/-- what the constraints say: the outputs are the digits of some number of 255 bits in the class of the input -/
theorem bn1togl3_iff [Fact r.Prime] (i : ZMod r) (o : Fin 3 → ZMod r) :
    BN1toGL3 i o ↔ ∃ v : Nat, v < 2 ^ 255 ∧ i = (v : ZMod r) ∧ ∀ e : Fin 3, o e = ((digit64 v e : Nat) : ZMod r) := by
  have key : ∀ (b : Nat → ZMod r) (v : Nat), (∀ i < 255, b i = bitZ (v.testBit i)) → ∀ e : Fin 3,
      ∑ j ∈ Finset.range 64, b (64 * e.val + j) * 2 ^ j = ((digit64 v e : Nat) : ZMod r) := by
    intro b v hb e
    rw [digit64, ← sum_bits]
    refine Finset.sum_congr rfl fun j hj => ?_
    have := Finset.mem_range.mp hj
    rw [hb _ (by omega), ← Nat.shiftRight_eq_div_pow, Nat.testBit_shiftRight]
  constructor
  · rintro ⟨b, h1, h2⟩
    obtain ⟨v, hv, e, hb⟩ := (num2Bits_iff _ _ _).mp h1
    refine ⟨v, hv, e, fun e => ?_⟩
    rw [h2 e, key b v hb e]
  · rintro ⟨v, hv, rfl, ho⟩
    refine ⟨fun i => bitZ (v.testBit i), (num2Bits_iff _ _ _).mpr ⟨v, hv, rfl, fun _ _ => rfl⟩, fun e => ?_⟩
    rw [Bits2Num, ho e, key _ v (fun _ _ => rfl) e]

/-- the digits reduced modulo `p` are what the native transcript returns -/
theorem digit64_native (v : Nat) : (List.range 3).map (fun e => ((digit64 v e : Nat) : F).val) = TranscriptBN.splitInt v := by
  have h := fun x : Nat => Nat.and_two_pow_sub_one_eq_mod x 64
  have h' : ∀ x : Nat, x &&& 0xFFFFFFFFFFFFFFFF = x % 2 ^ 64 := fun x => h x
  simp only [TranscriptBN.splitInt, h', Nat.shiftRight_eq_div_pow, List.range_succ, List.range_zero, List.nil_append, List.map_append, List.map_cons,
    List.map_nil, List.cons_append, digit64, natCast_mod_P]
  norm_num [P]

/-- **C112, soundness where it holds**: over a field with more than `2^254` elements, if the input is at least `2^255 - r` the three outputs stand for
the three elements of the native transcript -/
theorem bn1togl3_sound_partial [Fact r.Prime] (hr : 2 ^ 254 < r) {i : ZMod r} {o : Fin 3 → ZMod r} (hi : 2 ^ 255 ≤ i.val + r) (h : BN1toGL3 i o) :
    ∃ x : Fin 3 → F, (∀ e, Out (o e) (x e)) ∧ [(x 0).val, (x 1).val, (x 2).val] = TranscriptBN.splitInt i.val := by
  obtain ⟨v, hv, rfl, ho⟩ := (bn1togl3_iff i o).mp h
  rw [ZMod.val_natCast] at hi ⊢
  have hmod : v % r = v := by
    have h1 := Nat.div_add_mod v r
    have h2 := Nat.mod_lt v (show 0 < r by omega)
    have : v / r = 0 := by
      by_contra hne
      have : r * 1 ≤ r * (v / r) := Nat.mul_le_mul_left _ (Nat.one_le_iff_ne_zero.mpr hne)
      omega
    rw [this] at h1
    omega
  rw [hmod]
  refine ⟨fun e => ((digit64 v e : Nat) : F), fun e => ⟨digit64 v e, Nat.mod_lt _ (by norm_num), ho e, rfl⟩, ?_⟩
  rw [← digit64_native]
  rfl

/-- completeness: the digits of the input satisfy the constraints (`r` has at most 255 bits) -/
theorem bn1togl3_complete [Fact r.Prime] (hr : r ≤ 2 ^ 255) (i : ZMod r) : BN1toGL3 i fun e => ((digit64 i.val e : Nat) : ZMod r) := by
  have : NeZero r := ⟨(Fact.out : r.Prime).ne_zero⟩
  exact (bn1togl3_iff _ _).mpr ⟨i.val, lt_of_lt_of_le (ZMod.val_lt i) hr, by rw [ZMod.natCast_val, ZMod.cast_id], fun _ => rfl⟩

/-- the digits of `n + r` satisfy them too, for every input `n` below `2^255 - r` -/
theorem bn1togl3_two [Fact r.Prime] (n : Nat) (hn : n + r < 2 ^ 255) :
    BN1toGL3 ((n : Nat) : ZMod r) (fun e => ((digit64 n e : Nat) : ZMod r)) ∧
    BN1toGL3 ((n : Nat) : ZMod r) (fun e => ((digit64 (n + r) e : Nat) : ZMod r)) :=
  ⟨(bn1togl3_iff _ _).mpr ⟨n, by omega, rfl, fun _ => rfl⟩, (bn1togl3_iff _ _).mpr ⟨n + r, hn, by simp, fun _ => rfl⟩⟩

/-- **C112, the failure**: over the scalar field of BLS12-381 the prover can choose between two different challenges: for the input `1`, the second
element may be `0` or `0x53bda402fffe5bfe` -/
theorem bn1togl3_challenge_not_unique : ∃ o o' : Fin 3 → ZMod Poseidon.blsMod, ∃ x x' : F, BN1toGL3 1 o ∧ BN1toGL3 1 o' ∧ Out (o 1) x ∧
    Out (o' 1) x' ∧ x ≠ x' := by
  have h := bn1togl3_two (r := Poseidon.blsMod) 1 (by decide)
  rw [Nat.cast_one] at h
  refine ⟨_, _, ((digit64 1 1 : Nat) : F), ((digit64 (1 + Poseidon.blsMod) 1 : Nat) : F), h.1, h.2,
    ⟨_, Nat.mod_lt _ (by norm_num), rfl, rfl⟩, ⟨_, Nat.mod_lt _ (by norm_num), rfl, rfl⟩, ?_⟩
  intro hc
  have hc := congrArg ZMod.val hc
  rw [natCast_mod_P, natCast_mod_P] at hc
  revert hc
  decide

/-- the same for the query positions: `Num2Bits(255)` (stark_verifier_circom_onchain.rs L155) does not determine the bits -/
theorem num2bits255_not_unique : ∃ b b' : Nat → ZMod Poseidon.blsMod, Num2Bits 255 1 b ∧ Num2Bits 255 1 b' ∧ b 1 ≠ b' 1 := by
  refine ⟨fun i => bitZ ((1 : Nat).testBit i), fun i => bitZ ((1 + Poseidon.blsMod).testBit i), ?_, ?_, ?_⟩
  · exact (num2Bits_iff _ _ _).mpr ⟨1, by norm_num, by simp, fun _ _ => rfl⟩
  · exact (num2Bits_iff _ _ _).mpr ⟨1 + Poseidon.blsMod, by decide, by simp, fun _ _ => rfl⟩
  · have h1 : (1 : Nat).testBit 1 = false := by decide
    have h2 : (1 + Poseidon.blsMod).testBit 1 = true := by decide
    dsimp only
    rw [h1, h2]
    simp [bitZ]

/-- with the 254 bits of `Num2Bits_strict` on BN254 nothing is lost: a number below `r` is determined -/
theorem num2bits_unique [Fact r.Prime] {n : Nat} (hn : 2 ^ n ≤ r) {x : ZMod r} {b b' : Nat → ZMod r} (h : Num2Bits n x b) (h' : Num2Bits n x b') :
    ∀ i < n, b i = b' i := by
  obtain ⟨v, hv, e, hb⟩ := (num2Bits_iff _ _ _).mp h
  obtain ⟨w, hw, e', hb'⟩ := (num2Bits_iff _ _ _).mp h'
  rw [e, ZMod.natCast_eq_natCast_iff', Nat.mod_eq_of_lt (by omega), Nat.mod_eq_of_lt (by omega)] at e'
  subst e'
  intro i hi
  rw [hb i hi, hb' i hi]

/-! ### CompConstant64 -/

/-- `parts[i]` of `CompConstant64(ct)`, stark-circuits/circuits/compconstant64.circom L22-39: `cm`, `cl` are the two bits of the constant, `sm`, `sl` those of
the input, `e = 2^i` -/
def ccPart (cm cl : Bool) (e sm sl : ZMod r) : ZMod r :=
  if cm = false ∧ cl = false then sm * e + sl * e - sm * sl * e
  else if cm = false ∧ cl = true then -e + e * sl + e * 2 * sm - e * sm * sl
  else if cm = true ∧ cl = false then e * sm * sl - e + e * sm
  else e * sm * sl - e

/-- `sum[i]`, compconstant64.circom L41-45 -/
def ccSum (ct : Nat) (b : Nat → ZMod r) : Nat → ZMod r
  | 0 => 2 ^ 32 - 1 + ccPart (ct.testBit 1) (ct.testBit 0) 1 (b 1) (b 0)
  | i + 1 => ccSum ct b i + ccPart (ct.testBit ((i + 1) * 2 + 1)) (ct.testBit ((i + 1) * 2)) (2 ^ (i + 1)) (b ((i + 1) * 2 + 1)) (b ((i + 1) * 2))

/-- `CompConstant64(ct)`, compconstant64.circom L5-52 -/
def CompConstant64 (ct : Nat) (b : Nat → ZMod r) (out : ZMod r) : Prop := ∃ nb, Num2Bits 33 (ccSum ct b 31) nb ∧ out = nb 32

/-- the comparison of two digits in base four -/
def sgn (d c : Nat) : ℤ := if c < d then 1 else if d < c then -1 else 0

theorem bits_digit (v n : Nat) : v.testBit (n * 2) = decide (v / 4 ^ n % 4 % 2 = 1) ∧ v.testBit (n * 2 + 1) = decide (v / 4 ^ n % 4 / 2 = 1) := by
  have h4 : (2 : Nat) ^ (n * 2) = 4 ^ n := by rw [Nat.mul_comm, pow_mul]; norm_num
  constructor
  · rw [Nat.testBit_eq_decide_div_mod_eq, h4]
    congr 1
    have : v / 4 ^ n % 4 % 2 = v / 4 ^ n % 2 := by omega
    rw [this]
  · rw [Nat.testBit_eq_decide_div_mod_eq, pow_succ, h4, ← Nat.div_div_eq_div_mul]
    congr 1
    have : v / 4 ^ n % 4 / 2 = v / 4 ^ n / 2 % 2 := by omega
    rw [this]

theorem ccPart_eq (ct v n : Nat) (e : ZMod r) : ccPart (ct.testBit (n * 2 + 1)) (ct.testBit (n * 2)) e (bitZ (v.testBit (n * 2 + 1))) (bitZ (v.testBit (n * 2))) =
    e * ((sgn (v / 4 ^ n % 4) (ct / 4 ^ n % 4) : ℤ) : ZMod r) := by
  rw [(bits_digit v n).1, (bits_digit v n).2, (bits_digit ct n).1, (bits_digit ct n).2]
  have h1 := Nat.mod_lt (v / 4 ^ n) (show 0 < 4 by omega)
  have h2 := Nat.mod_lt (ct / 4 ^ n) (show 0 < 4 by omega)
  generalize v / 4 ^ n % 4 = d at *
  generalize ct / 4 ^ n % 4 = c at *
  interval_cases d <;> interval_cases c <;> simp [ccPart, sgn, bitZ] <;> ring

/-- the weighted sum of the comparisons -/
def ccD (ct v : Nat) : Nat → ℤ
  | 0 => 0
  | n + 1 => ccD ct v n + 2 ^ n * sgn (v / 4 ^ n % 4) (ct / 4 ^ n % 4)

theorem ccD_spec (ct v n : Nat) : |ccD ct v n| ≤ 2 ^ n - 1 ∧ (0 < ccD ct v n ↔ ct % 4 ^ n < v % 4 ^ n) ∧ (ccD ct v n < 0 ↔ v % 4 ^ n < ct % 4 ^ n) := by
  induction n with
  | zero => simp [ccD, Nat.mod_one]
  | succ n ih =>
    obtain ⟨h1, h2, h3⟩ := ih
    rw [ccD, Nat.mod_pow_succ, Nat.mod_pow_succ]
    have b1 := Nat.mod_lt v (show 0 < 4 ^ n by positivity)
    have b2 := Nat.mod_lt ct (show 0 < 4 ^ n by positivity)
    generalize v / 4 ^ n % 4 = d
    generalize ct / 4 ^ n % 4 = c
    generalize v % 4 ^ n = x at *
    generalize ct % 4 ^ n = y at *
    generalize ccD ct v n = D at *
    have h4 : 0 < 4 ^ n := by positivity
    generalize (4 : Nat) ^ n = q at *
    have hp : (0 : ℤ) < 2 ^ n := by positivity
    rw [pow_succ]
    generalize (2 : ℤ) ^ n = w at *
    rw [abs_le] at h1 ⊢
    unfold sgn
    rcases lt_trichotomy c d with h | h | h
    · have hm : q * c + q ≤ q * d := by
        calc q * c + q = q * (c + 1) := by ring
          _ ≤ q * d := Nat.mul_le_mul_left _ h
      rw [if_pos h]
      refine ⟨⟨by omega, by omega⟩, ⟨fun _ => by omega, fun _ => by omega⟩, ⟨fun _ => by omega, fun _ => by omega⟩⟩
    · subst h
      rw [if_neg (by omega), if_neg (by omega)]
      refine ⟨⟨by omega, by omega⟩, ⟨fun _ => ?_, fun _ => ?_⟩, ⟨fun _ => ?_, fun _ => ?_⟩⟩
      · have := h2.mp (by omega); omega
      · have := h2.mpr (by omega); omega
      · have := h3.mp (by omega); omega
      · have := h3.mpr (by omega); omega
    · have hm : q * d + q ≤ q * c := by
        calc q * d + q = q * (d + 1) := by ring
          _ ≤ q * c := Nat.mul_le_mul_left _ h
      rw [if_neg (by omega), if_pos h]
      refine ⟨⟨by omega, by omega⟩, ⟨fun _ => by omega, fun _ => by omega⟩, ⟨fun _ => by omega, fun _ => by omega⟩⟩

theorem ccSum_eq (ct v : Nat) (b : Nat → ZMod r) (n : Nat) (hb : ∀ i < 2 * (n + 1), b i = bitZ (v.testBit i)) :
    ccSum ct b n = ((2 ^ 32 - 1 + ccD ct v (n + 1) : ℤ) : ZMod r) := by
  induction n with
  | zero =>
    have := ccPart_eq (r := r) ct v 0 1
    simp only [Nat.zero_mul, Nat.zero_add] at this
    rw [ccSum, hb 1 (by omega), hb 0 (by omega), this]
    simp [ccD]
    norm_num
  | succ n ih =>
    rw [ccSum, ih (fun i hi => hb i (by omega)), hb _ (by omega), hb _ (by omega), ccPart_eq]
    rw [show ccD ct v (n + 1 + 1) = ccD ct v (n + 1) + 2 ^ (n + 1) * sgn (v / 4 ^ (n + 1) % 4) (ct / 4 ^ (n + 1) % 4) from rfl]
    push_cast
    ring

/-- **C113**: for every constant and every number of 64 bits, given by its bits: the output is `1` if the number is larger than the constant, `0` otherwise,
and the constraints can be satisfied -/
theorem compConstant64_iff [Fact r.Prime] (hr : 2 ^ 33 ≤ r) {ct v : Nat} (hct : ct < 2 ^ 64) (hv : v < 2 ^ 64) {b : Nat → ZMod r}
    (hb : ∀ i < 64, b i = bitZ (v.testBit i)) (out : ZMod r) : CompConstant64 ct b out ↔ out = if ct < v then 1 else 0 := by
  obtain ⟨h1, h2, h3⟩ := ccD_spec ct v 32
  have hs := ccSum_eq ct v b 31 (by simpa using hb)
  have e4 : (4 : Nat) ^ 32 = 2 ^ 64 := by norm_num
  rw [e4, Nat.mod_eq_of_lt hct, Nat.mod_eq_of_lt hv] at h2
  rw [abs_le] at h1
  obtain ⟨s, hs'⟩ := Int.eq_ofNat_of_zero_le (show (0 : ℤ) ≤ 2 ^ 32 - 1 + ccD ct v 32 by omega)
  have hsum : ccSum ct b 31 = ((s : Nat) : ZMod r) := by rw [hs, hs']; simp
  have hs33 : s < 2 ^ 33 := by omega
  have hbit : s.testBit 32 = decide (ct < v) := by
    rw [Nat.testBit_eq_decide_div_mod_eq]
    by_cases h : ct < v
    · have := h2.mpr h
      have : s / 2 ^ 32 = 1 := by omega
      rw [this]; simp [h]
    · have : ¬ 0 < ccD ct v 32 := fun hc => h (h2.mp hc)
      have : s / 2 ^ 32 = 0 := by omega
      rw [this]; simp [h]
  have hout : (bitZ (s.testBit 32) : ZMod r) = if ct < v then 1 else 0 := by
    rw [hbit]
    by_cases h : ct < v <;> simp [bitZ, h]
  rw [← hout]
  constructor
  · rintro ⟨nb, g1, rfl⟩
    obtain ⟨w, hw, e, hn⟩ := (num2Bits_iff _ _ _).mp g1
    rw [hsum, ZMod.natCast_eq_natCast_iff', Nat.mod_eq_of_lt (by omega), Nat.mod_eq_of_lt (by omega)] at e
    rw [hn 32 (by omega), e]
  · rintro rfl
    exact ⟨fun i => bitZ (s.testBit i), (num2Bits_iff _ _ _).mpr ⟨s, hs33, hsum, fun _ _ => rfl⟩, rfl⟩

/-- the use in `Main`, stark_verifier_circom_onchain.rs L1797-1806: a public input with `Num2Bits(64)` and `CompConstant64(0xFFFFFFFF00000000).out === 0` is a
canonical Goldilocks element -/
theorem publics_canonical [Fact r.Prime] (hr : 2 ^ 250 < r) (x : ZMod r) :
    (∃ b, Num2Bits 64 x b ∧ CompConstant64 0xFFFFFFFF00000000 b 0) ↔ ∃ y : F, x = canon y := by
  constructor
  · rintro ⟨b, h1, h2⟩
    obtain ⟨v, hv, rfl, hb⟩ := (num2Bits_iff _ _ _).mp h1
    have := (compConstant64_iff (by omega) (by norm_num) hv hb 0).mp h2
    have hlt : ¬ 0xFFFFFFFF00000000 < v := by
      intro h; rw [if_pos h] at this; exact zero_ne_one this
    refine ⟨(v : F), ?_⟩
    rw [canon, natCast_mod_P, Nat.mod_eq_of_lt (by unfold P; omega)]
  · rintro ⟨y, rfl⟩
    have : NeZero Verif.GL.MODULUS := ⟨by decide⟩
    have hy : y.val < P := ZMod.val_lt y
    have h64 : y.val < 2 ^ 64 := lt_trans hy (by decide)
    refine ⟨fun i => bitZ (y.val.testBit i), (num2Bits_iff _ _ _).mpr ⟨_, h64, rfl, fun _ _ => rfl⟩, ?_⟩
    refine (compConstant64_iff (by omega) (by norm_num) h64 (fun _ _ => rfl) 0).mpr ?_
    rw [if_neg (by unfold P at hy; omega)]

/-! ### TreeSelector -/

/-- the loop over `i` of `TreeSelector`, stark-circuits/circuits/treeselector.circom L12-28, from `i` on, `k` iterations, with `levelN`, `o`, `lo`; for one of the
`eSize` columns -/
def tsLoop (key values im : Nat → ZMod r) : Nat → Nat → Nat → Nat → Nat → Prop
  | _, 0, _, _, _ => True
  | i, k + 1, levelN, o, lo =>
    (∀ j < levelN, im (o + j) = if i = 0 then key i * (values (2 * j + 1) - values (2 * j)) + values (2 * j)
      else key i * (im (lo + 2 * j + 1) - im (lo + 2 * j)) + im (lo + 2 * j)) ∧ tsLoop key values im (i + 1) k (levelN / 2) (o + levelN) o

/-- `TreeSelector(nLevels, eSize)`, treeselector.circom L3-34 -/
def TreeSelector (nLevels eSize : Nat) (values : Nat → Nat → ZMod r) (key : Nat → ZMod r) (out : Nat → ZMod r) : Prop :=
  ∃ im : Nat → Nat → ZMod r, ∀ k < eSize, tsLoop key (fun j => values j k) (fun j => im j k) 0 nLevels (2 ^ nLevels / 2) 0 0 ∧
    out k = im (2 ^ nLevels - 2) k

theorem sel_bit (b : Bool) (x y : ZMod r) : bitZ b * (y - x) + x = if b then y else x := by
  cases b <;> simp [bitZ]

/-- after the levels below `i`, the entry `j` of a level is the value whose low bits are those of the key -/
theorem tsLoop_spec {key values im : Nat → ZMod r} {v L : Nat} (hk : ∀ i < L, key i = bitZ (v.testBit i)) :
    ∀ k i o lo, i + (k + 1) = L → (i ≠ 0 → ∀ j < 2 ^ (k + 1), im (lo + j) = values (2 ^ i * j + v % 2 ^ i)) →
      tsLoop key values im i (k + 1) (2 ^ k) o lo → im (o + 2 ^ (k + 1) - 2) = values (v % 2 ^ L) := by
  intro k
  induction k with
  | zero =>
    rintro i o lo rfl hlo ⟨h, -⟩
    have h0 := h 0 (by norm_num)
    rw [hk i (by omega)] at h0
    have hb : v % 2 ^ (i + (0 + 1)) = v % 2 ^ i + 2 ^ i * (v.testBit i).toNat := by
      rw [Nat.zero_add, Nat.mod_pow_succ, Nat.testBit_eq_decide_div_mod_eq]
      rcases Nat.mod_two_eq_zero_or_one (v / 2 ^ i) with h | h <;> simp [h]
    rw [hb]
    have e : o + 2 ^ (0 + 1) - 2 = o + 0 := by omega
    rw [e, h0]
    by_cases hi : i = 0
    · subst hi
      rw [if_pos rfl, sel_bit]
      cases v.testBit 0 <;> simp [Nat.mod_one]
    · rw [if_neg hi, sel_bit]
      have g0 := hlo hi 0 (by norm_num)
      have g1 := hlo hi 1 (by norm_num)
      cases v.testBit i
      · simpa using g0
      · simp only [Nat.mul_zero, Nat.add_zero, if_true, Bool.toNat_true, Nat.mul_one]
        rw [g1]; congr 1; ring
  | succ k ih =>
    rintro i o lo hL hlo ⟨h, hrest⟩
    have hd : 2 ^ (k + 1) / 2 = 2 ^ k := by rw [pow_succ]; omega
    rw [hd] at hrest
    have := ih (i + 1) (o + 2 ^ (k + 1)) o (by omega) (fun _ j hj => ?_) hrest
    · rw [← this]
      congr 1
      have : 2 ^ (k + 1 + 1) = 2 ^ (k + 1) + 2 ^ (k + 1) := by rw [pow_succ]; omega
      rw [this]; omega
    · rw [h j hj, hk i (by omega), sel_bit, sel_bit]
      have hb : v % 2 ^ (i + 1) = v % 2 ^ i + 2 ^ i * (v.testBit i).toNat := by
        rw [Nat.mod_pow_succ, Nat.testBit_eq_decide_div_mod_eq]
        rcases Nat.mod_two_eq_zero_or_one (v / 2 ^ i) with h | h <;> simp [h]
      rw [hb]
      by_cases hi : i = 0
      · subst hi
        rw [if_pos rfl]
        cases v.testBit 0 <;> simp [Nat.mod_one]
      · rw [if_neg hi]
        have hj2 : 2 * j + 1 < 2 ^ (k + 1 + 1) := by rw [pow_succ]; omega
        have g0 := hlo hi (2 * j) (by omega)
        have g1 := hlo hi (2 * j + 1) hj2
        cases v.testBit i
        · simp only [Bool.false_eq_true, if_false, Bool.toNat_false, Nat.mul_zero, Nat.add_zero]
          rw [g0]; congr 1; ring
        · simp only [if_true, Bool.toNat_true, Nat.mul_one]
          rw [Nat.add_assoc lo, g1]; congr 1; ring

/-- the intermediate signals can be filled in -/
theorem tsLoop_exists (key values : Nat → ZMod r) : ∀ k i levelN o lo (im0 : Nat → ZMod r), (i ≠ 0 → lo + 2 * levelN ≤ o) →
    ∃ im : Nat → ZMod r, (∀ t < o, im t = im0 t) ∧ tsLoop key values im i k levelN o lo := by
  intro k
  induction k with
  | zero => exact fun i levelN o lo im0 _ => ⟨im0, fun _ _ => rfl, trivial⟩
  | succ k ih =>
    intro i levelN o lo im0 hlo
    let im1 : Nat → ZMod r := fun t => if t < o then im0 t else
      if i = 0 then key i * (values (2 * (t - o) + 1) - values (2 * (t - o))) + values (2 * (t - o))
      else key i * (im0 (lo + 2 * (t - o) + 1) - im0 (lo + 2 * (t - o))) + im0 (lo + 2 * (t - o))
    obtain ⟨im, h1, h2⟩ := ih (i + 1) (levelN / 2) (o + levelN) o im1 (fun _ => by omega)
    refine ⟨im, fun t ht => ?_, fun j hj => ?_, h2⟩
    · rw [h1 t (by omega)]; simp [im1, ht]
    · rw [h1 _ (by omega)]
      simp only [im1, show ¬ (o + j < o) by omega, if_false, Nat.add_sub_cancel_left]
      by_cases hi : i = 0
      · rw [if_pos hi, if_pos hi]
      · have := hlo hi
        rw [if_neg hi, if_neg hi, h1 (lo + 2 * j + 1) (by omega), h1 (lo + 2 * j) (by omega)]
        simp only [im1, show lo + 2 * j + 1 < o by omega, show lo + 2 * j < o by omega, if_true]

/-- **C114**: for at least one level, any values and the bits of `v` as key: the constraints hold exactly when the output is `values[v]` -/
theorem treeSelector_iff {nLevels eSize : Nat} (hL : 0 < nLevels) {v : Nat} (hv : v < 2 ^ nLevels) {values : Nat → Nat → ZMod r} {key : Nat → ZMod r}
    (hk : ∀ i < nLevels, key i = bitZ (v.testBit i)) (out : Nat → ZMod r) :
    TreeSelector nLevels eSize values key out ↔ ∀ k < eSize, out k = values v k := by
  obtain ⟨n, rfl⟩ : ∃ n, nLevels = n + 1 := ⟨nLevels - 1, by omega⟩
  have hd : 2 ^ (n + 1) / 2 = 2 ^ n := by rw [pow_succ]; omega
  have key' : ∀ (vals im : Nat → ZMod r), tsLoop key vals im 0 (n + 1) (2 ^ n) 0 0 → im (2 ^ (n + 1) - 2) = vals v := by
    intro vals im h
    have := tsLoop_spec hk n 0 0 0 (by omega) (fun h => absurd rfl h) h
    rw [Nat.zero_add, Nat.mod_eq_of_lt hv] at this
    exact this
  unfold TreeSelector
  rw [hd]
  constructor
  · rintro ⟨im, h⟩ k hk
    obtain ⟨h1, h2⟩ := h k hk
    rw [h2]
    exact key' _ _ h1
  · intro h
    choose im _ him using fun k => tsLoop_exists key (fun j => values j k) (n + 1) 0 (2 ^ n) 0 0 (fun _ => 0) (fun h => absurd rfl h)
    refine ⟨fun j k => im k j, fun k hk => ⟨him k, ?_⟩⟩
    rw [h k hk]
    exact (key' _ _ (him k)).symm

/-! ### Examples -/

example : CompConstant64 (r := Poseidon.blsMod) 0xFFFFFFFF00000000 (fun i => bitZ ((0xFFFFFFFF00000001 : Nat).testBit i)) 1 :=
  (compConstant64_iff (by decide) (by norm_num) (v := 0xFFFFFFFF00000001) (by norm_num) (fun _ _ => rfl) 1).mpr (by norm_num)

example : TreeSelector (r := Poseidon.blsMod) 2 3 (fun j k => ((10 * j + k : Nat) : ZMod Poseidon.blsMod)) (fun i => bitZ ((2 : Nat).testBit i))
    (fun k => ((20 + k : Nat) : ZMod Poseidon.blsMod)) :=
  (treeSelector_iff (by omega) (v := 2) (by norm_num) (fun _ _ => rfl) _).mpr fun k _ => by norm_num

/-- an input at least `2^255 - r` -/
example : 2 ^ 255 ≤ (((2 ^ 254 : Nat) : ZMod Poseidon.blsMod)).val + Poseidon.blsMod := by
  rw [ZMod.val_natCast]; decide

end Verif.Gadget
