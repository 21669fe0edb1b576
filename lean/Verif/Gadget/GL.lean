import Verif.F3G.Props
import Verif.Poseidon.Primes
import Mathlib.Data.Nat.Bitwise

/-!
# Goldilocks arithmetic inside a circuit over another prime field: stark-circuits/circuits/gl.circom

The on-chain verifier circuit (`stark_verifier_circom_onchain.rs`) is compiled with the templates of stark-circuits/circuits (test/snark_verifier.sh
L34).  A template is modelled by its constraints: a relation between the values of its signals in the field `ZMod r` of the circuit.  What the
prover may put in a signal assigned by `<--` is not restricted by the assignment, only by the constraints; the assignments themselves are
modelled separately (`…Wit`) for the completeness statements.
-/
set_option linter.unusedSectionVars false

namespace Verif.Gadget
open Verif.GL (F)

/-- `p`, gl.circom L10 (and L31, L51, …) -/
def P : Nat := 0xFFFFFFFF00000001

variable {r : Nat}

/-- the template `Num2Bits(n)` of circomlib's bitify.circom (not in the repository): each `out[i]` is a bit, and they add up to `in` -/
def Num2Bits (n : Nat) (x : ZMod r) (out : Nat → ZMod r) : Prop :=
  (∀ i < n, out i * (out i - 1) = 0) ∧ ∑ i ∈ Finset.range n, out i * 2 ^ i = x

/-- the template `Bits2Num(n)` of circomlib's bitify.circom (not in the repository) -/
def Bits2Num (n : Nat) (b : Nat → ZMod r) (out : ZMod r) : Prop := out = ∑ i ∈ Finset.range n, b i * 2 ^ i

/-- the range checks and the last constraint of every template of gl.circom: `k` has `nb` bits, `out` has 64 bits, `m === k*p + out` -/
def Red (nb : Nat) (m k o : ZMod r) : Prop := (∃ b, Num2Bits nb k b) ∧ (∃ b, Num2Bits 64 o b) ∧ m = k * (P : ZMod r) + o

/-- `GLNorm`, gl.circom L6-21 -/
def GLNorm (i o : ZMod r) : Prop := ∃ k, Red 10 (i + 16 * (P : ZMod r)) k o

/-- `GLCNorm`, gl.circom L23-42 -/
def GLCNorm (i o : Fin 3 → ZMod r) : Prop := ∃ k : Fin 3 → ZMod r, ∀ e, Red 10 (i e + 16 * (P : ZMod r)) (k e) (o e)

/-- `GLMul`, gl.circom L44-66 -/
def GLMul (a b o : ZMod r) : Prop := ∃ m k, m = (a + 16 * (P : ZMod r)) * (b + 16 * (P : ZMod r)) ∧ Red 80 m k o

/-- `GLMulAdd`, gl.circom L68-91 -/
def GLMulAdd (a b c o : ZMod r) : Prop := ∃ m k, m = (a + 16 * (P : ZMod r)) * (b + 16 * (P : ZMod r)) + c ∧ Red 80 m k o

/-- the signals `A` to `G` and `m` of `GLCMul`, gl.circom L104-113 (the same in `GLCMulAdd`, L163-169); the three values of `m` -/
def kara (a b : Fin 3 → ZMod r) : Fin 3 → ZMod r :=
  let A := ((a 0 + 16 * (P : ZMod r)) + (a 1 + 16 * (P : ZMod r))) * ((b 0 + 16 * (P : ZMod r)) + (b 1 + 16 * (P : ZMod r)))
  let B := ((a 0 + 16 * (P : ZMod r)) + (a 2 + 16 * (P : ZMod r))) * ((b 0 + 16 * (P : ZMod r)) + (b 2 + 16 * (P : ZMod r)))
  let C := ((a 1 + 16 * (P : ZMod r)) + (a 2 + 16 * (P : ZMod r))) * ((b 1 + 16 * (P : ZMod r)) + (b 2 + 16 * (P : ZMod r)))
  let D := (a 0 + 16 * (P : ZMod r)) * (b 0 + 16 * (P : ZMod r))
  let E := (a 1 + 16 * (P : ZMod r)) * (b 1 + 16 * (P : ZMod r))
  let F := (a 2 + 16 * (P : ZMod r)) * (b 2 + 16 * (P : ZMod r))
  let G := D - E
  ![C + G - F, A + C - E - E - D, B - G]

/-- `GLCMul`, gl.circom L94-149 -/
def GLCMul (a b o : Fin 3 → ZMod r) : Prop := ∃ m k : Fin 3 → ZMod r, m = kara a b ∧ ∀ e, Red 80 (m e) (k e) (o e)

/-- `GLCMulAdd`, gl.circom L152-208 -/
def GLCMulAdd (a b c o : Fin 3 → ZMod r) : Prop :=
  ∃ m k : Fin 3 → ZMod r, m = (fun e => kara a b e + c e + 16 * (P : ZMod r)) ∧ ∀ e, Red 80 (m e) (k e) (o e)

/-- `GLInv`, gl.circom L231-251 -/
def GLInv (i o : ZMod r) : Prop := ∃ c, GLMul i o c ∧ c = 1 ∧ ∃ b, Num2Bits 64 o b

/-- `GLCInv`, gl.circom L254-308 (the constraints, L289-307) -/
def GLCInv (i o : Fin 3 → ZMod r) : Prop :=
  ∃ c, GLCMul i o c ∧ c 0 = 1 ∧ c 1 = 0 ∧ c 2 = 0 ∧ ∀ e, ∃ b, Num2Bits 64 (o e) b

/-! ### Specification: which Goldilocks element a signal stands for -/

/-- the signal is an integer of absolute value at most `B`, whose class modulo `p` is `x` -/
def Rep (B : ℤ) (s : ZMod r) (x : F) : Prop := ∃ z : ℤ, |z| ≤ B ∧ s = (z : ZMod r) ∧ (z : F) = x

/-- the signal is an integer of 64 bits whose class modulo `p` is `x` -/
def Out (s : ZMod r) (x : F) : Prop := ∃ n : Nat, n < 2 ^ 64 ∧ s = (n : ZMod r) ∧ (n : F) = x

/-- the signal is an integer in `[-16p, 48p)` whose class modulo `p` is `x` -/
def Near (s : ZMod r) (x : F) : Prop := ∃ z : ℤ, -16 * (P : ℤ) ≤ z ∧ z < 48 * (P : ℤ) ∧ s = (z : ZMod r) ∧ (z : F) = x

/-- the signal is the integer below `p` of `x` -/
def canon (x : F) : ZMod r := (x.val : ZMod r)

/-- three signals stand for an element of the cubic extension -/
def Lift3 (R : ZMod r → F → Prop) (s : Fin 3 → ZMod r) (x : Ext3.K) : Prop :=
  ∃ c : Fin 3 → F, (∀ e, R (s e) (c e)) ∧ Ext3.coord (c 0) (c 1) (c 2) = x

/-! ### Bits -/

/-- a bit as a field element -/
def bitZ (b : Bool) : ZMod r := if b then 1 else 0

theorem sum_bits (n v : Nat) : ∑ i ∈ Finset.range n, (bitZ (v.testBit i) : ZMod r) * 2 ^ i = ((v % 2 ^ n : Nat) : ZMod r) := by
  induction n with
  | zero => simp [Nat.mod_one]
  | succ n ih =>
    rw [Finset.sum_range_succ, ih, Nat.mod_pow_succ, Nat.testBit_eq_decide_div_mod_eq]
    push_cast
    rcases Nat.mod_two_eq_zero_or_one (v / 2 ^ n) with h | h <;> simp [bitZ, h]

/-- what `Num2Bits(n)` says: the input is (the class of) a number of `n` bits, the outputs are its bits -/
theorem num2Bits_iff [hp : Fact r.Prime] (n : Nat) (x : ZMod r) (out : Nat → ZMod r) :
    Num2Bits n x out ↔ ∃ v : Nat, v < 2 ^ n ∧ x = (v : ZMod r) ∧ ∀ i < n, out i = bitZ (v.testBit i) := by
  constructor
  · rintro ⟨h1, rfl⟩
    have : ∃ v < 2 ^ n, ∀ i < n, out i = bitZ (v.testBit i) := by
      induction n with
      | zero => exact ⟨0, by simp, by simp⟩
      | succ n ih =>
        obtain ⟨v, hv, hb⟩ := ih fun i hi => h1 i (by omega)
        have hn : out n = 0 ∨ out n = 1 := by
          rcases mul_eq_zero.mp (h1 n (by omega)) with h | h
          · exact .inl h
          · exact .inr (sub_eq_zero.mp h)
        obtain ⟨b, hb'⟩ : ∃ b : Bool, out n = bitZ b := by
          rcases hn with h | h
          · exact ⟨false, h⟩
          · exact ⟨true, h⟩
        refine ⟨2 ^ n * b.toNat + v, ?_, ?_⟩
        · rw [pow_succ]
          have : b.toNat ≤ 1 := by cases b <;> decide
          nlinarith
        · intro i hi
          rw [Nat.testBit_two_pow_mul_add _ hv]
          by_cases h : i < n
          · rw [if_pos h]; exact hb i h
          · have : i = n := by omega
            subst this
            rw [if_neg h, Nat.sub_self, hb']
            cases b <;> simp
    obtain ⟨v, hv, hb⟩ := this
    refine ⟨v, hv, ?_, hb⟩
    rw [Finset.sum_congr rfl fun i hi => by rw [hb i (Finset.mem_range.mp hi)], sum_bits, Nat.mod_eq_of_lt hv]
  · rintro ⟨v, hv, rfl, hb⟩
    refine ⟨fun i hi => ?_, ?_⟩
    · rw [hb i hi]
      cases v.testBit i <;> simp [bitZ]
    · rw [Finset.sum_congr rfl fun i hi => by rw [hb i (Finset.mem_range.mp hi)], sum_bits, Nat.mod_eq_of_lt hv]

theorem num2Bits_ex [Fact r.Prime] (n : Nat) (x : ZMod r) : (∃ b, Num2Bits n x b) ↔ ∃ v : Nat, v < 2 ^ n ∧ x = (v : ZMod r) := by
  constructor
  · rintro ⟨b, h⟩
    obtain ⟨v, hv, e, -⟩ := (num2Bits_iff n x b).mp h
    exact ⟨v, hv, e⟩
  · rintro ⟨v, hv, e⟩
    exact ⟨fun i => bitZ (v.testBit i), (num2Bits_iff n x _).mpr ⟨v, hv, e, fun _ _ => rfl⟩⟩

/-! ### The reduction -/

/-- two integers of small absolute value with the same class are equal -/
theorem int_inj {a b : ℤ} (h : ((a : ZMod r)) = (b : ZMod r)) (hs : |a - b| < r) : a = b := by
  have h2 : ((a - b : ℤ) : ZMod r) = 0 := by rw [Int.cast_sub, h, sub_self]
  rw [ZMod.intCast_zmod_eq_zero_iff_dvd] at h2
  have := Int.eq_zero_of_abs_lt_dvd h2 hs
  omega

theorem gl_cast_P : ((P : Nat) : F) = 0 := by
  have : (P : Nat) = Verif.GL.MODULUS := rfl
  rw [this]; exact ZMod.natCast_self _

/-- soundness of the reduction: `out` has 64 bits and the class of `m` -/
theorem red_sound [Fact r.Prime] (hr : 2 ^ 250 < r) {nb : Nat} (hnb : nb ≤ 100) {m : ℤ} (hm : |m| ≤ 2 ^ 249) {k o : ZMod r}
    (h : Red nb (m : ZMod r) k o) : Out o (m : F) := by
  obtain ⟨h1, h2, h3⟩ := h
  obtain ⟨k, hk, rfl⟩ := (num2Bits_ex _ _).mp h1
  obtain ⟨o, ho, rfl⟩ := (num2Bits_ex _ _).mp h2
  refine ⟨o, ho, rfl, ?_⟩
  have hk' : k < 2 ^ 100 := lt_of_lt_of_le hk (Nat.pow_le_pow_right (by omega) hnb)
  have hm2 : m = (k : ℤ) * P + o := by
    apply int_inj (r := r)
    · rw [h3]; push_cast; ring
    · have := abs_le.mp hm
      have hkz : (k : ℤ) < 2 ^ 100 := by exact_mod_cast hk'
      have hoz : (o : ℤ) < 2 ^ 64 := by exact_mod_cast ho
      have hrz : (2 : ℤ) ^ 250 < r := by exact_mod_cast hr
      have hP : ((P : Nat) : ℤ) = 0xFFFFFFFF00000001 := rfl
      rw [hP, abs_lt]
      constructor <;> omega
  rw [hm2]
  push_cast
  have := gl_cast_P
  rw [this]
  ring

/-- completeness of the reduction: with `k = m \ p` and `out = m % p` -/
theorem red_complete [Fact r.Prime] {nb m : Nat} (hm : m < 2 ^ nb * P) : Red nb (m : ZMod r) ((m / P : Nat) : ZMod r) ((m % P : Nat) : ZMod r) := by
  refine ⟨(num2Bits_ex _ _).mpr ⟨m / P, ?_, rfl⟩, (num2Bits_ex _ _).mpr ⟨m % P, ?_, rfl⟩, ?_⟩
  · exact (Nat.div_lt_iff_lt_mul (by decide)).mpr hm
  · exact lt_trans (Nat.mod_lt _ (by decide)) (by decide)
  · conv_lhs => rw [← Nat.div_add_mod m P]
    push_cast
    ring

theorem Out.rep {s : ZMod r} {x : F} (h : Out s x) : Rep (2 ^ 64) s x := by
  obtain ⟨n, hn, hs, hx⟩ := h
  refine ⟨n, ?_, by exact_mod_cast hs, by exact_mod_cast hx⟩
  rw [abs_of_nonneg (by positivity)]
  exact_mod_cast hn.le

theorem Rep.mono {B B' : ℤ} {s : ZMod r} {x : F} (h : Rep B s x) (hB : B ≤ B') : Rep B' s x := by
  obtain ⟨z, h1, h2, h3⟩ := h
  exact ⟨z, h1.trans hB, h2, h3⟩

theorem Near.rep {s : ZMod r} {x : F} (h : Near s x) : Rep (2 ^ 70) s x := by
  obtain ⟨z, h1, h2, h3, h4⟩ := h
  refine ⟨z, ?_, h3, h4⟩
  have hP : ((P : Nat) : ℤ) = 0xFFFFFFFF00000001 := rfl
  rw [hP] at h1 h2
  rw [abs_le]
  constructor <;> omega

theorem Out.near {s : ZMod r} {x : F} (h : Out s x) : Near s x := by
  obtain ⟨n, hn, hs, hx⟩ := h
  have hP : ((P : Nat) : ℤ) = 0xFFFFFFFF00000001 := rfl
  refine ⟨n, ?_, ?_, by exact_mod_cast hs, by exact_mod_cast hx⟩ <;> rw [hP] <;> omega

theorem Rep.add {A B : ℤ} {s t : ZMod r} {x y : F} (h : Rep A s x) (h' : Rep B t y) : Rep (A + B) (s + t) (x + y) := by
  obtain ⟨z, h1, h2, h3⟩ := h
  obtain ⟨w, g1, g2, g3⟩ := h'
  exact ⟨z + w, (abs_add_le z w).trans (by omega), by rw [h2, g2]; push_cast; rfl, by rw [← h3, ← g3]; push_cast; rfl⟩

theorem canon_out (x : F) : Out (canon x : ZMod r) x := by
  have : NeZero Verif.GL.MODULUS := ⟨by decide⟩
  refine ⟨x.val, lt_trans (ZMod.val_lt x) (by decide), rfl, ?_⟩
  rw [ZMod.natCast_val, ZMod.cast_id]

/-! ### C111: the templates -/

theorem shiftP (a : ℤ) : ((a + 16 * (P : ℤ) : ℤ) : F) = (a : F) := by
  push_cast
  have := gl_cast_P
  rw [this]; ring

theorem absP : |(16 * (P : ℤ))| ≤ 2 ^ 69 := by decide

theorem rep_shift {a : ZMod r} {x : F} (h : Rep (2 ^ 120) a x) : ∃ z : ℤ, |z| ≤ 2 ^ 121 ∧ a + 16 * (P : ZMod r) = (z : ZMod r) ∧ (z : F) = x := by
  obtain ⟨z, h1, rfl, h3⟩ := h
  refine ⟨z + 16 * (P : ℤ), (abs_add_le _ _).trans ?_, by push_cast; rfl, by rw [shiftP, h3]⟩
  have := absP
  omega

theorem abs_mul_le' {a b A B : ℤ} (h1 : |a| ≤ A) (h2 : |b| ≤ B) : |a * b| ≤ A * B := by
  rw [abs_mul]
  exact mul_le_mul h1 h2 (abs_nonneg _) ((abs_nonneg _).trans h1)

/-- `GLNorm`: whatever the prover does, the output has 64 bits and the class of the input -/
theorem glNorm_sound [Fact r.Prime] (hr : 2 ^ 250 < r) {i o : ZMod r} {x : F} (hi : Rep (2 ^ 120) i x) (h : GLNorm i o) : Out o x := by
  obtain ⟨k, h⟩ := h
  obtain ⟨z, hz, e, rfl⟩ := rep_shift hi
  rw [e] at h
  exact red_sound hr (by omega) (hz.trans (by norm_num)) h

theorem glCNorm_sound [Fact r.Prime] (hr : 2 ^ 250 < r) {i o : Fin 3 → ZMod r} {x : Ext3.K} (hi : Lift3 (Rep (2 ^ 120)) i x)
    (h : GLCNorm i o) : Lift3 Out o x := by
  obtain ⟨k, h⟩ := h
  obtain ⟨c, hc, rfl⟩ := hi
  exact ⟨c, fun e => glNorm_sound hr (hc e) ⟨k e, h e⟩, rfl⟩

/-- `GLMul`: the output has 64 bits and the class of the product -/
theorem glMul_sound [Fact r.Prime] (hr : 2 ^ 250 < r) {a b o : ZMod r} {x y : F} (ha : Rep (2 ^ 120) a x) (hb : Rep (2 ^ 120) b y)
    (h : GLMul a b o) : Out o (x * y) := by
  obtain ⟨m, k, rfl, h⟩ := h
  obtain ⟨u, hu, e, rfl⟩ := rep_shift ha
  obtain ⟨v, hv, f, rfl⟩ := rep_shift hb
  rw [e, f, ← Int.cast_mul] at h
  rw [← Int.cast_mul]
  exact red_sound hr (by omega) ((abs_mul_le' hu hv).trans (by norm_num)) h

/-- `GLMulAdd` -/
theorem glMulAdd_sound [Fact r.Prime] (hr : 2 ^ 250 < r) {a b c o : ZMod r} {x y z : F} (ha : Rep (2 ^ 120) a x)
    (hb : Rep (2 ^ 120) b y) (hc : Rep (2 ^ 120) c z) (h : GLMulAdd a b c o) : Out o (x * y + z) := by
  obtain ⟨m, k, rfl, h⟩ := h
  obtain ⟨u, hu, e, rfl⟩ := rep_shift ha
  obtain ⟨v, hv, f, rfl⟩ := rep_shift hb
  obtain ⟨w, hw, rfl, rfl⟩ := hc
  rw [e, f, ← Int.cast_mul, ← Int.cast_add] at h
  rw [← Int.cast_mul, ← Int.cast_add]
  refine red_sound hr (by omega) ((abs_add_le _ _).trans ((add_le_add (abs_mul_le' hu hv) hw).trans (by norm_num))) h

/-- the integer behind `m` in `GLCMul` -/
def karaZ (u v : Fin 3 → ℤ) : Fin 3 → ℤ :=
  ![u 0 * v 0 + u 1 * v 2 + u 2 * v 1, u 0 * v 1 + u 1 * v 0 + u 1 * v 2 + u 2 * v 1 + u 2 * v 2,
    u 0 * v 2 + u 1 * v 1 + u 2 * v 0 + u 2 * v 2]

theorem kara_eq {a b : Fin 3 → ZMod r} {u v : Fin 3 → ℤ} (ha : ∀ e, a e + 16 * (P : ZMod r) = (u e : ZMod r))
    (hb : ∀ e, b e + 16 * (P : ZMod r) = (v e : ZMod r)) (e : Fin 3) : kara a b e = (karaZ u v e : ZMod r) := by
  unfold kara
  rw [ha 0, ha 1, ha 2, hb 0, hb 1, hb 2]
  fin_cases e <;> simp [karaZ] <;> ring

theorem karaZ_abs {u v : Fin 3 → ℤ} {A B : ℤ} (hu : ∀ e, |u e| ≤ A) (hv : ∀ e, |v e| ≤ B) (e : Fin 3) : |karaZ u v e| ≤ 5 * (A * B) := by
  have hA : 0 ≤ A := (abs_nonneg _).trans (hu 0)
  have hB : 0 ≤ B := (abs_nonneg _).trans (hv 0)
  have hAB := mul_nonneg hA hB
  have h := fun i j => abs_le.mp (abs_mul_le' (hu i) (hv j))
  have h01 := h 0 1; have h00 := h 0 0; have h02 := h 0 2
  have h10 := h 1 0; have h11 := h 1 1; have h12 := h 1 2
  have h20 := h 2 0; have h21 := h 2 1; have h22 := h 2 2
  rw [abs_le]
  fin_cases e <;> simp only [karaZ, Matrix.cons_val_zero, Matrix.cons_val_one, Matrix.cons_val, Fin.zero_eta, Fin.mk_one, Fin.reduceFinMk] <;>
    constructor <;> linarith

theorem karaZ_coord (u v : Fin 3 → ℤ) : Ext3.coord (karaZ u v 0 : F) (karaZ u v 1 : F) (karaZ u v 2 : F) =
    Ext3.coord (u 0 : F) (u 1 : F) (u 2 : F) * Ext3.coord (v 0 : F) (v 1 : F) (v 2 : F) := by
  rw [Ext3.coord_mul]
  simp only [karaZ, Matrix.cons_val_zero, Matrix.cons_val_one, Matrix.cons_val, Int.cast_add, Int.cast_mul]

theorem rep3_shift {a : Fin 3 → ZMod r} {x : Ext3.K} (h : Lift3 (Rep (2 ^ 120)) a x) :
    ∃ u : Fin 3 → ℤ, (∀ e, |u e| ≤ 2 ^ 121) ∧ (∀ e, a e + 16 * (P : ZMod r) = (u e : ZMod r)) ∧ Ext3.coord (u 0 : F) (u 1 : F) (u 2 : F) = x := by
  obtain ⟨c, hc, rfl⟩ := h
  choose u h1 h2 h3 using fun e => rep_shift (hc e)
  exact ⟨u, h1, h2, by rw [h3, h3, h3]⟩

/-- `GLCMul`: the outputs have 64 bits and stand for the product in the cubic extension -/
theorem glCMul_sound [Fact r.Prime] (hr : 2 ^ 250 < r) {a b o : Fin 3 → ZMod r} {x y : Ext3.K} (ha : Lift3 (Rep (2 ^ 120)) a x)
    (hb : Lift3 (Rep (2 ^ 120)) b y) (h : GLCMul a b o) : Lift3 Out o (x * y) := by
  obtain ⟨m, k, rfl, h⟩ := h
  obtain ⟨u, hu, e, rfl⟩ := rep3_shift ha
  obtain ⟨v, hv, f, rfl⟩ := rep3_shift hb
  refine ⟨fun e => (karaZ u v e : F), fun i => ?_, karaZ_coord u v⟩
  have hi := h i
  rw [kara_eq e f] at hi
  exact red_sound hr (by omega) ((karaZ_abs hu hv i).trans (by norm_num)) hi

/-- `GLCMulAdd` -/
theorem glCMulAdd_sound [Fact r.Prime] (hr : 2 ^ 250 < r) {a b c o : Fin 3 → ZMod r} {x y z : Ext3.K} (ha : Lift3 (Rep (2 ^ 120)) a x)
    (hb : Lift3 (Rep (2 ^ 120)) b y) (hc : Lift3 (Rep (2 ^ 120)) c z) (h : GLCMulAdd a b c o) : Lift3 Out o (x * y + z) := by
  obtain ⟨m, k, rfl, h⟩ := h
  obtain ⟨u, hu, e, rfl⟩ := rep3_shift ha
  obtain ⟨v, hv, f, rfl⟩ := rep3_shift hb
  obtain ⟨w, hw, g, rfl⟩ := rep3_shift hc
  refine ⟨fun e => ((karaZ u v e + w e : ℤ) : F), fun i => ?_, ?_⟩
  · have hi := h i
    dsimp only at hi
    rw [kara_eq e f, add_assoc, g, ← Int.cast_add] at hi
    exact red_sound hr (by omega) ((abs_add_le _ _).trans ((add_le_add (karaZ_abs hu hv i) (hw i)).trans (by norm_num))) hi
  · rw [← karaZ_coord]
    simp only [Ext3.coord, Int.cast_add, map_add]
    ring

theorem num64_out [Fact r.Prime] {o : ZMod r} (h : ∃ b, Num2Bits 64 o b) : ∃ x : F, Out o x := by
  obtain ⟨n, hn, rfl⟩ := (num2Bits_ex _ _).mp h
  exact ⟨n, n, hn, rfl, rfl⟩

theorem out_small (hr : 2 ^ 250 < r) {n : Nat} (hn : n < 2 ^ 64) {x : F} (h : Out ((n : Nat) : ZMod r) x) : x = (n : F) := by
  obtain ⟨m, hm, e, rfl⟩ := h
  rw [ZMod.natCast_eq_natCast_iff', Nat.mod_eq_of_lt (by omega), Nat.mod_eq_of_lt (by omega)] at e
  rw [e]

/-- `GLInv`: the input is not zero and the output stands for its inverse -/
theorem glInv_sound [Fact r.Prime] (hr : 2 ^ 250 < r) {i o : ZMod r} {x : F} (hi : Rep (2 ^ 120) i x) (h : GLInv i o) :
    x ≠ 0 ∧ Out o x⁻¹ := by
  obtain ⟨c, h1, rfl, h3⟩ := h
  obtain ⟨y, hy⟩ := num64_out h3
  have := glMul_sound hr hi (hy.rep.mono (by norm_num)) h1
  have e : x * y = 1 := by
    rw [show (1 : ZMod r) = ((1 : Nat) : ZMod r) by simp] at this
    have := out_small hr (by norm_num) this
    simpa using this
  have hx : x ≠ 0 := by rintro rfl; rw [zero_mul] at e; exact zero_ne_one e
  refine ⟨hx, ?_⟩
  rw [← eq_inv_of_mul_eq_one_right e]
  exact hy

/-- `GLCInv` -/
theorem glCInv_sound [Fact r.Prime] (hr : 2 ^ 250 < r) {i o : Fin 3 → ZMod r} {x : Ext3.K} (hi : Lift3 (Rep (2 ^ 120)) i x)
    (h : GLCInv i o) : x ≠ 0 ∧ Lift3 Out o x⁻¹ := by
  obtain ⟨c, h1, c0, c1, c2, h3⟩ := h
  choose y hy using fun e => num64_out (h3 e)
  have hy' : Lift3 Out o (Ext3.coord (y 0) (y 1) (y 2)) := ⟨y, hy, rfl⟩
  have := glCMul_sound hr hi ⟨y, fun e => (hy e).rep.mono (by norm_num), rfl⟩ h1
  obtain ⟨d, hd, e⟩ := this
  have d0 : d 0 = 1 := by
    have := hd 0
    rw [c0, show (1 : ZMod r) = ((1 : Nat) : ZMod r) by simp] at this
    simpa using out_small hr (by norm_num) this
  have d1 : d 1 = 0 := by
    have := hd 1
    rw [c1, show (0 : ZMod r) = ((0 : Nat) : ZMod r) by simp] at this
    simpa using out_small hr (by norm_num) this
  have d2 : d 2 = 0 := by
    have := hd 2
    rw [c2, show (0 : ZMod r) = ((0 : Nat) : ZMod r) by simp] at this
    simpa using out_small hr (by norm_num) this
  have one : Ext3.coord 1 0 0 = (1 : Ext3.K) := by simp [Ext3.coord]
  rw [d0, d1, d2, one] at e
  have hx : x ≠ 0 := by rintro rfl; rw [zero_mul] at e; exact zero_ne_one e.symm
  refine ⟨hx, ?_⟩
  rw [← eq_inv_of_mul_eq_one_right e.symm]
  exact hy'

end Verif.Gadget
