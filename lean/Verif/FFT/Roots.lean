import Verif.FFT.Props
import Verif.GL.Lemmas2
import Mathlib.Algebra.Algebra.Basic
import Mathlib.GroupTheory.OrderOfElement
import Mathlib.Tactic.NormNum.Prime

/-!
# Root-of-unity tables, coset shift, connection multipliers: models and properties C22, C23

`/repo/starky/src/constant.rs` L52-69 and `/repo/starky/src/helper.rs` L16-23.
-/
namespace Verif.Roots
open Verif.GL (F MODULUS)

/-- `constant.rs` L55-60: `nqr.exp(rem)` with `nqr = 7`, `rem = 2^32 - 1` (C04: `exp` is the power). -/
def mgTop : F := 7 ^ (2 ^ 32 - 1)

/-- `constant.rs` L63-65: the loop `w[n] = w[n+1] * w[n+1]` downwards from `w[32]`; `sqDown x d` is the entry
`d` places below the top entry `x`. -/
def sqDown (x : F) : Nat → F
  | 0 => x
  | d + 1 => sqDown x d * sqDown x d

/-- `constant.rs` L54-69: `MG.0[n]` for `n ≤ 32` (indexing above panics). -/
def mg (n : Nat) : F := sqDown mgTop (32 - n)

/-- `constant.rs` L61, L65: `MG.1[n]`. -/
def mgInv (n : Nat) : F := sqDown mgTop⁻¹ (32 - n)

/-- `constant.rs` L52 `SHIFT`. -/
def shift : F := 49

/-- `constant.rs` L53 `SHIFT_INV`. -/
def shiftInv : F := shift⁻¹

/-- `helper.rs` L18: `ks[0]`. -/
def kMul : F := 12275445934081160404

/-- `helper.rs` L19-21: the loop `ks[i] = ks[i-1] * ks[0]`. -/
def ksLoop (prev : F) : Nat → List F
  | 0 => []
  | n + 1 => prev :: ksLoop (prev * kMul) n

/-- `helper.rs` L16-23 `get_ks(n)`; `ks[0] = ..` panics for `n = 0`. -/
def getKs (n : Nat) : Option (List F) := if n = 0 then none else some (ksLoop kMul n)

theorem mgTop_val : mgTop = ((1753635133440165772 : Nat) : F) := by
  have h := Verif.GL.zmod_pow_eq MODULUS 7 (2 ^ 32 - 1) 1753635133440165772 (by norm_num) (by decide +kernel)
  have e7 : (7 : F) = ((7 : Nat) : F) := by simp
  rw [mgTop, e7]; exact h

theorem natCast_ne {a b : Nat} (ha : a < MODULUS) (hb : b < MODULUS) (h : a ≠ b) : ((a : Nat) : F) ≠ ((b : Nat) : F) :=
  fun hc => h (Verif.GL.natCast_inj_of_lt ha hb hc)

theorem mgTop_order : orderOf mgTop = 2 ^ 32 := by
  apply orderOf_eq_prime_pow (p := 2) (n := 31)
  · rw [mgTop_val, Verif.GL.zmod_pow_eq MODULUS _ (2 ^ 31) 18446744069414584320 (by norm_num) (by decide +kernel)]
    have := natCast_ne (a := 18446744069414584320) (b := 1) (by norm_num) (by norm_num) (by norm_num)
    simpa using this
  · rw [mgTop_val, Verif.GL.zmod_pow_eq MODULUS _ (2 ^ (31 + 1)) 1 (by norm_num) (by decide +kernel)]
    simp

theorem sqDown_eq (x : F) (d : Nat) : sqDown x d = x ^ 2 ^ d := by
  induction d with
  | zero => simp [sqDown]
  | succ d ih => rw [sqDown, ih, ← pow_add]; congr 1; rw [pow_succ]; omega

/-- C22: `MG.0[k]` has multiplicative order exactly `2^k`, for every `k ≤ 32`. -/
theorem mg_order {k : Nat} (hk : k ≤ 32) : orderOf (mg k) = 2 ^ k := by
  rw [mg, sqDown_eq, orderOf_pow_of_dvd (by positivity), mgTop_order, Nat.pow_div (by omega) (by norm_num)]
  · congr 1; omega
  · rw [mgTop_order]; exact pow_dvd_pow 2 (by omega)

/-- C22: each entry is the square of the next. -/
theorem mg_sq {k : Nat} (hk : k < 32) : mg (k + 1) * mg (k + 1) = mg k := by
  rw [mg, mg, show 32 - k = (32 - (k + 1)) + 1 by omega, sqDown]

/-- C22: `MG.1` holds the inverses. -/
theorem mg_inv (k : Nat) : mg k * mgInv k = 1 := by
  have : mgTop ≠ 0 := by
    intro h
    have := mgTop_order
    rw [h, orderOf_zero] at this
    norm_num at this
  rw [mg, mgInv, sqDown_eq, sqDown_eq, ← mul_pow, mul_inv_cancel₀ this, one_pow]

theorem two_ne : (2 : F) ≠ 0 := by
  have := natCast_ne (a := 2) (b := 0) (by norm_num) (by norm_num) (by norm_num)
  simpa using this

/-- The table satisfies what the FFT needs (`FFT.Roots`), also after embedding in an extension field. -/
theorem roots_mg {A : Type} [Field A] [Algebra F A] {bits : Nat} (hb : bits ≤ 32) :
    FFT.Roots (fun k => algebraMap F A (mg k)) bits := by
  refine ⟨?_, fun s hs => ?_, fun s hs => ?_⟩
  · have : mg 0 = 1 := by
      have := mg_order (k := 0) (by norm_num)
      rwa [pow_zero, orderOf_eq_one_iff] at this
    simp [this]
  · rw [← map_pow, pow_two, mg_sq (by omega)]
  · rw [← map_pow]
    have ho := mg_order (k := s + 1) (by omega)
    have h1 : (mg (s + 1) ^ 2 ^ s) ^ 2 = 1 := by
      rw [← pow_mul, ← pow_succ, ← ho, pow_orderOf_eq_one]
    have h2 : mg (s + 1) ^ 2 ^ s ≠ 1 := by
      intro h
      have hd := orderOf_dvd_of_pow_eq_one h
      rw [ho] at hd
      have := Nat.le_of_dvd (by positivity) hd
      rw [pow_succ] at this
      have : 0 < 2 ^ s := by positivity
      omega
    rcases sq_eq_one_iff_of_ne h1 h2 with h
    rw [h]; simp
where
  sq_eq_one_iff_of_ne {x : F} (h1 : x ^ 2 = 1) (h2 : x ≠ 1) : x = -1 := by
    have : (x - 1) * (x + 1) = 0 := by linear_combination h1
    rcases mul_eq_zero.1 this with h | h
    · exact absurd (sub_eq_zero.1 h) h2
    · exact eq_neg_of_add_eq_zero_left h

theorem mg_pow_top {m : Nat} (hm : m ≤ 32) : mg m ^ 2 ^ 32 = 1 := by
  rw [show 32 = m + (32 - m) by omega, pow_add, pow_mul, ← mg_order hm, pow_orderOf_eq_one, one_pow]

theorem shift_pow : shift ^ 2 ^ 32 ≠ 1 := by
  have h := Verif.GL.zmod_pow_eq MODULUS 49 (2 ^ 32) 4756475762779100925 (by norm_num) (by decide +kernel)
  have e : shift = ((49 : Nat) : F) := by simp [shift]
  rw [e, h]
  have := natCast_ne (a := 4756475762779100925) (b := 1) (by norm_num) (by norm_num) (by norm_num)
  simpa using this

/-- C22: no point `49 * w^i` of an evaluation coset is a root of `x^N - 1`, `N = 2^k ≤ 2^32`, so the vanishing
polynomial is invertible everywhere on it. -/
theorem coset_avoids_subgroup {k m : Nat} (hk : k ≤ 32) (hm : m ≤ 32) (i : Nat) : (shift * mg m ^ i) ^ 2 ^ k ≠ 1 := by
  intro h
  have h2 : ((shift * mg m ^ i) ^ 2 ^ k) ^ 2 ^ (32 - k) = 1 := by rw [h, one_pow]
  rw [← pow_mul, ← pow_add, show k + (32 - k) = 32 by omega, mul_pow, ← pow_mul, mul_comm i, pow_mul, mg_pow_top hm, one_pow,
    mul_one] at h2
  exact shift_pow h2

/-- C22, in an extension field: `x^N` differs from 1 for every coset point. -/
theorem coset_avoids_subgroup_ext {A : Type} [Field A] [Algebra F A] {k m : Nat} (hk : k ≤ 32) (hm : m ≤ 32) (i : Nat) :
    (algebraMap F A shift * algebraMap F A (mg m) ^ i) ^ 2 ^ k ≠ 1 := by
  rw [← map_pow, ← map_mul, ← map_pow]
  intro h
  exact coset_avoids_subgroup hk hm i ((algebraMap F A).injective (by rw [h, map_one]))

theorem shift_inv : shift * shiftInv = 1 := by
  apply mul_inv_cancel₀
  intro h
  have := coset_avoids_subgroup (k := 0) (m := 0) (by norm_num) (by norm_num) 0
  have h49 := natCast_ne (a := 49) (b := 0) (by norm_num) (by norm_num) (by norm_num)
  exact h49 (by rw [shift] at h; exact_mod_cast h)

example : orderOf (mg 5) = 2 ^ 5 := mg_order (by norm_num)

/-! ## C23 -/

theorem ksLoop_get (prev : F) (n i : Nat) (h : i < n) : (ksLoop prev n)[i]? = some (prev * kMul ^ i) := by
  induction n generalizing prev i with
  | zero => omega
  | succ n ih =>
    cases i with
    | zero => simp [ksLoop]
    | succ i => simp only [ksLoop, List.getElem?_cons_succ]; rw [ih _ _ (by omega)]; congr 1; ring

theorem ksLoop_length (prev : F) (n : Nat) : (ksLoop prev n).length = n := by
  induction n generalizing prev with
  | zero => rfl
  | succ n ih => simp [ksLoop, ih]

/-- C23: `get_ks(n)` is `[k, k^2, .., k^n]`. -/
theorem getKs_spec {n : Nat} (hn : 0 < n) :
    ∃ l, getKs n = some l ∧ l.length = n ∧ ∀ i < n, l[i]? = some (kMul ^ (i + 1)) := by
  refine ⟨_, by rw [getKs, if_neg (by omega)], ksLoop_length _ _, fun i hi => ?_⟩
  rw [ksLoop_get _ _ _ hi, pow_succ']

private theorem factors {q : Nat} (hq : q.Prime) (h : q ∣ 4294967295) : q = 3 ∨ q = 5 ∨ q = 17 ∨ q = 257 ∨ q = 65537 := by
  have hf : 4294967295 = 3 * (5 * (17 * (257 * 65537))) := by norm_num
  rw [hf] at h
  have h257 : Nat.Prime 257 := by norm_num
  have h65537 : Nat.Prime 65537 := by norm_num
  have h17 : Nat.Prime 17 := by norm_num
  rcases (Nat.Prime.dvd_mul hq).1 h with h | h
  · exact Or.inl ((Nat.prime_dvd_prime_iff_eq hq Nat.prime_three).1 h)
  rcases (Nat.Prime.dvd_mul hq).1 h with h | h
  · exact Or.inr (Or.inl ((Nat.prime_dvd_prime_iff_eq hq Nat.prime_five).1 h))
  rcases (Nat.Prime.dvd_mul hq).1 h with h | h
  · exact Or.inr (Or.inr (Or.inl ((Nat.prime_dvd_prime_iff_eq hq h17).1 h)))
  rcases (Nat.Prime.dvd_mul hq).1 h with h | h
  · exact Or.inr (Or.inr (Or.inr (Or.inl ((Nat.prime_dvd_prime_iff_eq hq h257).1 h))))
  · exact Or.inr (Or.inr (Or.inr (Or.inr ((Nat.prime_dvd_prime_iff_eq hq h65537).1 h))))

theorem kMul_pow_order : orderOf (kMul ^ 2 ^ 32) = 4294967295 := by
  have e : kMul = ((12275445934081160404 : Nat) : F) := by simp [kMul]
  have e2 : kMul ^ 2 ^ 32 = ((12275445934081160404 : Nat) : F) := by
    rw [e, Verif.GL.zmod_pow_eq MODULUS _ (2 ^ 32) 12275445934081160404 (by norm_num) (by decide +kernel)]
  rw [e2]
  apply orderOf_eq_of_pow_and_pow_div_prime (by norm_num)
  · rw [Verif.GL.zmod_pow_eq MODULUS _ 4294967295 1 (by norm_num) (by decide +kernel)]; simp
  · intro q hq hd
    have key : ∀ e v, e < 2 ^ 64 → Verif.GL.powMod MODULUS 12275445934081160404 e = v → v ≠ 1 → v < MODULUS →
        ((12275445934081160404 : Nat) : F) ^ e ≠ 1 := by
      intro e v he hv h1 hlt
      rw [Verif.GL.zmod_pow_eq MODULUS _ e v he hv]
      have := natCast_ne hlt (b := 1) (by norm_num) h1
      simpa using this
    rcases factors hq hd with rfl | rfl | rfl | rfl | rfl
    all_goals exact key _ _ (by norm_num) rfl (by decide +kernel) (by decide +kernel)

/-- C23: cells `(column i, row a)` of a connection argument get pairwise distinct labels `k^i * w^a`
(`k^0 = 1` for the first column, `get_ks` for the others): equal labels force equal columns and equal rows. It holds
for every domain `2^m ≤ 2^32` and any number of columns up to `2^32 - 2` (the compressor uses 12). -/
theorem connection_labels_distinct {m i j a b : Nat} (hm : m ≤ 32) (hi : i < 4294967295) (hj : j < 4294967295)
    (ha : a < 2 ^ m) (hb : b < 2 ^ m) (h : kMul ^ i * mg m ^ a = kMul ^ j * mg m ^ b) : i = j ∧ a = b := by
  have h3 : mg m ^ 2 ^ 32 = 1 := mg_pow_top hm
  have h4 : (kMul ^ 2 ^ 32) ^ i = (kMul ^ 2 ^ 32) ^ j := by
    have := congrArg (· ^ 2 ^ 32) h
    simp only [mul_pow] at this
    rw [← pow_mul (mg m), ← pow_mul (mg m), mul_comm a, mul_comm b, pow_mul (mg m), pow_mul (mg m), h3, one_pow, one_pow,
      mul_one, mul_one, ← pow_mul, ← pow_mul, mul_comm i, mul_comm j, pow_mul, pow_mul] at this
    exact this
  have hij : i = j := pow_injOn_Iio_orderOf (by rw [kMul_pow_order]; exact hi) (by rw [kMul_pow_order]; exact hj) h4
  subst hij
  refine ⟨rfl, ?_⟩
  have hk0 : kMul ^ i ≠ 0 := by
    apply pow_ne_zero
    intro hk
    have := kMul_pow_order
    rw [hk, zero_pow (by norm_num), orderOf_zero] at this
    norm_num at this
  have := mul_left_cancel₀ hk0 h
  exact pow_injOn_Iio_orderOf (by rw [mg_order hm]; exact ha) (by rw [mg_order hm]; exact hb) this

example : ∃ l, getKs 11 = some l ∧ l.length = 11 ∧ l[0]? = some kMul := by
  obtain ⟨l, h1, h2, h3⟩ := getKs_spec (n := 11) (by norm_num)
  exact ⟨l, h1, h2, by simpa using h3 0 (by norm_num)⟩

end Verif.Roots
