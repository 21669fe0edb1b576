import Mathlib.NumberTheory.LucasPrimality
import Mathlib.Tactic.NormNum.Prime
import Mathlib.Tactic.Ring
import Verif.GL.Model

/-!
# The Goldilocks modulus is prime; kernel-friendly modular exponentiation

Nothing here models code: these are mathematical facts about the constant `MODULUS`.
-/
namespace Verif.GL

/-- Square-and-multiply modular power, `x^e * acc mod m` for `e < 2^fuel`
(a computation device for the kernel). -/
def powModAux (m : Nat) : Nat → Nat → Nat → Nat → Nat
  | 0, _, _, acc => acc % m
  | f + 1, x, e, acc =>
    powModAux m f (x * x % m) (e / 2) (if e % 2 = 1 then acc * x % m else acc)

theorem powModAux_eq (m f x e acc : Nat) (h : e < 2 ^ f) :
    powModAux m f x e acc = x ^ e * acc % m := by
  induction f generalizing x e acc with
  | zero => simp at h; subst h; simp [powModAux]
  | succ f ih =>
    rw [powModAux, ih _ _ _ (by rw [pow_succ] at h; omega)]
    have hx : (x * x % m) ^ (e / 2) ≡ x ^ (2 * (e / 2)) [MOD m] := by
      have : x * x % m ≡ x * x [MOD m] := Nat.mod_modEq _ _
      have := this.pow (e / 2)
      rw [pow_mul, pow_two]; exact this
    split
    · next h1 =>
      have : x ^ e = x ^ (2 * (e / 2)) * x := by
        rw [← pow_succ]; congr 1; omega
      rw [this]
      have h2 : acc * x % m ≡ acc * x [MOD m] := Nat.mod_modEq _ _
      have := hx.mul h2
      rw [show x ^ (2 * (e / 2)) * x * acc = x ^ (2 * (e / 2)) * (acc * x) by ring]
      exact this
    · next h1 =>
      have : e = 2 * (e / 2) := by omega
      conv_rhs => rw [this]
      exact hx.mul_right acc

/-- `x^e mod m` for `e < 2^64`. -/
def powMod (m x e : Nat) : Nat := powModAux m 64 x e 1

theorem powMod_eq (m x e : Nat) (h : e < 2 ^ 64) : powMod m x e = x ^ e % m := by
  rw [powMod, powModAux_eq _ _ _ _ _ h, mul_one]

theorem zmod_pow_eq (m x e v : Nat) (h : e < 2 ^ 64) (hv : powMod m x e = v) :
    ((x : ZMod m)) ^ e = (v : ZMod m) := by
  rw [← hv, powMod_eq _ _ _ h]; simp

/-- `MODULUS = 2^64 - 2^32 + 1` is prime (Lucas certificate with the generator 7). -/
theorem prime_MODULUS : Nat.Prime MODULUS := by
  have key : ∀ e v, e < 2 ^ 64 → powMod MODULUS 7 e = v → v ≠ 1 → v < MODULUS →
      ((7 : Nat) : ZMod MODULUS) ^ e ≠ 1 := by
    intro e v he hv h1 hlt hc
    rw [zmod_pow_eq _ _ _ _ he hv, ← Nat.cast_one, ZMod.natCast_eq_natCast_iff', Nat.mod_eq_of_lt hlt,
      Nat.mod_eq_of_lt (by norm_num)] at hc
    exact h1 hc
  refine lucas_primality MODULUS ((7 : Nat) : ZMod MODULUS) ?_ ?_
  · rw [zmod_pow_eq MODULUS 7 (MODULUS - 1) 1 (by norm_num) (by decide +kernel)]; simp
  · intro q hq hdvd
    have hfac : MODULUS - 1 = 2 ^ 32 * (3 * (5 * (17 * (257 * 65537)))) := by norm_num
    rw [hfac] at hdvd
    have h2 := Nat.prime_two
    have h3 := Nat.prime_three
    have h5 := Nat.prime_five
    have h17 : Nat.Prime 17 := by norm_num
    have h257 : Nat.Prime 257 := by norm_num
    have h65537 : Nat.Prime 65537 := by norm_num
    have cases : q = 2 ∨ q = 3 ∨ q = 5 ∨ q = 17 ∨ q = 257 ∨ q = 65537 := by
      rcases (Nat.Prime.dvd_mul hq).1 hdvd with h | h
      · exact Or.inl ((Nat.prime_dvd_prime_iff_eq hq h2).1 (hq.dvd_of_dvd_pow h))
      rcases (Nat.Prime.dvd_mul hq).1 h with h | h
      · exact Or.inr (Or.inl ((Nat.prime_dvd_prime_iff_eq hq h3).1 h))
      rcases (Nat.Prime.dvd_mul hq).1 h with h | h
      · exact Or.inr (Or.inr (Or.inl ((Nat.prime_dvd_prime_iff_eq hq h5).1 h)))
      rcases (Nat.Prime.dvd_mul hq).1 h with h | h
      · exact Or.inr (Or.inr (Or.inr (Or.inl ((Nat.prime_dvd_prime_iff_eq hq h17).1 h))))
      rcases (Nat.Prime.dvd_mul hq).1 h with h | h
      · exact Or.inr (Or.inr (Or.inr (Or.inr (Or.inl ((Nat.prime_dvd_prime_iff_eq hq h257).1 h)))))
      · exact Or.inr (Or.inr (Or.inr (Or.inr (Or.inr ((Nat.prime_dvd_prime_iff_eq hq h65537).1 h)))))
    rcases cases with rfl | rfl | rfl | rfl | rfl | rfl
    all_goals
      exact key _ _ (by norm_num) rfl (by decide +kernel) (by decide +kernel)

instance : Fact (Nat.Prime MODULUS) := ⟨prime_MODULUS⟩

end Verif.GL
