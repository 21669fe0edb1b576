import Verif.GL.Lemmas
import Mathlib.NumberTheory.LegendreSymbol.Basic

/-! # Powers, inverse, square roots: helper lemmas -/
namespace Verif.GL

/-- `y` is a canonical limb denoting the `k`-th power of what `x` denotes. -/
def IsPow (x k y : Nat) : Prop := y < MODULUS ∧ toF y = toF x ^ k

theorem IsPow.mul {x i j a b : Nat} (ha : IsPow x i a) (hb : IsPow x j b) :
    IsPow x (i + j) (mul a b) :=
  ⟨mul_lt ha.1 hb.1, by rw [toF_mul ha.1 hb.1, ha.2, hb.2, pow_add]⟩

theorem IsPow.square {x i a : Nat} (ha : IsPow x i a) : IsPow x (i + i) (square a) := ha.mul ha

theorem IsPow.self {x : Nat} (hx : x < MODULUS) : IsPow x 1 x := ⟨hx, by simp⟩

theorem IsPow.cast {x i j a : Nat} (h : IsPow x i a) (e : i = j) : IsPow x j a := e ▸ h

theorem iter_succ {α : Type} (f : α → α) (n : Nat) (x : α) : iter f (n + 1) x = iter f n (f x) := rfl

theorem IsPow.iter {x i a : Nat} (n : Nat) (ha : IsPow x i a) :
    IsPow x (i * 2 ^ n) (GL.iter GL.square n a) := by
  induction n generalizing a i with
  | zero => exact ha.cast (by simp)
  | succ n ih =>
    rw [iter_succ]
    exact (ih ha.square).cast (by rw [pow_succ]; ring)

theorem IsPow.sqn {x i a : Nat} (n : Nat) (ha : IsPow x i a) : IsPow x (i * 2 ^ n) (sqn n a) :=
  ha.iter n

theorem IsPow.expAcc {x i j a b : Nat} (n : Nat) (ha : IsPow x i a) (hb : IsPow x j b) :
    IsPow x (i * 2 ^ n + j) (expAcc n a b) := (ha.sqn n).mul hb

/-- The addition chain of `inverse` computes the power `p - 2`. -/
theorem inverse_isPow {x : Nat} (hx : x < MODULUS) :
    ∃ y, inverse x = some y ∧ IsPow x (MODULUS - 2) y := by
  have s := IsPow.self hx
  have h2 := s.square
  have h3 := h2.mul s
  have h6 := h3.square
  have t3 : IsPow x 7 _ := (h6.mul s).cast (by norm_num)
  have t6 : IsPow x 63 _ := (t3.expAcc 3 t3).cast (by norm_num)
  have t12 : IsPow x 4095 _ := (t6.expAcc 6 t6).cast (by norm_num)
  have t24 : IsPow x (2 ^ 24 - 1) _ := (t12.expAcc 12 t12).cast (by norm_num)
  have t30 : IsPow x (2 ^ 30 - 1) _ := (t24.expAcc 6 t6).cast (by norm_num)
  have t31 : IsPow x (2 ^ 31 - 1) _ := (t30.square.mul s).cast (by norm_num)
  have t63 : IsPow x ((2 ^ 31 - 1) * (2 ^ 32 + 1)) _ := (t31.expAcc 32 t31).cast (by norm_num)
  have fin : IsPow x (18446744069414584321 - 2) _ := (t63.square.mul s).cast (by norm_num)
  exact ⟨_, rfl, fin⟩

theorem pow_pm2_mul {a : F} (ha : a ≠ 0) : a * a ^ (MODULUS - 2) = 1 := by
  have := ZMod.pow_card_sub_one_eq_one ha
  rw [← pow_succ', show MODULUS - 2 + 1 = MODULUS - 1 by norm_num]
  exact this

/-! ### exp -/

theorem xor_mask_ones {r b : Nat} (hr : r < 2 ^ 64) (hb : b < 2 ^ 64) :
    r ^^^ ((2 ^ 64 - 1) &&& (r ^^^ b)) = b := by
  rw [Nat.and_comm, Nat.and_two_pow_sub_one_eq_mod, Nat.mod_eq_of_lt (Nat.xor_lt_two_pow hr hb),
    ← Nat.xor_assoc, Nat.xor_self, Nat.zero_xor]

theorem expStep_eq {x power r i : Nat} (hx : x < MODULUS) (hr : r < MODULUS) :
    expStep x power r i = if (power >>> i) % 2 = 1 then mul (square r) x else square r := by
  have h1 : square r < 2 ^ 64 := lt_W (square_lt hr)
  have h2 : mul (square r) x < 2 ^ 64 := lt_W (mul_lt (square_lt hr) hx)
  have hdef : expStep x power r i = square r ^^^ ((if (power >>> i) &&& 1 = 1 then W - 1 else 0) &&&
      (square r ^^^ mul (square r) x)) := rfl
  rw [hdef, Nat.and_one_is_mod]
  split
  · exact xor_mask_ones h1 h2
  · simp

theorem shiftRight_split (e n : Nat) : e >>> n = 2 * (e >>> (n + 1)) + (e >>> n) % 2 := by
  rw [Nat.shiftRight_succ]; omega

theorem exp_loop {x power : Nat} (hx : x < MODULUS) (n r : Nat)
    (hr : IsPow x (power >>> n) r) :
    IsPow x power (((List.range n).reverse).foldl (expStep x power) r) := by
  induction n generalizing r with
  | zero => simpa using hr
  | succ n ih =>
    rw [List.range_succ, List.reverse_append]
    simp only [List.reverse_cons, List.reverse_nil, List.nil_append, List.singleton_append,
      List.foldl_cons]
    apply ih
    rw [expStep_eq hx hr.1]
    have hsp := shiftRight_split power n
    split
    · exact (hr.square.mul (IsPow.self hx)).cast (by omega)
    · exact hr.square.cast (by omega)

theorem isPow_one (x : Nat) : IsPow x 0 one := ⟨one_lt, by rw [toF_one, pow_zero]⟩

theorem exp_isPow {x power : Nat} (hx : x < MODULUS) (hp : power < 2 ^ 64) :
    IsPow x power (exp x power) := by
  apply exp_loop hx
  rw [Nat.shiftRight_eq_div_pow, Nat.div_eq_of_lt hp]
  exact isPow_one x

/-! ### ff's pow -/

section
variable {α : Type} (sq mx : α → α) (r : α)
theorem powStep_ff : powStep sq mx (r, false) false = (r, false) := rfl
theorem powStep_ft : powStep sq mx (r, false) true = (mx r, true) := rfl
theorem powStep_tf : powStep sq mx (r, true) false = (sq r, true) := rfl
theorem powStep_tt : powStep sq mx (r, true) true = (mx (sq r), true) := rfl
end

theorem powStep_isPow {x k : Nat} (hx : x < MODULUS) {s : Nat × Bool}
    (hr : IsPow x k s.1) (hs : s.2 = true ↔ k ≠ 0) (bit : Bool) :
    IsPow x (2 * k + if bit = true then 1 else 0) (powStep square (fun r => mul r x) s bit).1 ∧
    ((powStep square (fun r => mul r x) s bit).2 = true ↔
      (2 * k + if bit = true then 1 else 0) ≠ 0) := by
  obtain ⟨r, fo⟩ := s
  cases fo
  · have hk : k = 0 := by
      by_contra h; exact absurd (hs.2 h) (by simp)
    subst hk
    cases bit
    · rw [powStep_ff]; exact ⟨hr.cast (by simp), by simp⟩
    · rw [powStep_ft]; exact ⟨(hr.mul (IsPow.self hx)).cast (by simp), by simp⟩
  · have hk : k ≠ 0 := hs.1 rfl
    cases bit
    · rw [powStep_tf]; exact ⟨hr.square.cast (by simp [two_mul]), by simp [hk]⟩
    · rw [powStep_tt]
      exact ⟨(hr.square.mul (IsPow.self hx)).cast (by simp [two_mul]), by simp⟩

theorem pow_loop {x e : Nat} (hx : x < MODULUS) (n : Nat) (s : Nat × Bool)
    (hr : IsPow x (e >>> n) s.1) (hs : s.2 = true ↔ e >>> n ≠ 0) :
    IsPow x e ((((List.range n).reverse.map fun i => (e >>> i) % 2 == 1).foldl
      (powStep square (fun r => mul r x)) s)).1 := by
  induction n generalizing s with
  | zero => simpa using hr
  | succ n ih =>
    rw [List.range_succ, List.reverse_append]
    simp only [List.reverse_cons, List.reverse_nil, List.nil_append, List.singleton_append,
      List.foldl_cons, List.map_cons]
    have hsp := shiftRight_split e n
    have ht := powStep_isPow hx hr hs ((e >>> n) % 2 == 1)
    have hb : (if ((e >>> n) % 2 == 1) = true then 1 else 0) = (e >>> n) % 2 := by
      by_cases h : (e >>> n) % 2 = 1 <;> simp [h]; omega
    rw [hb, ← hsp] at ht
    exact ih _ ht.1 ht.2

theorem pow_isPow {x e : Nat} (hx : x < MODULUS) (hp : e < 2 ^ 64) : IsPow x e (pow x e) := by
  apply pow_loop hx
  · rw [Nat.shiftRight_eq_div_pow, Nat.div_eq_of_lt hp]
    exact isPow_one x
  · rw [Nat.shiftRight_eq_div_pow, Nat.div_eq_of_lt hp]; simp

end Verif.GL
