import Verif.GL.Lemmas2

/-! # Legendre symbol and Tonelli-Shanks: helper lemmas -/
namespace Verif.GL

theorem asInt_ROOT : asInt ROOT_OF_UNITY = 1753635133440165772 := by decide +kernel

theorem ROOT_lt : ROOT_OF_UNITY < MODULUS := by norm_num [W, ROOT_OF_UNITY, MODULUS]

theorem toF_ROOT : toF ROOT_OF_UNITY = ((1753635133440165772 : Nat) : F) := by
  rw [← asInt_cast (lt_W ROOT_lt), asInt_ROOT]

theorem root_pow : toF ROOT_OF_UNITY ^ (2 ^ 31) = -1 := by
  rw [toF_ROOT, zmod_pow_eq MODULUS 1753635133440165772 (2 ^ 31) (MODULUS - 1) (by norm_num)
    (by decide +kernel), Nat.cast_sub (by norm_num), ZMod.natCast_self]
  simp

theorem p_odd : ((MODULUS : Nat)) / 2 = 9223372034707292160 := by norm_num

theorem neg_one_ne_one : (-1 : F) ≠ 1 := by
  intro h
  have h2 : ((2 : Nat) : F) = 0 := by
    push_cast; linear_combination -h
  rw [ZMod.natCast_eq_zero_iff] at h2
  exact absurd (Nat.le_of_dvd (by norm_num) h2) (by norm_num)

/-- Specification of the inner loop in a field: it finds the least `i` with `t2i^(2^(i-i0)) = 1`. -/
theorem sqrtInner_spec {α : Type} [DecidableEq α] (one : α) (sq : α → α) (k : Nat) :
    ∀ (f : Nat) (t : α) (i : Nat), k < f → iter sq k t = one →
    (∀ j < k, iter sq j t ≠ one) → sqrtInner one sq f t i = some (i + k) := by
  induction k with
  | zero =>
    intro f t i hf h1 _
    obtain ⟨f, rfl⟩ : ∃ f', f = f' + 1 := ⟨f - 1, by omega⟩
    have h1 : t = one := h1
    rw [sqrtInner, if_pos h1]; rfl
  | succ k ih =>
    intro f t i hf h1 h2
    obtain ⟨f, rfl⟩ : ∃ f', f = f' + 1 := ⟨f - 1, by omega⟩
    have h0 : t ≠ one := h2 0 (by omega)
    rw [sqrtInner, if_neg h0, ih f (sq t) (i + 1) (by omega) h1
      (fun j hj => h2 (j + 1) (by omega))]
    congr 1; omega

theorem toF_iter_square {a : Nat} (ha : a < MODULUS) (n : Nat) :
    iter square n a < MODULUS ∧ toF (iter square n a) = toF a ^ (2 ^ n) := by
  have := (IsPow.self ha).iter n
  exact ⟨this.1, by rw [this.2, one_mul]⟩

theorem eq_one_iff {a : Nat} (ha : a < MODULUS) : a = one ↔ toF a = 1 :=
  ⟨fun h => by rw [h, toF_one], fun h => toF_inj ha one_lt (by rw [h, toF_one])⟩

section
variable {α : Type} [DecidableEq α] (one : α) (sq : α → α) (mul : α → α → α)

theorem sqrtLoop_done (f : Nat) (c r t : α) (m : Nat) (h : t = one) :
    sqrtLoop one sq mul (f + 1) c r t m = some r := by
  rw [sqrtLoop, if_pos h]

theorem sqrtLoop_step (f : Nat) (c r t : α) (m i : Nat) (h : t ≠ one)
    (hi : sqrtInner one sq 64 (sq t) 1 = some i) (hm : ¬ m < i + 1) :
    sqrtLoop one sq mul (f + 1) c r t m =
      sqrtLoop one sq mul f (sq (iter sq (m - i - 1) c)) (mul r (iter sq (m - i - 1) c))
        (mul t (sq (iter sq (m - i - 1) c))) i := by
  rw [sqrtLoop, if_neg h, hi]
  simp only [hm, if_false]
end

theorem sq_eq_one_iff_of_side {a : F} (h : a ^ 2 = 1) : a = 1 ∨ a = -1 := by
  have : (a - 1) * (a + 1) = 0 := by linear_combination h
  rcases mul_eq_zero.1 this with h | h
  · left; linear_combination h
  · right; linear_combination h

/-- Loop invariant of Tonelli-Shanks. -/
theorem sqrtLoop_spec {X : F} : ∀ (m f c r t : Nat), m < f → m ≤ 32 →
    c < MODULUS → r < MODULUS → t < MODULUS →
    1 ≤ m → toF c ^ (2 ^ (m - 1)) = -1 → toF t ^ (2 ^ (m - 1)) = 1 → toF r ^ 2 = X * toF t →
    ∃ y, sqrtLoop one square mul f c r t m = some y ∧ y < MODULUS ∧ toF y ^ 2 = X := by
  intro m
  induction m using Nat.strongRecOn with
  | ind m ih =>
    intro f c r t hf hm32 hc hr ht hm1 hcm htm hrt
    obtain ⟨f, rfl⟩ : ∃ f', f = f' + 1 := ⟨f - 1, by omega⟩
    by_cases h1 : t = one
    · refine ⟨r, sqrtLoop_done _ _ _ f c r t m h1, hr, ?_⟩
      rw [hrt, (eq_one_iff ht).1 h1, mul_one]
    · have ht1 : toF t ≠ 1 := fun h => h1 ((eq_one_iff ht).2 h)
      -- least i ≥ 1 with t^(2^i) = 1
      have hex : ∃ i, toF t ^ (2 ^ i) = 1 := ⟨m - 1, htm⟩
      classical
      let i := Nat.find hex
      have hi1 : toF t ^ (2 ^ i) = 1 := Nat.find_spec hex
      have himin : ∀ j < i, toF t ^ (2 ^ j) ≠ 1 := fun j hj => Nat.find_min hex hj
      have hile : i ≤ m - 1 := Nat.find_min' hex htm
      have hi0 : i ≠ 0 := by
        intro h; rw [h] at hi1; simp at hi1; exact ht1 hi1
      have hin : sqrtInner one square 64 (square t) 1 = some i := by
        have := sqrtInner_spec one square (i - 1) 64 (square t) 1 (by omega) ?_ ?_
        · rw [this]; congr 1; omega
        · have := toF_iter_square ht (i - 1 + 1)
          rw [iter_succ] at this
          rw [eq_one_iff this.1, this.2, show i - 1 + 1 = i by omega, hi1]
        · intro j hj
          have := toF_iter_square ht (j + 1)
          rw [iter_succ] at this
          rw [Ne, eq_one_iff this.1, this.2]
          exact himin (j + 1) (by omega)
      rw [sqrtLoop_step one square mul f c r t m i h1 hin (by omega)]
      obtain ⟨hcl, hce⟩ := toF_iter_square hc (m - i - 1)
      generalize iter square (m - i - 1) c = c' at hcl hce ⊢
      have hc'i : toF c' ^ (2 ^ i) = -1 := by
        rw [hce, ← pow_mul, ← pow_add, show m - i - 1 + i = m - 1 by omega, hcm]
      have hsq : toF (square c') ^ (2 ^ (i - 1)) = -1 := by
        rw [toF_square hcl, ← pow_mul, ← pow_succ', show i - 1 + 1 = i by omega, hc'i]
      have hti : toF t ^ (2 ^ (i - 1)) = -1 := by
        have h2 : (toF t ^ (2 ^ (i - 1))) ^ 2 = 1 := by
          rw [← pow_mul, ← pow_succ, show i - 1 + 1 = i by omega, hi1]
        rcases sq_eq_one_iff_of_side h2 with h | h
        · exact absurd h (himin (i - 1) (by omega))
        · exact h
      refine ih i (by omega) f (square c') (mul r c') (mul t (square c')) (by omega) (by omega)
        (square_lt hcl) (mul_lt hr hcl) (mul_lt ht (square_lt hcl)) (by omega) hsq ?_ ?_
      · rw [toF_mul ht (square_lt hcl), mul_pow, hsq, hti]; ring
      · rw [toF_mul hr hcl, mul_pow, hrt, toF_mul ht (square_lt hcl), toF_square hcl]; ring
theorem legendre_zero {x : Nat} (hx : x < MODULUS) (h : toF x = 0) : legendre x = .zero := by
  obtain ⟨hl, he⟩ := pow_isPow (e := 9223372034707292160) hx (by norm_num)
  have : pow x 9223372034707292160 = zero := by
    apply toF_inj hl zero_lt
    rw [he, h, zero_pow (by norm_num)]; exact toF_zero.symm
  rw [legendre, if_pos this]

theorem euler {a : F} (ha : a ≠ 0) : IsSquare a ↔ a ^ 9223372034707292160 = 1 := by
  have := ZMod.euler_criterion MODULUS ha
  rwa [p_odd] at this

theorem legendre_nonzero {x : Nat} (hx : x < MODULUS) (h : toF x ≠ 0) :
    legendre x = if toF x ^ 9223372034707292160 = 1 then .residue else .nonResidue := by
  obtain ⟨hl, he⟩ := pow_isPow (e := 9223372034707292160) hx (by norm_num)
  have h0 : pow x 9223372034707292160 ≠ zero := by
    intro hc
    rw [hc] at he
    have : toF zero = 0 := toF_zero
    rw [this] at he
    exact pow_ne_zero _ h he.symm
  rw [legendre, if_neg h0]
  by_cases h1 : pow x 9223372034707292160 = one
  · rw [if_pos h1, if_pos]; rw [← he, h1, toF_one]
  · rw [if_neg h1, if_neg]
    intro hc; exact h1 ((eq_one_iff hl).2 (by rw [he, hc]))

theorem sqrt_residue {x : Nat} (hx : x < MODULUS) (h : toF x ^ 9223372034707292160 = 1) :
    ∃ y, sqrtLoop one square mul 64 ROOT_OF_UNITY (pow x 2147483648) (pow x 4294967295) S = some y ∧
      y < MODULUS ∧ toF y ^ 2 = toF x := by
  obtain ⟨hl1, he1⟩ := pow_isPow (e := 2147483648) hx (by norm_num)
  obtain ⟨hl2, he2⟩ := pow_isPow (e := 4294967295) hx (by norm_num)
  refine sqrtLoop_spec S 64 _ _ _ (by norm_num) (by norm_num) ROOT_lt hl1 hl2 (by norm_num)
    root_pow ?_ ?_
  · rw [he2, ← pow_mul, ← h, show 4294967295 * 2 ^ (S - 1) = 9223372034707292160 by norm_num]
  · rw [he1, he2, ← pow_mul, ← pow_succ']

section
variable {α : Type} (x : α) (l : Option α)
theorem sqrtArms_zero : sqrtArms .zero x l = some (some x) := rfl
theorem sqrtArms_non : sqrtArms .nonResidue x l = some none := rfl
theorem sqrtArms_res (y : α) : sqrtArms .residue x (some y) = some (some y) := rfl
end

theorem sqrt_of_zero {x : Nat} (h : legendre x = .zero) : sqrt x = some (some x) := by
  rw [sqrt, h]; exact sqrtArms_zero _ _

theorem sqrt_of_non {x : Nat} (h : legendre x = .nonResidue) : sqrt x = some none := by
  rw [sqrt, h]; exact sqrtArms_non _ _

theorem sqrt_of_res {x y : Nat} (h : legendre x = .residue)
    (hy : sqrtLoop one square mul 64 ROOT_OF_UNITY (pow x 2147483648) (pow x 4294967295) S = some y) :
    sqrt x = some (some y) := by
  rw [sqrt, h, hy]; exact sqrtArms_res _ _

end Verif.GL
