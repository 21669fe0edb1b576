import Verif.FftP.Model
import Mathlib.Tactic.Ring
import Mathlib.Tactic.LinearCombination
import Mathlib.Tactic.Push

/-! # Lemmas on the blocked FFT -/
namespace Verif.FftP
open Verif.FFT (Roots)

variable {A : Type} [Field A]

theorem flat_inj {np r k r' k' : Nat} (hk : k < np) (hk' : k' < np) : r * np + k = r' * np + k' ↔ r = r' ∧ k = k' := by
  constructor
  · intro h
    have h1 : (r * np + k) / np = r := by
      rw [mul_comm, Nat.mul_add_div (by omega), Nat.div_eq_of_lt hk]; simp
    have h2 : (r' * np + k') / np = r' := by
      rw [mul_comm, Nat.mul_add_div (by omega), Nat.div_eq_of_lt hk']; simp
    have : r = r' := by rw [← h1, h, h2]
    subst this
    exact ⟨rfl, by omega⟩
  · rintro ⟨rfl, rfl⟩; rfl

theorem flat_div {np r k : Nat} (hk : k < np) : (r * np + k) / np = r := by
  rw [mul_comm, Nat.mul_add_div (by omega), Nat.div_eq_of_lt hk]; simp

theorem flat_mod {np r k : Nat} (hk : k < np) : (r * np + k) % np = k := by
  rw [mul_comm, Nat.mul_add_mod, Nat.mod_eq_of_lt hk]

theorem flat_lt {np r k n : Nat} (hk : k < np) : r * np + k < n * np ↔ r < n := by
  rw [← Nat.div_lt_iff_lt_mul (by omega), flat_div hk]

theorem rowButterfly_eq (np : Nat) (w : A) {a c : Nat} (hac : a ≠ c) (b : Buf A) (r k : Nat) (hk : k < np) :
    rowButterfly np w a c b (r * np + k) =
      if r = a then b (a * np + k) + w * b (c * np + k)
      else if r = c then b (a * np + k) - w * b (c * np + k) else b (r * np + k) := by
  unfold rowButterfly
  have gen : ∀ m, m ≤ np → ∀ r k, k < np → (List.range m).foldl (fun (b : Buf A) j =>
      let t := w * b (c * np + j)
      let u := b (a * np + j)
      Function.update (Function.update b (a * np + j) (u + t)) (c * np + j) (u - t)) b (r * np + k) =
      if k < m then (if r = a then b (a * np + k) + w * b (c * np + k)
        else if r = c then b (a * np + k) - w * b (c * np + k) else b (r * np + k)) else b (r * np + k) := by
    intro m
    induction m with
    | zero => intro _ r k _; simp
    | succ m ih =>
      intro hm r k hk
      rw [List.range_succ, List.foldl_append, List.foldl_cons, List.foldl_nil]
      have ih := ih (by omega)
      generalize (List.range m).foldl _ b = b' at ih ⊢
      have ea := ih a m (by omega)
      have ec := ih c m (by omega)
      rw [if_neg (by omega)] at ea ec
      simp only [ea, ec]
      by_cases h1 : r * np + k = c * np + m
      · obtain ⟨rfl, rfl⟩ := (flat_inj hk (by omega)).1 h1
        rw [Function.update_self, if_pos (by omega), if_neg (Ne.symm hac), if_pos rfl]
      · rw [Function.update_of_ne h1]
        by_cases h2 : r * np + k = a * np + m
        · obtain ⟨rfl, rfl⟩ := (flat_inj hk (by omega)).1 h2
          rw [Function.update_self, if_pos (by omega), if_pos rfl]
        · rw [Function.update_of_ne h2, ih r k hk]
          rw [flat_inj hk (by omega)] at h1 h2
          by_cases hkm : k < m
          · have hkm' : k < m + 1 := by omega
            simp only [hkm, hkm', if_true]
          · rw [if_neg hkm]
            by_cases hkm2 : k = m
            · subst hkm2
              rw [if_pos (by omega), if_neg (by tauto), if_neg (by tauto)]
            · rw [if_neg (by omega)]
  rw [gen np le_rfl r k hk, if_pos hk]

theorem blockButterflies_eq (np : Nat) (w0 winc : A) (pos h : Nat) (b : Buf A) (r k : Nat) (hk : k < np) :
    blockButterflies np w0 winc pos h b (r * np + k) =
      if pos ≤ r ∧ r < pos + h then b (r * np + k) + w0 * winc ^ (r - pos) * b ((r + h) * np + k)
      else if pos + h ≤ r ∧ r < pos + h + h then b ((r - h) * np + k) - w0 * winc ^ (r - pos - h) * b (r * np + k)
      else b (r * np + k) := by
  unfold blockButterflies
  have gen : ∀ m, m ≤ h → ∀ st, st = (List.range m).foldl (fun (st : Buf A × A) i =>
      (rowButterfly np st.2 (pos + i) (pos + h + i) st.1, st.2 * winc)) (b, w0) →
      st.2 = w0 * winc ^ m ∧ ∀ r, st.1 (r * np + k) =
      if pos ≤ r ∧ r < pos + m then b (r * np + k) + w0 * winc ^ (r - pos) * b ((r + h) * np + k)
      else if pos + h ≤ r ∧ r < pos + h + m then b ((r - h) * np + k) - w0 * winc ^ (r - pos - h) * b (r * np + k)
      else b (r * np + k) := by
    intro m
    induction m with
    | zero =>
      intro _ st hst; subst hst
      refine ⟨by simp, fun x => ?_⟩
      rw [if_neg (by omega), if_neg (by omega)]; rfl
    | succ m ih =>
      intro hm st hst
      rw [List.range_succ, List.foldl_append] at hst
      obtain ⟨ih1, ih2⟩ := ih (by omega) _ rfl
      generalize (List.range m).foldl _ (b, w0) = st' at hst ih1 ih2
      simp only [List.foldl_cons, List.foldl_nil] at hst
      subst hst
      refine ⟨by simp only; rw [ih1]; ring, fun r => ?_⟩
      simp only
      rw [rowButterfly_eq np _ (by omega) _ r k hk]
      have e1 : st'.1 ((pos + h + m) * np + k) = b ((pos + h + m) * np + k) := by
        rw [ih2, if_neg (by omega), if_neg (by omega)]
      have e2 : st'.1 ((pos + m) * np + k) = b ((pos + m) * np + k) := by
        rw [ih2, if_neg (by omega), if_neg (by omega)]
      rw [e1, e2, ih1, ih2]
      by_cases hx1 : r = pos + m
      · subst hx1
        rw [if_pos rfl, if_pos (by omega), show pos + m - pos = m by omega, show pos + h + m = pos + m + h by omega]
      · rw [if_neg hx1]
        by_cases hx2 : r = pos + h + m
        · subst hx2
          rw [if_pos rfl, if_neg (by omega), if_pos (by omega), show pos + h + m - pos - h = m by omega,
            show pos + h + m - h = pos + m by omega]
        · rw [if_neg hx2]
          split_ifs <;> first | rfl | omega
  exact (gen h le_rfl _ rfl).2 r

/-- The logical position (in the plain radix-2 layout) of physical row `x` after `i` layers. -/
def logi (nb i x : Nat) : Nat := (x % 2 ^ (nb - i)) * 2 ^ i + x / 2 ^ (nb - i)

theorem logi_zero {nb x : Nat} (hx : x < 2 ^ nb) : logi nb 0 x = x := by
  simp [logi, Nat.mod_eq_of_lt hx, Nat.div_eq_of_lt hx]

theorem logi_full (nb x : Nat) : logi nb nb x = x := by
  simp [logi, Nat.mod_one]

theorem logi_lt {nb i x : Nat} (hi : i ≤ nb) (hx : x < 2 ^ nb) : logi nb i x < 2 ^ nb := by
  unfold logi
  have h1 : x % 2 ^ (nb - i) < 2 ^ (nb - i) := Nat.mod_lt _ (by positivity)
  have h2 : x / 2 ^ (nb - i) < 2 ^ i := by
    rw [Nat.div_lt_iff_lt_mul (by positivity), ← pow_add]; rwa [show i + (nb - i) = nb by omega]
  have h3 : 2 ^ nb = 2 ^ (nb - i) * 2 ^ i := by rw [← pow_add]; congr 1; omega
  rw [h3]
  calc x % 2 ^ (nb - i) * 2 ^ i + x / 2 ^ (nb - i) < x % 2 ^ (nb - i) * 2 ^ i + 2 ^ i := by omega
    _ = (x % 2 ^ (nb - i) + 1) * 2 ^ i := by ring
    _ ≤ _ := Nat.mul_le_mul_right _ h1

/-- Within an aligned block, consecutive physical rows are `2^i` apart logically. -/
theorem logi_add {nb i l q t : Nat} (hil : i + l ≤ nb) (ht : t < 2 ^ l) :
    logi nb i (q * 2 ^ l + t) = logi nb i (q * 2 ^ l) + t * 2 ^ i := by
  unfold logi
  obtain ⟨d, hd⟩ : ∃ d, nb - i = l + d := ⟨nb - i - l, by omega⟩
  rw [hd]
  have e1 : (q * 2 ^ l + t) % 2 ^ (l + d) = q % 2 ^ d * 2 ^ l + t := by
    rw [pow_add, Nat.mod_mul, Nat.mul_add_mod_self_right, Nat.mod_eq_of_lt ht,
      Nat.add_div_of_dvd_right (Dvd.intro_left _ rfl), Nat.mul_div_cancel _ (by positivity), Nat.div_eq_of_lt ht]
    simp; ring
  have e2 : q * 2 ^ l % 2 ^ (l + d) = q % 2 ^ d * 2 ^ l := by
    rw [pow_add, mul_comm (2 ^ l), Nat.mul_mod_mul_right]
  have e3 : (q * 2 ^ l + t) / 2 ^ (l + d) = q / 2 ^ d := by
    rw [pow_add, ← Nat.div_div_eq_div_mul, Nat.add_div_of_dvd_right (Dvd.intro_left _ rfl),
      Nat.mul_div_cancel _ (by positivity), Nat.div_eq_of_lt ht]; simp
  have e4 : q * 2 ^ l / 2 ^ (l + d) = q / 2 ^ d := by
    rw [pow_add, ← Nat.div_div_eq_div_mul, Nat.mul_div_cancel _ (by positivity)]
  rw [e1, e2, e3, e4]; ring

/-- The low bits of the logical position of the start of an aligned block. -/
theorem logi_start_mod {nb i l q : Nat} (hil : i + l ≤ nb) (hq : q * 2 ^ l < 2 ^ nb) :
    logi nb i (q * 2 ^ l) % 2 ^ (i + l) = q * 2 ^ l / 2 ^ (nb - i) ∧ q * 2 ^ l / 2 ^ (nb - i) < 2 ^ i := by
  have h2 : q * 2 ^ l / 2 ^ (nb - i) < 2 ^ i := by
    rw [Nat.div_lt_iff_lt_mul (by positivity), ← pow_add]; rwa [show i + (nb - i) = nb by omega]
  refine ⟨?_, h2⟩
  unfold logi
  obtain ⟨d, hd⟩ : ∃ d, nb - i = l + d := ⟨nb - i - l, by omega⟩
  rw [hd] at h2 ⊢
  have e2 : q * 2 ^ l % 2 ^ (l + d) = q % 2 ^ d * 2 ^ l := by
    rw [pow_add, mul_comm (2 ^ l), Nat.mul_mod_mul_right]
  rw [e2, mul_assoc, ← pow_add, add_comm l i, Nat.mul_add_mod_self_right]
  apply Nat.mod_eq_of_lt
  exact lt_of_lt_of_le h2 (Nat.pow_le_pow_right (by norm_num) (by omega))

/-- Transposition turns the layout after `i` layers into that after `i + t` layers. -/
theorem logi_transpose {nb i t d : Nat} (hit : i + t ≤ nb) :
    logi nb i (d % 2 ^ (nb - t) * 2 ^ t + d / 2 ^ (nb - t)) = logi nb (i + t) d ∨ 2 ^ nb ≤ d := by
  by_cases hd : 2 ^ nb ≤ d
  · exact Or.inr hd
  left
  obtain ⟨e, rfl⟩ : ∃ e, nb = i + t + e := ⟨nb - (i + t), by omega⟩
  have h1 : i + t + e - t = e + i := by omega
  have h2 : i + t + e - (i + t) = e := by omega
  have h3 : i + t + e - i = t + e := by omega
  unfold logi
  rw [h1, h2, h3]
  have ha : d / 2 ^ (e + i) < 2 ^ t := by
    rw [Nat.div_lt_iff_lt_mul (by positivity), ← pow_add]
    rw [show t + (e + i) = i + t + e by omega]; omega
  set a := d / 2 ^ (e + i) with hadef
  set c := d % 2 ^ (e + i) with hcdef
  have hdd : d = a * 2 ^ (e + i) + c := by rw [mul_comm]; exact (Nat.div_add_mod d _).symm
  have hc : c < 2 ^ (e + i) := Nat.mod_lt _ (by positivity)
  have e1 : (c * 2 ^ t + a) % 2 ^ (t + e) = c % 2 ^ e * 2 ^ t + a := by
    rw [pow_add, Nat.mod_mul, Nat.mul_add_mod_self_right, Nat.mod_eq_of_lt ha,
      Nat.add_div_of_dvd_right (Dvd.intro_left _ rfl), Nat.mul_div_cancel _ (by positivity), Nat.div_eq_of_lt ha]
    simp; ring
  have e2 : (c * 2 ^ t + a) / 2 ^ (t + e) = c / 2 ^ e := by
    rw [pow_add, ← Nat.div_div_eq_div_mul, Nat.add_div_of_dvd_right (Dvd.intro_left _ rfl),
      Nat.mul_div_cancel _ (by positivity), Nat.div_eq_of_lt ha]; simp
  have e3 : d % 2 ^ e = c % 2 ^ e := by
    rw [hdd, pow_add, mul_comm (2 ^ e), ← mul_assoc, Nat.mul_add_mod_self_right]
  have e4 : d / 2 ^ e = a * 2 ^ i + c / 2 ^ e := by
    rw [hdd, pow_add, mul_comm (2 ^ e), ← mul_assoc, Nat.add_div_of_dvd_right (Dvd.intro_left _ rfl),
      Nat.mul_div_cancel _ (by positivity)]
  rw [e1, e2, e3, e4, pow_add]; ring

/-- The stages in the plain layout: `D s` is the buffer after `s` radix-2 stages. -/
def Stages (mg : Nat → A) (nb : Nat) (D : Nat → Nat → A) : Prop :=
  ∀ s < nb, ∀ L < 2 ^ nb, L % 2 ^ (s + 1) < 2 ^ s →
    D (s + 1) L = D s L + mg (s + 1) ^ (L % 2 ^ (s + 1)) * D s (L + 2 ^ s) ∧
    D (s + 1) (L + 2 ^ s) = D s L - mg (s + 1) ^ (L % 2 ^ (s + 1)) * D s (L + 2 ^ s)

theorem roots_pow {mg : Nat → A} {nb : Nat} (hw : Roots mg nb) {s i : Nat} (hs : i + s ≤ nb) : mg (i + s) ^ 2 ^ i = mg s := by
  induction i with
  | zero => simp
  | succ i ih =>
    rw [pow_succ, mul_comm, pow_mul, show i + 1 + s = (i + s) + 1 by omega, hw.sq _ (by omega), ih (by omega)]

theorem roots_order {mg : Nat → A} {nb : Nat} (hw : Roots mg nb) {s : Nat} (hs : s ≤ nb) : mg s ^ 2 ^ s = 1 := by
  have := roots_pow hw (s := 0) (i := s) (by omega)
  rw [← hw.zero]; simpa using this

theorem roots_pow_mod {mg : Nat → A} {nb : Nat} (hw : Roots mg nb) {s : Nat} (hs : s ≤ nb) (e : Nat) :
    mg s ^ e = mg s ^ (e % 2 ^ s) := by
  conv_lhs => rw [← Nat.div_add_mod e (2 ^ s), pow_add, pow_mul, roots_order hw hs, one_pow, one_mul]

theorem twiddle0_eq {mg : Nat → A} {nb : Nat} (hw : Roots mg nb) {i l q : Nat} (hil : i + l ≤ nb)
    (hq : q * 2 ^ l < 2 ^ nb) :
    twiddle0 mg nb (i + l) l l (q * 2 ^ l) = mg (i + l) ^ (q * 2 ^ l / 2 ^ (nb - i)) := by
  unfold twiddle0
  by_cases hi : i = 0
  · subst hi
    rw [if_neg (by omega), Nat.sub_zero, Nat.div_eq_of_lt hq, pow_zero]
  · rw [if_pos (by omega)]
    simp only [Nat.add_sub_cancel]
    rw [Nat.pow_div (by omega) (by norm_num)]
    have := (logi_start_mod hil hq).1
    unfold logi at this
    rw [roots_pow_mod hw hil, this]

/-- Rows outside the block are untouched; zero rows stay zero. -/
theorem fftBlockGo_frame (mg : Nat → A) (np nb : Nat) (bb : Nat) : ∀ (l s rel start : Nat) (b : Buf A), rel ≤ start →
    (∀ r k, k < np → (r < start - rel ∨ start - rel + 2 ^ bb ≤ r) →
      fftBlockGo mg np nb bb l s rel start b (r * np + k) = b (r * np + k)) ∧
    ∀ k < np, (∀ r, start - rel ≤ r → r < start - rel + 2 ^ bb → b (r * np + k) = 0) →
      ∀ r, start - rel ≤ r → r < start - rel + 2 ^ bb → fftBlockGo mg np nb bb l s rel start b (r * np + k) = 0 := by
  induction bb with
  | zero =>
    intro l s rel start b _
    exact ⟨fun _ _ _ _ => rfl, fun k _ h r h1 h2 => h r h1 h2⟩
  | succ bb ih =>
    intro l s rel start b hrel
    have h2 : 2 ^ (bb + 1) = 2 ^ bb + 2 ^ bb := by rw [pow_succ]; ring
    have hm : 2 ^ (bb + 1) / 2 = 2 ^ bb := by omega
    have hpos : 0 < 2 ^ bb := by positivity
    -- two recursive calls
    have two : ∀ l s, 
        (∀ r k, k < np → (r < start - rel ∨ start - rel + 2 ^ (bb + 1) ≤ r) →
          fftBlockGo mg np nb bb l s rel (start + 2 ^ bb) (fftBlockGo mg np nb bb l s rel start b) (r * np + k)
            = b (r * np + k)) ∧
        ∀ k < np, (∀ r, start - rel ≤ r → r < start - rel + 2 ^ (bb + 1) → b (r * np + k) = 0) →
          ∀ r, start - rel ≤ r → r < start - rel + 2 ^ (bb + 1) →
          fftBlockGo mg np nb bb l s rel (start + 2 ^ bb) (fftBlockGo mg np nb bb l s rel start b) (r * np + k) = 0 := by
      intro l s
      obtain ⟨a1, a2⟩ := ih l s rel start b hrel
      obtain ⟨b1, b2⟩ := ih l s rel (start + 2 ^ bb) (fftBlockGo mg np nb bb l s rel start b) (by omega)
      have hs : start + 2 ^ bb - rel = start - rel + 2 ^ bb := by omega
      rw [hs] at b1 b2
      refine ⟨fun r k hk hr => ?_, fun k hk hz r hr1 hr2 => ?_⟩
      · rw [b1 r k hk (by omega), a1 r k hk (by omega)]
      · by_cases hr : r < start - rel + 2 ^ bb
        · rw [b1 r k hk (by omega)]
          exact a2 k hk (fun r h3 h4 => hz r h3 (by omega)) r hr1 hr
        · refine b2 k hk (fun r h3 h4 => ?_) r (by omega) (by omega)
          rw [a1 r k hk (by omega)]
          exact hz r (by omega) (by omega)
    rw [fftBlockGo]
    simp only [hm]
    split
    · exact two l s
    · have inner : ∃ b' : Buf A, (if l > 1 then fftBlockGo mg np nb bb (l - 1) (s - 1) rel (start + 2 ^ bb)
            (fftBlockGo mg np nb bb (l - 1) (s - 1) rel start b) else b) = b' ∧ 
          (∀ r k, k < np → (r < start - rel ∨ start - rel + 2 ^ (bb + 1) ≤ r) → b' (r * np + k) = b (r * np + k)) ∧
          ∀ k < np, (∀ r, start - rel ≤ r → r < start - rel + 2 ^ (bb + 1) → b (r * np + k) = 0) →
          ∀ r, start - rel ≤ r → r < start - rel + 2 ^ (bb + 1) → b' (r * np + k) = 0 := by
        refine ⟨_, rfl, ?_⟩
        split
        · exact two (l - 1) (s - 1)
        · exact ⟨fun _ _ _ _ => rfl, fun k _ h r h1 h2 => h r h1 h2⟩
      obtain ⟨b', hb', f1, f2⟩ := inner
      rw [hb']
      refine ⟨fun r k hk hr => ?_, fun k hk hz r hr1 hr2 => ?_⟩
      · rw [blockButterflies_eq _ _ _ _ _ _ _ _ hk, if_neg (by omega), if_neg (by omega), f1 r k hk hr]
      · rw [blockButterflies_eq _ _ _ _ _ _ _ _ hk]
        have z := f2 k hk hz
        split
        · rw [z r (by omega) (by omega), z (r + 2 ^ bb) (by omega) (by omega)]; ring
        · split
          · rw [z r (by omega) (by omega), z (r - 2 ^ bb) (by omega) (by omega)]; ring
          · exact z r hr1 hr2

/-- A full block of `2^l` rows (`layers = blockbits = l`) performs stages `i+1 .. i+l`. -/
theorem fftBlockGo_full {mg : Nat → A} {nb : Nat} (hw : Roots mg nb) {D : Nat → Nat → A} (hD : Stages mg nb D)
    (np k : Nat) (hk : k < np) (i l : Nat) : ∀ (q rel : Nat) (b : Buf A), i + l ≤ nb → rel ≤ q * 2 ^ l →
    (q + 1) * 2 ^ l ≤ 2 ^ nb →
    (∀ t < 2 ^ l, b ((q * 2 ^ l - rel + t) * np + k) = D i (logi nb i (q * 2 ^ l + t))) →
    ∀ t < 2 ^ l, fftBlockGo mg np nb l l (i + l) rel (q * 2 ^ l) b ((q * 2 ^ l - rel + t) * np + k)
      = D (i + l) (logi nb i (q * 2 ^ l + t)) := by
  induction l with
  | zero => intro q rel b _ _ _ h t ht; exact h t ht
  | succ l ih =>
    intro q rel b hil hrel hq hb t ht
    have h2 : 2 ^ (l + 1) = 2 ^ l + 2 ^ l := by rw [pow_succ]; ring
    have hm : 2 ^ (l + 1) / 2 = 2 ^ l := by omega
    have hpos : 0 < 2 ^ l := by positivity
    have hstart : q * 2 ^ (l + 1) = 2 * q * 2 ^ l := by rw [pow_succ]; ring
    have hstart2 : 2 * q * 2 ^ l + 2 ^ l = (2 * q + 1) * 2 ^ l := by ring
    -- after the recursive calls
    have inner : ∃ b' : Buf A, (if l + 1 > 1 then fftBlockGo mg np nb l (l + 1 - 1) (i + (l + 1) - 1) rel
          (q * 2 ^ (l + 1) + 2 ^ l) (fftBlockGo mg np nb l (l + 1 - 1) (i + (l + 1) - 1) rel (q * 2 ^ (l + 1)) b) else b) = b' ∧
        ∀ t < 2 ^ (l + 1), b' ((q * 2 ^ (l + 1) - rel + t) * np + k) = D (i + l) (logi nb i (q * 2 ^ (l + 1) + t)) := by
      refine ⟨_, rfl, fun t ht => ?_⟩
      by_cases hl : l = 0
      · subst hl
        rw [if_neg (by omega)]
        exact hb t ht
      rw [if_pos (by omega), show l + 1 - 1 = l by omega, show i + (l + 1) - 1 = i + l by omega, hstart, hstart2]
      rw [hstart] at hb hrel
      have e1 : (q + 1) * 2 ^ (l + 1) = (2 * q) * 2 ^ l + 2 * 2 ^ l := by rw [pow_succ]; ring
      have e2 : (2 * q + 1) * 2 ^ l = (2 * q) * 2 ^ l + 2 ^ l := by ring
      have e3 : (2 * q + 1 + 1) * 2 ^ l = (2 * q) * 2 ^ l + 2 * 2 ^ l := by ring
      have A1 := ih (2 * q) rel b (by omega) hrel (by omega) (fun t ht => hb t (by omega))
      have fr1 := (fftBlockGo_frame mg np nb l l (i + l) rel (2 * q * 2 ^ l) b hrel).1
      set b1 := fftBlockGo mg np nb l l (i + l) rel (2 * q * 2 ^ l) b with hb1
      have A2 := ih (2 * q + 1) rel b1 (by omega) (by omega) (by omega) (by
        intro t ht
        rw [fr1 _ _ hk (by omega)]
        have := hb (2 ^ l + t) (by omega)
        rw [show (2 * q + 1) * 2 ^ l - rel + t = 2 * q * 2 ^ l - rel + (2 ^ l + t) by omega, this]
        congr 2; omega)
      have fr2 := (fftBlockGo_frame mg np nb l l (i + l) rel ((2 * q + 1) * 2 ^ l) b1 (by omega)).1
      by_cases htl : t < 2 ^ l
      · rw [fr2 _ _ hk (by omega), A1 t htl]
      · have := A2 (t - 2 ^ l) (by omega)
        rw [show 2 * q * 2 ^ l - rel + t = (2 * q + 1) * 2 ^ l - rel + (t - 2 ^ l) by omega, this]
        congr 2; omega
    obtain ⟨b', hb', hbD⟩ := inner
    rw [fftBlockGo]
    simp only [hm]
    rw [if_neg (by omega), hb', show q * 2 ^ (l + 1) - rel + t = (q * 2 ^ (l + 1) - rel) + t by rfl,
      blockButterflies_eq _ _ _ _ _ _ _ _ hk]
    have hqs : q * 2 ^ (l + 1) < 2 ^ nb := by
      have : (q + 1) * 2 ^ (l + 1) = q * 2 ^ (l + 1) + 2 ^ (l + 1) := by ring
      omega
    rw [twiddle0_eq hw hil hqs]
    obtain ⟨m1, m2⟩ := logi_start_mod hil hqs
    -- logical facts
    have hL : ∀ t < 2 ^ l, logi nb i (q * 2 ^ (l + 1) + t) % 2 ^ (i + (l + 1)) = q * 2 ^ (l + 1) / 2 ^ (nb - i) + t * 2 ^ i ∧
        q * 2 ^ (l + 1) / 2 ^ (nb - i) + t * 2 ^ i < 2 ^ (i + l) ∧
        logi nb i (q * 2 ^ (l + 1) + (t + 2 ^ l)) = logi nb i (q * 2 ^ (l + 1) + t) + 2 ^ (i + l) := by
      intro t ht
      rw [logi_add hil (by omega), logi_add hil (by omega)]
      have hlt : q * 2 ^ (l + 1) / 2 ^ (nb - i) + t * 2 ^ i < 2 ^ (i + l) := by
        calc _ < 2 ^ i + t * 2 ^ i := by omega
          _ = (t + 1) * 2 ^ i := by ring
          _ ≤ 2 ^ l * 2 ^ i := Nat.mul_le_mul_right _ ht
          _ = _ := by rw [← pow_add, add_comm]
      refine ⟨?_, hlt, by rw [pow_add]; ring⟩
      rw [Nat.add_mod, m1]
      have : t * 2 ^ i < 2 ^ (i + (l + 1)) := by
        rw [show i + (l + 1) = i + l + 1 by omega, pow_succ]; omega
      rw [Nat.mod_eq_of_lt this, Nat.mod_eq_of_lt]
      exact lt_of_lt_of_le hlt (Nat.pow_le_pow_right (by norm_num) (by omega))
    have htw : ∀ t, mg (i + (l + 1)) ^ (q * 2 ^ (l + 1) / 2 ^ (nb - i)) * mg (l + 1) ^ t =
        mg (i + (l + 1)) ^ (q * 2 ^ (l + 1) / 2 ^ (nb - i) + t * 2 ^ i) := by
      intro t
      generalize q * 2 ^ (l + 1) / 2 ^ (nb - i) = y
      rw [pow_add (mg (i + (l + 1))), mul_comm t, pow_mul (mg (i + (l + 1))), roots_pow hw hil]
    have hlogi_lt : ∀ t < 2 ^ (l + 1), logi nb i (q * 2 ^ (l + 1) + t) < 2 ^ nb := by
      intro t ht
      apply logi_lt (by omega)
      have : (q + 1) * 2 ^ (l + 1) = q * 2 ^ (l + 1) + 2 ^ (l + 1) := by ring
      omega
    by_cases htl : t < 2 ^ l
    · rw [if_pos (by omega), hbD t ht, show q * 2 ^ (l + 1) - rel + t + 2 ^ l = q * 2 ^ (l + 1) - rel + (t + 2 ^ l) by omega,
        hbD (t + 2 ^ l) (by omega), show q * 2 ^ (l + 1) - rel + t - (q * 2 ^ (l + 1) - rel) = t by omega, htw]
      obtain ⟨l1, l2, l3⟩ := hL t htl
      have := (hD (i + l) (by omega) (logi nb i (q * 2 ^ (l + 1) + t)) (hlogi_lt t ht) (by
        rw [show i + l + 1 = i + (l + 1) by omega, l1]; exact l2)).1
      rw [show i + (l + 1) = i + l + 1 by omega] at l1 ⊢
      rw [this, l1, l3]
    · obtain ⟨u, rfl⟩ : ∃ u, t = u + 2 ^ l := ⟨t - 2 ^ l, by omega⟩
      have hu : u < 2 ^ l := by omega
      rw [if_neg (by omega), if_pos (by omega), hbD (u + 2 ^ l) (by omega),
        show q * 2 ^ (l + 1) - rel + (u + 2 ^ l) - 2 ^ l = q * 2 ^ (l + 1) - rel + u by omega, hbD u (by omega),
        show q * 2 ^ (l + 1) - rel + (u + 2 ^ l) - (q * 2 ^ (l + 1) - rel) - 2 ^ l = u by omega, htw]
      obtain ⟨l1, l2, l3⟩ := hL u hu
      have := (hD (i + l) (by omega) (logi nb i (q * 2 ^ (l + 1) + u)) (hlogi_lt u (by omega)) (by
        rw [show i + l + 1 = i + (l + 1) by omega, l1]; exact l2)).2
      rw [show i + (l + 1) = i + l + 1 by omega] at l1 ⊢
      rw [l3, this, l1]

/-- A block of `2^bb` rows processed with `l ≤ bb` layers. -/
theorem fftBlockGo_spec {mg : Nat → A} {nb : Nat} (hw : Roots mg nb) {D : Nat → Nat → A} (hD : Stages mg nb D)
    (np k : Nat) (hk : k < np) (i l d : Nat) : ∀ (q rel : Nat) (b : Buf A), i + l ≤ nb → rel ≤ q * 2 ^ (l + d) →
    (q + 1) * 2 ^ (l + d) ≤ 2 ^ nb →
    (∀ t < 2 ^ (l + d), b ((q * 2 ^ (l + d) - rel + t) * np + k) = D i (logi nb i (q * 2 ^ (l + d) + t))) →
    ∀ t < 2 ^ (l + d), fftBlockGo mg np nb (l + d) l (i + l) rel (q * 2 ^ (l + d)) b ((q * 2 ^ (l + d) - rel + t) * np + k)
      = D (i + l) (logi nb i (q * 2 ^ (l + d) + t)) := by
  induction d with
  | zero =>
    intro q rel b hil hrel hq hb t ht
    exact fftBlockGo_full hw hD np k hk i l q rel b hil hrel hq hb t ht
  | succ d ih =>
    intro q rel b hil hrel hq hb t ht
    rw [← add_assoc] at *
    set m := l + d with hmdef
    have h2 : 2 ^ (m + 1) = 2 ^ m + 2 ^ m := by rw [pow_succ]; ring
    have hm : 2 ^ (m + 1) / 2 = 2 ^ m := by omega
    have hpos : 0 < 2 ^ m := by positivity
    have hstart : q * 2 ^ (m + 1) = 2 * q * 2 ^ m := by rw [pow_succ]; ring
    have hstart2 : 2 * q * 2 ^ m + 2 ^ m = (2 * q + 1) * 2 ^ m := by ring
    rw [fftBlockGo]
    simp only [hm]
    rw [if_pos (by omega), hstart, hstart2]
    rw [hstart] at hb hrel
    have e1 : (q + 1) * 2 ^ (m + 1) = (2 * q) * 2 ^ m + 2 * 2 ^ m := by rw [pow_succ]; ring
    have e2 : (2 * q + 1) * 2 ^ m = (2 * q) * 2 ^ m + 2 ^ m := by ring
    have e3 : (2 * q + 1 + 1) * 2 ^ m = (2 * q) * 2 ^ m + 2 * 2 ^ m := by ring
    have A1 := ih (2 * q) rel b hil hrel (by omega) (fun t ht => hb t (by omega))
    have fr1 := (fftBlockGo_frame mg np nb m l (i + l) rel (2 * q * 2 ^ m) b hrel).1
    set b1 := fftBlockGo mg np nb m l (i + l) rel (2 * q * 2 ^ m) b with hb1
    have A2 := ih (2 * q + 1) rel b1 hil (by omega) (by omega) (by
      intro t ht
      rw [fr1 _ _ hk (by omega)]
      have := hb (2 ^ m + t) (by omega)
      rw [show (2 * q + 1) * 2 ^ m - rel + t = 2 * q * 2 ^ m - rel + (2 ^ m + t) by omega, this]
      congr 2; omega)
    have fr2 := (fftBlockGo_frame mg np nb m l (i + l) rel ((2 * q + 1) * 2 ^ m) b1 (by omega)).1
    by_cases htl : t < 2 ^ m
    · rw [fr2 _ _ hk (by omega), A1 t htl]
    · have := A2 (t - 2 ^ m) (by omega)
      rw [show 2 * q * 2 ^ m - rel + t = (2 * q + 1) * 2 ^ m - rel + (t - 2 ^ m) by omega, this]
      congr 2; omega

end Verif.FftP
