import Verif.FftP.Lemmas
import Verif.FFT.Props

/-! # Lemmas on the layer loop of the blocked FFT -/
namespace Verif.FftP
open Verif.FFT (Roots revBits revBits_lt)

set_option linter.unusedSectionVars false

variable {A : Type} [Field A]

/-- A loop over consecutive blocks of size `c`, each written from values that do not depend on the buffer. -/
theorem foldl_blocks (c base m : Nat) (g : Nat → Nat → A) (step : Buf A → Nat → Buf A) (hc : 0 < c)
    (hstep : ∀ b j x, step b j x = if base + j * c ≤ x ∧ x < base + j * c + c then g j (x - (base + j * c)) else b x)
    (b : Buf A) (x : Nat) :
    (List.range m).foldl step b x =
      if base ≤ x ∧ x < base + m * c then g ((x - base) / c) ((x - base) % c) else b x := by
  induction m with
  | zero => rw [if_neg (by omega)]; rfl
  | succ m ih =>
    rw [List.range_succ, List.foldl_append, List.foldl_cons, List.foldl_nil, hstep, ih]
    have e : (m + 1) * c = m * c + c := by ring
    by_cases h1 : base + m * c ≤ x ∧ x < base + m * c + c
    · rw [if_pos h1, if_pos (by omega)]
      obtain ⟨t, rfl⟩ : ∃ t, x = base + (m * c + t) := ⟨x - (base + m * c), by omega⟩
      have ht : t < c := by omega
      rw [show base + (m * c + t) - base = m * c + t by omega, flat_div ht, flat_mod ht]
      congr 1; omega
    · rw [if_neg h1]
      by_cases h2 : base ≤ x ∧ x < base + m * c
      · rw [if_pos h2, if_pos (by omega)]
      · rw [if_neg h2, if_neg (by omega)]

theorem transpose_eq (np nb t : Nat) (ht : t ≤ nb) (dst src : Buf A) (r k : Nat) (hk : k < np) :
    transpose np nb t dst src (r * np + k) =
      if r < 2 ^ nb then src ((r % 2 ^ (nb - t) * 2 ^ t + r / 2 ^ (nb - t)) * np + k) else dst (r * np + k) := by
  unfold transpose
  rw [Nat.pow_div ht (by norm_num)]
  set h := 2 ^ (nb - t) with hh
  have hpos : 0 < h := by positivity
  have hnp : 0 < np := by omega
  have inner : ∀ (i j : Nat) (b : Buf A) (x : Nat), (List.range np).foldl (fun b k =>
      Function.update b ((i * h + j) * np + k) (src ((j * 2 ^ t + i) * np + k))) b x =
      if (i * h + j) * np ≤ x ∧ x < (i * h + j) * np + np then src ((j * 2 ^ t + i) * np + (x - (i * h + j) * np)) else b x := by
    intro i j b x
    have := foldl_blocks 1 ((i * h + j) * np) np (fun k _ => src ((j * 2 ^ t + i) * np + k))
      (fun b k => Function.update b ((i * h + j) * np + k) (src ((j * 2 ^ t + i) * np + k))) (by norm_num)
      (by
        intro b k x
        by_cases hx : x = (i * h + j) * np + k
        · rw [hx, Function.update_self, if_pos (by omega)]
        · rw [Function.update_of_ne hx, if_neg (by omega)]) b x
    rw [this]
    simp
  have mid : ∀ (i : Nat) (b : Buf A) (x : Nat), (List.range h).foldl (fun b j => (List.range np).foldl (fun b k =>
      Function.update b ((i * h + j) * np + k) (src ((j * 2 ^ t + i) * np + k))) b) b x =
      if i * (h * np) ≤ x ∧ x < i * (h * np) + h * np then
        src (((x - i * (h * np)) / np * 2 ^ t + i) * np + (x - i * (h * np)) % np) else b x := by
    intro i b x
    apply foldl_blocks np (i * (h * np)) h (fun j y => src ((j * 2 ^ t + i) * np + y)) _ hnp
    intro b j x
    have e : (i * h + j) * np = i * (h * np) + j * np := by ring
    rw [inner, e]
  have outer := foldl_blocks (h * np) 0 (2 ^ t) (fun i y => src ((y / np * 2 ^ t + i) * np + y % np))
    (fun b i => (List.range h).foldl (fun b j => (List.range np).foldl (fun b k =>
      Function.update b ((i * h + j) * np + k) (src ((j * 2 ^ t + i) * np + k))) b) b) (by positivity)
    (by intro b i x; simp only [zero_add]; exact mid i b x) dst (r * np + k)
  rw [outer]
  have e1 : 2 ^ t * (h * np) = 2 ^ nb * np := by rw [hh, ← mul_assoc, ← pow_add]; congr 2; omega
  simp only [Nat.sub_zero, Nat.zero_le, true_and, zero_add]
  rw [e1]
  have e2 : (r * np + k) / (h * np) = r / h := by
    rw [mul_comm h, ← Nat.div_div_eq_div_mul, flat_div hk]
  have e3 : (r * np + k) % (h * np) = r % h * np + k := by
    rw [mul_comm h, Nat.mod_mul, flat_mod hk, flat_div hk]; ring
  rw [e2, e3, flat_div hk, flat_mod hk]
  simp only [flat_lt hk]

theorem parChunks_row (np m : Nat) (f : Nat → Buf A → Buf A) (b : Buf A) (r k : Nat) (hk : k < np) :
    parChunks (m * np) f b (r * np + k) = f (r / m) (fun y => b (r / m * (m * np) + y)) (r % m * np + k) := by
  unfold parChunks
  have e2 : (r * np + k) / (m * np) = r / m := by
    rw [mul_comm m, ← Nat.div_div_eq_div_mul, flat_div hk]
  have e3 : (r * np + k) % (m * np) = r % m * np + k := by
    rw [mul_comm m, Nat.mod_mul, flat_mod hk, flat_div hk]; ring
  rw [e2, e3]

/-- The block pass over the whole buffer. -/
theorem pass_spec {mg : Nat → A} {nb : Nat} (hw : Roots mg nb) {D : Nat → Nat → A} (hD : Stages mg nb D)
    {np k bb l i : Nat} (hk : k < np) (hl : l ≤ bb) (hbb : bb ≤ nb) (hil : i + l ≤ nb) (b : Buf A)
    (hb : ∀ r < 2 ^ nb, b (r * np + k) = D i (logi nb i r)) :
    ∀ r < 2 ^ nb, parChunks (2 ^ bb * np) (fun j c => fftBlock mg np nb (j * 2 ^ bb) (i + l) bb l c) b (r * np + k)
      = D (i + l) (logi nb i r) := by
  intro r hr
  rw [parChunks_row _ _ _ _ _ _ hk]
  set q := r / 2 ^ bb with hq
  have hpos : 0 < 2 ^ bb := by positivity
  have hrm : r % 2 ^ bb < 2 ^ bb := Nat.mod_lt _ hpos
  have hqlt : (q + 1) * 2 ^ bb ≤ 2 ^ nb := by
    have e : 2 ^ nb = 2 ^ (nb - bb) * 2 ^ bb := by rw [← pow_add]; congr 1; omega
    rw [e]
    apply Nat.mul_le_mul_right
    rw [hq, Nat.succ_le_iff, Nat.div_lt_iff_lt_mul hpos, ← e]; exact hr
  obtain ⟨d, rfl⟩ : ∃ d, bb = l + d := ⟨bb - l, by omega⟩
  have := fftBlockGo_spec hw hD np k hk i l d q (q * 2 ^ (l + d)) (fun y => b (q * (2 ^ (l + d) * np) + y)) hil le_rfl hqlt
    (by
      intro t ht
      rw [Nat.sub_self, zero_add, show q * (2 ^ (l + d) * np) + (t * np + k) = (q * 2 ^ (l + d) + t) * np + k by ring]
      apply hb
      have : (q + 1) * 2 ^ (l + d) = q * 2 ^ (l + d) + 2 ^ (l + d) := by ring
      omega)
    (r % 2 ^ (l + d)) hrm
  rw [Nat.sub_self, zero_add] at this
  unfold fftBlock
  rw [this]
  congr 2
  rw [hq, mul_comm]; exact Nat.div_add_mod r _

/-- Rows `lo ≤ r < hi` of column `k` are zero. -/
def ZeroRows (np k lo hi : Nat) (b : Buf A) : Prop := ∀ r, lo ≤ r → r < hi → b (r * np + k) = 0

theorem pass_zero (mg : Nat → A) {np k nb bb e : Nat} (hk : k < np) (hbb : bb ≤ nb) (s l : Nat) (b : Buf A)
    (h : ZeroRows np k (2 ^ nb) (2 ^ (nb + e)) b) :
    ZeroRows np k (2 ^ nb) (2 ^ (nb + e))
      (parChunks (2 ^ bb * np) (fun j c => fftBlock mg np nb (j * 2 ^ bb) s bb l c) b) := by
  intro r hr1 hr2
  rw [parChunks_row _ _ _ _ _ _ hk]
  set q := r / 2 ^ bb with hq
  have hpos : 0 < 2 ^ bb := by positivity
  have hrm : r % 2 ^ bb < 2 ^ bb := Nat.mod_lt _ hpos
  have e1 : 2 ^ nb = 2 ^ (nb - bb) * 2 ^ bb := by rw [← pow_add]; congr 1; omega
  have e2 : 2 ^ (nb + e) = 2 ^ (nb + e - bb) * 2 ^ bb := by rw [← pow_add]; congr 1; omega
  have h1 : 2 ^ nb ≤ q * 2 ^ bb := by
    rw [e1]; apply Nat.mul_le_mul_right
    rw [hq, Nat.le_div_iff_mul_le hpos, ← e1]; exact hr1
  have h2 : (q + 1) * 2 ^ bb ≤ 2 ^ (nb + e) := by
    rw [e2]; apply Nat.mul_le_mul_right
    rw [hq, Nat.succ_le_iff, Nat.div_lt_iff_lt_mul hpos, ← e2]; exact hr2
  unfold fftBlock
  refine (fftBlockGo_frame mg np nb bb l s (q * 2 ^ bb) (q * 2 ^ bb) _ le_rfl).2 k hk ?_ _ (by omega) (by omega)
  intro t _ ht
  rw [Nat.sub_self, zero_add] at ht
  rw [show q * (2 ^ bb * np) + (t * np + k) = (q * 2 ^ bb + t) * np + k by ring]
  apply h
  · omega
  · have : (q + 1) * 2 ^ bb = q * 2 ^ bb + 2 ^ bb := by ring
    omega

/-- The buffer that is not the caller's. -/
def Bufs.tmp (s : Bufs A) : Buf A := if s.inIsOut then s.bout else s.bin

theorem layer_spec {mg : Nat → A} {nb : Nat} (hw : Roots mg nb) {D : Nat → Nat → A} (hD : Stages mg nb D)
    {np k bb i : Nat} (hk : k < np) (hbb : bb ≤ nb) (hi : i < nb) (hlt : bb < nb) (s : Bufs A)
    (hb : ∀ r < 2 ^ nb, s.bin (r * np + k) = D i (logi nb i r)) :
    (∀ r < 2 ^ nb, (layer mg np nb bb i s).bin (r * np + k) = D (i + min bb (nb - i)) (logi nb (i + min bb (nb - i)) r)) ∧
    (layer mg np nb bb i s).inIsOut = !s.inIsOut := by
  unfold layer
  simp only
  set l := min bb (nb - i) with hl
  have hpass := pass_spec hw hD hk (l := l) (bb := bb) (i := i) (by omega) hbb (by omega) s.bin hb
  rw [if_pos (by omega)]
  refine ⟨fun r hr => ?_, rfl⟩
  simp only [Bufs.swap]
  rw [transpose_eq np nb l (by omega) _ _ _ _ hk, if_pos hr]
  have hlog := (logi_transpose (nb := nb) (i := i) (t := l) (d := r) (by omega)).resolve_right (by omega)
  rw [hpass, hlog]
  have h1 : r % 2 ^ (nb - l) < 2 ^ (nb - l) := Nat.mod_lt _ (by positivity)
  have h2 : r / 2 ^ (nb - l) < 2 ^ l := by
    rw [Nat.div_lt_iff_lt_mul (by positivity), ← pow_add]; rwa [show l + (nb - l) = nb by omega]
  have h3 : 2 ^ nb = 2 ^ (nb - l) * 2 ^ l := by rw [← pow_add]; congr 1; omega
  calc r % 2 ^ (nb - l) * 2 ^ l + r / 2 ^ (nb - l) < (r % 2 ^ (nb - l) + 1) * 2 ^ l := by ring_nf; omega
    _ ≤ 2 ^ (nb - l) * 2 ^ l := Nat.mul_le_mul_right _ h1
    _ = 2 ^ nb := h3.symm

theorem layer_zero (mg : Nat → A) {np k nb bb e i : Nat} (hk : k < np) (hbb : bb ≤ nb) (s : Bufs A) :
    (ZeroRows np k (2 ^ nb) (2 ^ (nb + e)) s.result → ZeroRows np k (2 ^ nb) (2 ^ (nb + e)) (layer mg np nb bb i s).result) ∧
    (ZeroRows np k (2 ^ nb) (2 ^ (nb + e)) s.tmp → ZeroRows np k (2 ^ nb) (2 ^ (nb + e)) (layer mg np nb bb i s).tmp) := by
  have hp := pass_zero mg (e := e) hk hbb (i + min bb (nb - i)) (min bb (nb - i)) s.bin
  have ht : ∀ dst src : Buf A, ZeroRows np k (2 ^ nb) (2 ^ (nb + e)) dst →
      ZeroRows np k (2 ^ nb) (2 ^ (nb + e)) (transpose np nb (min bb (nb - i)) dst src) := by
    intro dst src h r h1 h2
    rw [transpose_eq np nb _ (by omega) _ _ _ _ hk, if_neg (by omega)]
    exact h r h1 h2
  rcases s with ⟨bin, bout, f⟩
  by_cases hc : min bb (nb - i) < nb
  · simp only [layer, hc, if_true, Bufs.swap, Bufs.result, Bufs.tmp]
    cases f
    · exact ⟨fun h => ht _ _ h, hp⟩
    · exact ⟨hp, fun h => ht _ _ h⟩
  · simp only [layer, hc, if_false, Bufs.result, Bufs.tmp]
    cases f
    · exact ⟨id, hp⟩
    · exact ⟨hp, id⟩

theorem layers_zero (mg : Nat → A) {np k nb bb e : Nat} (hk : k < np) (hbb : bb ≤ nb) (s : Bufs A) :
    (ZeroRows np k (2 ^ nb) (2 ^ (nb + e)) s.result → ZeroRows np k (2 ^ nb) (2 ^ (nb + e)) (layers mg np nb bb s).result) ∧
    (ZeroRows np k (2 ^ nb) (2 ^ (nb + e)) s.tmp → ZeroRows np k (2 ^ nb) (2 ^ (nb + e)) (layers mg np nb bb s).tmp) := by
  unfold layers
  induction (List.range ((nb + bb - 1) / bb)) generalizing s with
  | nil => exact ⟨id, id⟩
  | cons q l ih =>
    simp only [List.foldl_cons]
    obtain ⟨h1, h2⟩ := ih (layer mg np nb bb (q * bb) s)
    obtain ⟨h3, h4⟩ := layer_zero mg (e := e) (i := q * bb) hk hbb s
    exact ⟨fun h => h1 (h3 h), fun h => h2 (h4 h)⟩

theorem layers_spec {mg : Nat → A} {nb : Nat} (hw : Roots mg nb) {D : Nat → Nat → A} (hD : Stages mg nb D)
    {np k bb : Nat} (hk : k < np) (hbb : bb ≤ nb) (hbb0 : 0 < bb) (s : Bufs A)
    (hb : ∀ r < 2 ^ nb, s.bin (r * np + k) = D 0 r) :
    ∀ r < 2 ^ nb, (layers mg np nb bb s).bin (r * np + k) = D nb r := by
  unfold layers
  by_cases hlt : bb < nb
  · -- several passes
    have gen : ∀ m, m ≤ (nb + bb - 1) / bb → ∀ r < 2 ^ nb,
        ((List.range m).foldl (fun s q => layer mg np nb bb (q * bb) s) s).bin (r * np + k) =
          D (min (m * bb) nb) (logi nb (min (m * bb) nb) r) := by
      intro m
      induction m with
      | zero =>
        intro _ r hr
        simp only [List.range_zero, List.foldl_nil, zero_mul, Nat.zero_min]
        rw [hb r hr, logi_zero hr]
      | succ m ih =>
        intro hm
        have hmb : m * bb < nb := by
          have h1 : (m + 1) * bb ≤ nb + bb - 1 := (Nat.le_div_iff_mul_le hbb0).1 hm
          have h2 : (m + 1) * bb = m * bb + bb := by ring
          omega
        have ih := ih (by omega)
        rw [List.range_succ, List.foldl_append, List.foldl_cons, List.foldl_nil]
        generalize (List.range m).foldl _ s = s' at ih ⊢
        rw [show min (m * bb) nb = m * bb by omega] at ih
        have := (layer_spec hw hD hk hbb hmb hlt s' ih).1
        have e : m * bb + min bb (nb - m * bb) = min ((m + 1) * bb) nb := by
          have h2 : (m + 1) * bb = m * bb + bb := by ring
          omega
        rwa [e] at this
    intro r hr
    rw [gen _ le_rfl r hr]
    have e : min ((nb + bb - 1) / bb * bb) nb = nb := by
      have h1 := Nat.div_add_mod (nb + bb - 1) bb
      have h2 := Nat.mod_lt (nb + bb - 1) hbb0
      have h3 : bb * ((nb + bb - 1) / bb) = (nb + bb - 1) / bb * bb := mul_comm _ _
      omega
    rw [e, logi_full]
  · -- one pass, no transposition
    have e : bb = nb := by omega
    subst e
    have hone : (bb + bb - 1) / bb = 1 := by
      rw [Nat.div_eq_of_lt_le] <;> omega
    rw [hone]
    intro r hr
    simp only [List.range_one, List.foldl_cons, List.foldl_nil, zero_mul, layer, Nat.sub_zero, min_self,
      lt_irrefl, if_false]
    rw [pass_spec hw hD hk le_rfl hbb (by omega) s.bin (i := 0) (by
      intro r hr; rw [hb r hr, logi_zero hr]) r hr, logi_zero hr, zero_add]

theorem layers_flag (mg : Nat → A) {np nb bb : Nat} (hbb : bb ≤ nb) (hbb0 : 0 < bb) (s : Bufs A) :
    (layers mg np nb bb s).inIsOut = (s.inIsOut ^^ decide (nTransposes nb bb % 2 = 1)) := by
  unfold layers nTransposes
  by_cases hlt : bb < nb
  · rw [if_pos hlt]
    have e : (nb + bb - 1) / bb = (nb - 1) / bb + 1 := by
      rw [show nb + bb - 1 = (nb - 1) + bb by omega, Nat.add_div_right _ hbb0]
    rw [e]
    generalize (nb - 1) / bb + 1 = m
    induction m with
    | zero => simp
    | succ m ih =>
      rw [List.range_succ, List.foldl_append, List.foldl_cons, List.foldl_nil]
      have : ∀ s' i, (layer mg np nb bb i s').inIsOut = !s'.inIsOut := by
        intro s' i
        unfold layer
        simp only
        rw [if_pos (by omega)]; rfl
      rw [this, ih]
      rcases Nat.mod_two_eq_zero_or_one m with h | h
      · have : (m + 1) % 2 = 1 := by omega
        simp [h, this]
      · have : (m + 1) % 2 = 0 := by omega
        simp [h, this]
  · rw [if_neg hlt]
    have e : bb = nb := by omega
    subst e
    have hone : (bb + bb - 1) / bb = 1 := by
      rw [Nat.div_eq_of_lt_le] <;> omega
    rw [hone]
    simp [layer]

end Verif.FftP
