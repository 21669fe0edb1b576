import Mathlib.Data.Nat.Bitwise
import Mathlib.Tactic.Ring
import Mathlib.Tactic.Linarith

/-!
`get_permutations` of the transcripts: starky/src/transcript.rs L73-102 (window `w = 63`),
starky/src/transcript_bn128.rs L104-132 and starky/src/transcript_bls12381.rs (window `w = 253`).
The fields are the integers of the squeezed elements.
-/

namespace Verif.Perms

/-- Number of fields drawn, starky/src/transcript.rs L74-75; `none` is the arithmetic panic of
`total_bits - 1` at zero and of `n * nbits` above 64 bits (debug/overflow-checked build). -/
def nFields (w n nbits : Nat) : Option Nat :=
  if n * nbits = 0 ∨ 2 ^ 64 ≤ n * nbits then none else some ((n * nbits - 1) / w + 1)

/-- Loop state: `cur_field`, `cur_bit`, starky/src/transcript.rs L82-83. -/
structure Cur where
  field : Nat
  bit : Nat

/-- One bit, starky/src/transcript.rs L88-97; `none`: index out of bounds, or `1 << j` with `j ≥ 64`. -/
def step (w : Nat) (fields : List Nat) (j : Nat) (s : Nat × Cur) : Option (Nat × Cur) :=
  (fields[s.2.field]?).bind fun f =>
    if 64 ≤ j ∧ (f >>> s.2.bit) &&& 1 = 1 then none else
    let a := if (f >>> s.2.bit) &&& 1 = 1 then s.1 + (1 <<< j) else s.1
    if s.2.bit + 1 = w then some (a, ⟨s.2.field + 1, 0⟩) else some (a, ⟨s.2.field, s.2.bit + 1⟩)

/-- The `j` loop from `j` on, `k` iterations. -/
def bits (w : Nat) (fields : List Nat) : Nat → Nat → Nat × Cur → Option (Nat × Cur)
  | _, 0, s => some s
  | j, k + 1, s => (step w fields j s).bind fun s' => bits w fields (j + 1) k s'

/-- The `i` loop, starky/src/transcript.rs L85-100. -/
def loop (w : Nat) (fields : List Nat) (nbits : Nat) : Nat → Cur → Option (List Nat)
  | 0, _ => some []
  | n + 1, c => (bits w fields 0 nbits (0, c)).bind fun s => (loop w fields nbits n s.2).map (s.1 :: ·)

/-- `get_permutations` on the drawn fields. -/
def permutations (w : Nat) (fields : List Nat) (n nbits : Nat) : Option (List Nat) :=
  loop w fields nbits n ⟨0, 0⟩

/-- The bit at position `p` of the windowed stream of the fields: `w` low bits of each. -/
def streamBit (w : Nat) (fields : List Nat) (p : Nat) : Bool := (fields.getD (p / w) 0).testBit (p % w)

theorem testBit_and_one (f k : Nat) : ((f >>> k) &&& 1 = 1) ↔ f.testBit k = true := by
  rw [Nat.testBit, Nat.and_comm]
  rcases Nat.mod_two_eq_zero_or_one (f >>> k) with h | h <;> simp [Nat.one_and_eq_mod_two, h]

/-- the cursor after `p` bits -/
def cur (w p : Nat) : Cur := ⟨p / w, p % w⟩

theorem cur_succ {w : Nat} (hw : 0 < w) (p : Nat) :
    (if p % w + 1 = w then (⟨p / w + 1, 0⟩ : Cur) else ⟨p / w, p % w + 1⟩) = cur w (p + 1) := by
  unfold cur
  have h1 := Nat.div_add_mod p w
  have h2 := Nat.mod_lt p hw
  split_ifs with h
  · have e : p + 1 = w * (p / w + 1) := by rw [mul_add, mul_one]; omega
    rw [e, Nat.mul_div_cancel_left _ hw, Nat.mul_mod_right]
  · have e : p + 1 = (p % w + 1) + w * (p / w) := by omega
    have h3 : p % w + 1 < w := by omega
    have d : (p + 1) / w = p / w := by
      rw [e, Nat.add_mul_div_left _ _ hw, Nat.div_eq_of_lt h3, Nat.zero_add]
    have m : (p + 1) % w = p % w + 1 := by
      rw [e, Nat.add_mul_mod_self_left, Nat.mod_eq_of_lt h3]
    rw [d, m]

theorem bits_spec {w : Nat} (hw : 0 < w) (fields : List Nat) (k j a p : Nat) (hj : j + k ≤ 64)
    (hp : p + k ≤ w * fields.length) (ha : a < 2 ^ j) :
    ∃ v, bits w fields j k (a, cur w p) = some (v, cur w (p + k)) ∧ v < 2 ^ (j + k) ∧
      (∀ i < j, v.testBit i = a.testBit i) ∧ ∀ i < k, v.testBit (j + i) = streamBit w fields (p + i) := by
  induction k generalizing j a p with
  | zero => exact ⟨a, by simp [bits], ha, fun _ _ => rfl, by omega⟩
  | succ k ih =>
    have hidx : p / w < fields.length := by
      apply Nat.div_lt_of_lt_mul; omega
    let b := fields[p / w].testBit (p % w)
    let a' := if b then a + 2 ^ j else a
    have hstep : step w fields j (a, cur w p) = some (a', cur w (p + 1)) := by
      unfold step
      show (fields[p / w]?).bind _ = _
      rw [List.getElem?_eq_getElem hidx, Option.bind_some]
      have hcs := cur_succ hw p
      show (if 64 ≤ j ∧ (fields[p / w] >>> (p % w)) &&& 1 = 1 then none else
        if p % w + 1 = w then some ((if (fields[p / w] >>> (p % w)) &&& 1 = 1 then a + 1 <<< j else a), (⟨p / w + 1, 0⟩ : Cur))
        else some ((if (fields[p / w] >>> (p % w)) &&& 1 = 1 then a + 1 <<< j else a), ⟨p / w, p % w + 1⟩)) = _
      rw [if_neg (by omega), ← hcs]
      have ha' : (if (fields[p / w] >>> (p % w)) &&& 1 = 1 then a + 1 <<< j else a) = a' := by
        show _ = if b then _ else _
        simp only [testBit_and_one, Nat.one_shiftLeft]; rfl
      rw [ha']
      split_ifs <;> rfl
    have ha2 : a' < 2 ^ (j + 1) := by
      have : (2 : Nat) ^ (j + 1) = 2 ^ j + 2 ^ j := by rw [pow_succ]; ring
      show (if b then _ else _) < _
      split_ifs <;> omega
    have hlow : ∀ i < j, a'.testBit i = a.testBit i := by
      intro i hi
      show (if b then _ else _ : Nat).testBit i = _
      split_ifs
      · rw [Nat.add_comm, Nat.testBit_two_pow_add_gt hi]
      · rfl
    have hhi : a'.testBit j = b := by
      show (if b then _ else _ : Nat).testBit j = _
      split_ifs with h
      · rw [Nat.add_comm, Nat.testBit_two_pow_add_eq, Nat.testBit_lt_two_pow ha, h]; rfl
      · rw [Nat.testBit_lt_two_pow ha]; simpa using h
    obtain ⟨v, h1, h2, h3, h4⟩ := ih (j + 1) a' (p + 1) (by omega) (by omega) ha2
    refine ⟨v, ?_, by rw [show j + (k + 1) = j + 1 + k by omega]; exact h2, ?_, ?_⟩
    · rw [bits, hstep, Option.bind_some, h1, show p + 1 + k = p + (k + 1) by omega]
    · intro i hi
      rw [h3 i (by omega), hlow i hi]
    · intro i hi
      cases i with
      | zero =>
        rw [Nat.add_zero, h3 j (by omega), hhi]
        show b = _
        simp [b, streamBit, hidx]
      | succ i =>
        rw [show j + (i + 1) = j + 1 + i by omega, h4 i (by omega), show p + 1 + i = p + (i + 1) by omega]

theorem loop_spec {w : Nat} (hw : 0 < w) (fields : List Nat) (nbits : Nat) (hb : nbits ≤ 64) (n p : Nat)
    (hp : p + n * nbits ≤ w * fields.length) :
    ∃ l, loop w fields nbits n (cur w p) = some l ∧ l.length = n ∧
      ∀ i < n, l.getD i 0 < 2 ^ nbits ∧ ∀ j < nbits, (l.getD i 0).testBit j = streamBit w fields (p + i * nbits + j) := by
  induction n generalizing p with
  | zero => exact ⟨[], rfl, rfl, by omega⟩
  | succ n ih =>
    rw [Nat.succ_mul] at hp
    obtain ⟨v, h1, h2, -, h3⟩ := bits_spec hw fields nbits 0 0 p (by omega) (by omega) (by simp)
    obtain ⟨l, h4, h5, h6⟩ := ih (p + nbits) (by omega)
    refine ⟨v :: l, by rw [loop, h1, Option.bind_some, h4]; rfl, by simp [h5], ?_⟩
    intro i hi
    cases i with
    | zero =>
      refine ⟨by simpa using h2, fun j hj => ?_⟩
      have := h3 j hj
      simpa using this
    | succ i =>
      refine ⟨by simpa using (h6 i (by omega)).1, fun j hj => ?_⟩
      have := (h6 i (by omega)).2 j hj
      rw [List.getD_cons_succ, this, Nat.succ_mul]
      congr 1; omega

/-- Query indices: for every `n`, `nbits ≤ 64` with `n * nbits` a nonzero machine integer and every sequence of
drawn fields of the length the function draws, it returns `n` indices below `2 ^ nbits`, and bit `j` of index `i`
is bit number `i * nbits + j` of the stream made of the low `w` bits of each field; in particular no out-of-bounds
access happens. -/
theorem permutations_spec {w : Nat} (hw : 0 < w) (n nbits m : Nat) (hb : nbits ≤ 64) (fields : List Nat)
    (hm : nFields w n nbits = some m) (hf : fields.length = m) :
    ∃ l, permutations w fields n nbits = some l ∧ l.length = n ∧
      ∀ i < n, l.getD i 0 < 2 ^ nbits ∧
        ∀ j < nbits, (l.getD i 0).testBit j = (fields.getD ((i * nbits + j) / w) 0).testBit ((i * nbits + j) % w) := by
  unfold nFields at hm
  split_ifs at hm with h0
  have hm' := Option.some.inj hm
  have hlen : 0 + n * nbits ≤ w * fields.length := by
    rw [hf, ← hm', mul_add, mul_one]
    have h1 := Nat.div_add_mod (n * nbits - 1) w
    have h2 := Nat.mod_lt (n * nbits - 1) hw
    omega
  obtain ⟨l, h1, h2, h3⟩ := loop_spec hw fields nbits hb n 0 hlen
  have hc : cur w 0 = ⟨0, 0⟩ := by simp [cur]
  refine ⟨l, by unfold permutations; rw [← hc]; exact h1, h2, fun i hi => ⟨(h3 i hi).1, fun j hj => ?_⟩⟩
  rw [(h3 i hi).2 j hj, Nat.zero_add]; rfl

/-- Every bit of the stream is used at most once: different (index, bit) positions read different positions. -/
theorem positions_distinct {nbits i j i' j' : Nat} (hj : j < nbits) (hj' : j' < nbits)
    (h : i * nbits + j = i' * nbits + j') : i = i' ∧ j = j' := by
  have e1 : (i * nbits + j) / nbits = i := by
    rw [Nat.add_comm, Nat.add_mul_div_right _ _ (by omega), Nat.div_eq_of_lt hj, Nat.zero_add]
  have e2 : (i' * nbits + j') / nbits = i' := by
    rw [Nat.add_comm, Nat.add_mul_div_right _ _ (by omega), Nat.div_eq_of_lt hj', Nat.zero_add]
  have : i = i' := by rw [← e1, ← e2, h]
  subst this
  exact ⟨rfl, by omega⟩

/-- Zero queries, or zero bits per query, panic. -/
theorem nFields_zero (w n nbits : Nat) (h : n * nbits = 0) : nFields w n nbits = none := by
  unfold nFields; rw [if_pos (Or.inl h)]

example : nFields 63 32 24 = some 13 ∧ (24 : Nat) ≤ 64 := by decide
example : permutations 63 [2 ^ 62 + 5, 6] 3 22 = some [5, 0, 2 ^ 18 + 2 ^ 20 + 2 ^ 21] := by decide +kernel
example : nFields 253 128 20 = some 11 := by decide

end Verif.Perms
