import Verif.FFT.Lemmas
import Mathlib.Tactic.IntervalCases

/-!
# Cached bit reversal: model and property C21

`/repo/starky/src/fft_p.rs` L11-64.
-/
namespace Verif.FftP
open Verif.FFT (revBits revBits_lt testBit_revBits revBits_invol)

/-- `fft_p.rs` L16-23, the closure `cal`. `usize` values are naturals; `x << 16` cannot overflow for `x < 2^48`, and
bits above 32 are masked away by the following lines. -/
def brCal (x p : Nat) : Nat :=
  let x := (x >>> 16) ||| (x <<< 16)
  let x := ((x &&& 0xFF00FF00) >>> 8) ||| ((x &&& 0x00FF00FF) <<< 8)
  let x := ((x &&& 0xF0F0F0F0) >>> 4) ||| ((x &&& 0x0F0F0F0F) <<< 4)
  let x := ((x &&& 0xCCCCCCCC) >>> 2) ||| ((x &&& 0x33333333) <<< 2)
  (((x &&& 0xAAAAAAAA) >>> 1) ||| ((x &&& 0x55555555) <<< 1)) >>> (32 - p)

/-- The process-global cache `BR_CACHE: Mutex<HashMap<usize, Vec<usize>>>` (L11-13): the entries, and whether the mutex
has been poisoned by a panic while it was held. -/
structure Cache where
  map : Nat → Option (List Nat)
  poisoned : Bool

/-- The cache of a fresh process. -/
def Cache.empty : Cache := ⟨fun _ => none, false⟩

/-- L36-43: the values appended to the cached vector. -/
def extend (cache : List Nat) (x p : Nat) : List Nat :=
  let n := 2 ^ p
  if cache.length ≤ n ∨ cache.length < x then
    let stop := if n ≥ x then n else x
    cache ++ ((List.range (stop + 1 - cache.length)).map fun i => brCal (cache.length + i) p)
  else cache

/-- `fft_p.rs` L14-46 `BR`: the answer (`none` for a panic) and the cache left behind. The entry is removed from the
map before it is extended, so a panic at L43 (`cache[x]`) loses it and poisons the mutex; the assertion of L15 is
made before the lock. -/
def BR (st : Cache) (x p : Nat) : Option Nat × Cache :=
  if ¬ p ≤ 32 then (none, st)
  else if st.poisoned then (none, st)
  else
    let cache := extend ((st.map p).getD []) x p
    match cache[x]? with
    | some res => (some res, ⟨Function.update st.map p (some cache), false⟩)
    | none => (none, ⟨Function.update st.map p none, true⟩)

/-- `(start..end).map(|i| cache[i])` (L63). -/
def readRange (cache : List Nat) (start stop : Nat) : Option (List Nat) :=
  ((List.range (stop - start)).map (· + start)).mapM fun i => cache[i]?

/-- `fft_p.rs` L47-64 `BRs`. The branch of L57-60 is unreachable after a successful `BR` (it would deadlock). -/
def BRs (st : Cache) (start stop p : Nat) : Option (List Nat) × Cache :=
  if ¬ start < stop then (none, st)
  else match BR st stop p with
    | (none, st) => (none, st)
    | (some _, st) => ((st.map p).bind fun cache => readRange cache start stop, st)

theorem mask_hi {m j : Nat} (hm : m < 2 ^ 32) (hj : 32 ≤ j) : m.testBit j = false :=
  Nat.testBit_lt_two_pow (lt_of_lt_of_le hm (Nat.pow_le_pow_right (by norm_num) hj))

/-- `cal` with 32 bits is the 32-bit reversal. -/
theorem brCal32 {x : Nat} (hx : x < 2 ^ 32) : brCal x 32 = revBits 32 x := by
  have hhi : ∀ j, 32 ≤ j → x.testBit j = false := fun j hj => mask_hi hx hj
  apply Nat.eq_of_testBit_eq
  intro i
  rw [testBit_revBits]
  unfold brCal
  simp only [Nat.testBit_shiftRight, Nat.testBit_or, Nat.testBit_and, Nat.testBit_shiftLeft, Nat.sub_self]
  generalize x.testBit = f at hhi ⊢
  by_cases hi : i < 33
  · interval_cases i <;> simp [Nat.testBit, hhi]
  · have h1 : Nat.testBit 0xAAAAAAAA (1 + (0 + i)) = false := mask_hi (by norm_num) (by omega)
    have h2 : Nat.testBit 0x55555555 (0 + i - 1) = false := mask_hi (by norm_num) (by omega)
    simp only [h1, h2, Bool.and_false, Bool.or_self]
    have : ¬ i < 32 := by omega
    simp [this]

theorem brCal_shift (x p : Nat) : brCal x p = brCal x 32 >>> (32 - p) := by
  simp [brCal]

/-- `cal` is the `p`-bit reversal for `x < 2^p`. -/
theorem brCal_eq {x p : Nat} (hp : p ≤ 32) (hx : x < 2 ^ p) : brCal x p = revBits p x := by
  have : x < 2 ^ 32 := lt_of_lt_of_le hx (Nat.pow_le_pow_right (by norm_num) hp)
  rw [brCal_shift, brCal32 this]
  have h2 := FFT.revIdx_eq hp hx
  rwa [FFT.revIdx, Nat.mod_eq_of_lt this] at h2

/-! ## Histories -/

/-- One call made by the program: `BR(x, p)` or `BRs(start, end, p)`. -/
inductive Call where
  | br (x p : Nat)
  | brs (start stop p : Nat)

def Call.run (st : Cache) : Call → Cache
  | .br x p => (BR st x p).2
  | .brs a b p => (BRs st a b p).2

/-- The cache after a history of calls starting from a fresh process. -/
def after (h : List Call) : Cache := h.foldl Call.run Cache.empty

/-- Every cached vector is a table of `cal`. -/
def Good (st : Cache) : Prop := ∀ p l, st.map p = some l → l = (List.range l.length).map (brCal · p)

theorem extend_good {l : List Nat} {x p : Nat} (h : l = (List.range l.length).map (brCal · p)) :
    extend l x p = (List.range (extend l x p).length).map (brCal · p) := by
  unfold extend
  simp only
  split
  · next hc =>
    generalize (if 2 ^ p ≥ x then 2 ^ p else x) = stop
    rw [List.length_append, List.length_map, List.length_range]
    apply List.ext_getElem?
    intro i
    by_cases hi : i < l.length
    · rw [List.getElem?_append_left hi]
      conv_lhs => rw [h]
      rw [List.getElem?_map, List.getElem?_map, List.getElem?_range hi, List.getElem?_range (by omega)]
    · rw [List.getElem?_append_right (by omega), List.getElem?_map, List.getElem?_map]
      by_cases hi2 : i < l.length + (stop + 1 - l.length)
      · rw [List.getElem?_range hi2, List.getElem?_range (by omega)]
        simp only [Option.map_some]
        congr 2; omega
      · rw [List.getElem?_eq_none (by simp; omega), List.getElem?_eq_none (by simp; omega)]; rfl
  · exact h

theorem extend_len (l : List Nat) (x p : Nat) :
    (extend l x p).length = if l.length ≤ 2 ^ p ∨ l.length < x then max (2 ^ p) x + 1 else l.length := by
  unfold extend
  simp only
  split
  · next hc =>
    simp only [List.length_append, List.length_map, List.length_range]
    split <;> omega
  · rfl

theorem BR_good {st : Cache} (h : Good st) (x p : Nat) : Good (BR st x p).2 := by
  unfold BR
  split
  · exact h
  split
  · exact h
  simp only
  split
  · intro q l hl
    simp only at hl
    by_cases hq : q = p
    · subst hq
      rw [Function.update_self] at hl
      cases hl
      apply extend_good
      cases hm : st.map q with
      | none => simp
      | some l => simpa using h q l hm
    · rw [Function.update_of_ne hq] at hl; exact h q l hl
  · intro q l hl
    simp only at hl
    by_cases hq : q = p
    · subst hq; rw [Function.update_self] at hl; cases hl
    · rw [Function.update_of_ne hq] at hl; exact h q l hl

theorem BRs_good {st : Cache} (h : Good st) (a b p : Nat) : Good (BRs st a b p).2 := by
  have := BR_good h b p
  unfold BRs
  split
  · exact h
  · split
    · next heq => rw [heq] at this; exact this
    · next heq => rw [heq] at this; exact this

theorem after_good (h : List Call) : Good (after h) := by
  unfold after
  have : ∀ st, Good st → Good (h.foldl Call.run st) := by
    induction h with
    | nil => exact fun _ h => h
    | cons c cs ih =>
      intro st hst
      apply ih
      cases c with
      | br x p => exact BR_good hst x p
      | brs a b p => exact BRs_good hst a b p
  exact this _ (by intro p l hl; simp [Cache.empty] at hl)

/-- C21 (value part): whatever the history of calls, an answer of `BR(x, p)` is the pure function `cal`; for `x < 2^p`
it is the `p`-bit reversal of `x`. -/
theorem BR_value (h : List Call) {x p r : Nat} (hr : (BR (after h) x p).1 = some r) :
    r = brCal x p ∧ (x < 2 ^ p → r = revBits p x) := by
  have hg := after_good h
  have hp : p ≤ 32 := by
    by_contra hc
    rw [BR, if_pos hc] at hr; cases hr
  have key : r = brCal x p := by
    rw [BR, if_neg (by simpa using hp)] at hr
    split at hr
    · cases hr
    simp only at hr
    split at hr
    · next res heq =>
      cases hr
      have hl : ((after h).map p).getD [] = (List.range (((after h).map p).getD []).length).map (brCal · p) := by
        cases hm : (after h).map p with
        | none => simp
        | some l => simpa using hg p l hm
      rw [extend_good hl, List.getElem?_map] at heq
      have hx : x < (extend (((after h).map p).getD []) x p).length := by
        by_contra hc
        rw [List.getElem?_eq_none (by simpa using hc)] at heq; simp at heq
      rw [List.getElem?_range hx] at heq
      simpa using heq.symm
    · cases hr
  exact ⟨key, fun hx => by rw [key, brCal_eq hp hx]⟩

/-- C21 (availability part): in any history that has not poisoned the cache, `BR(x, p)` answers for every `x ≤ 2^p`
(all uses in the FFT), and does not poison it. -/
theorem BR_answers (h : List Call) {x p : Nat} (hp : p ≤ 32) (hx : x ≤ 2 ^ p) (hn : (after h).poisoned = false) :
    (BR (after h) x p).1 = some (brCal x p) ∧ (BR (after h) x p).2.poisoned = false := by
  have hlen : x < (extend (((after h).map p).getD []) x p).length := by
    rw [extend_len]; split <;> omega
  have : ∃ r, (BR (after h) x p).1 = some r ∧ (BR (after h) x p).2.poisoned = false := by
    rw [BR, if_neg (by simpa using hp), hn]
    simp [List.getElem?_eq_getElem hlen]
  obtain ⟨r, hr, hr'⟩ := this
  exact ⟨by rw [hr, (BR_value h hr).1], hr'⟩

/-- C21: so histories made of in-range calls never poison the cache. -/
theorem never_poisoned (h : List Call)
    (hin : ∀ c ∈ h, match c with | .br x p => x ≤ 2 ^ p | .brs _ b p => b ≤ 2 ^ p) : (after h).poisoned = false := by
  induction h using List.reverseRecOn with
  | nil => rfl
  | append_singleton l c ih =>
    have ih := ih (fun c hc => hin c (by simp [hc]))
    have hc := hin c (by simp)
    have hB : ∀ x p, x ≤ 2 ^ p → (BR (after l) x p).2.poisoned = false := by
      intro x p hx
      by_cases hp : p ≤ 32
      · exact (BR_answers l hp hx ih).2
      · rw [BR, if_pos hp]; exact ih
    unfold after
    rw [List.foldl_append]
    show (Call.run (after l) c).poisoned = false
    cases c with
    | br x p => exact hB x p hc
    | brs a b p =>
      have hb := hB b p hc
      simp only [Call.run, BRs]
      split
      · exact ih
      · split
        · next heq => rw [heq] at hb; exact hb
        · next heq => rw [heq] at hb; exact hb

theorem mapM_some {α β : Type} {f : α → Option β} {g : α → β} {l : List α} (h : ∀ i ∈ l, f i = some (g i)) :
    l.mapM f = some (l.map g) := by
  induction l with
  | nil => rfl
  | cons a l ih =>
    rw [List.mapM_cons, h a (by simp), ih (fun i hi => h i (by simp [hi]))]; rfl

/-- C21: the table read by the FFT, `BRs(0, 2^p, p)`, is the bit-reversal table after every non-poisoning history. -/
theorem BRs_table (h : List Call) {p : Nat} (hp : p ≤ 32) (hn : (after h).poisoned = false) :
    (BRs (after h) 0 (2 ^ p) p).1 = some ((List.range (2 ^ p)).map (revBits p)) := by
  have hBR := BR_answers h hp le_rfl hn
  have hg := BR_good (after_good h) (2 ^ p) p
  have hpos : 0 < 2 ^ p := by positivity
  rw [BRs, if_neg (by omega)]
  rcases hb : BR (after h) (2 ^ p) p with ⟨r, st⟩
  rw [hb] at hBR hg
  simp only at hBR hg ⊢
  rw [hBR.1]
  simp only
  -- the entry is present and long enough
  have hst : ∃ l, st.map p = some l ∧ 2 ^ p < l.length := by
    have hlen : 2 ^ p < (extend (((after h).map p).getD []) (2 ^ p) p).length := by
      rw [extend_len]; split <;> omega
    rw [BR, if_neg (by simpa using hp), hn] at hb
    simp only [List.getElem?_eq_getElem hlen] at hb
    have := (Prod.mk.inj hb).2
    rw [← this]
    exact ⟨_, Function.update_self .., hlen⟩
  obtain ⟨l, hl, hlen⟩ := hst
  rw [hl]
  have hgl := hg p l hl
  simp only [Option.bind_some, readRange, Nat.sub_zero, Nat.add_zero, List.map_id']
  apply mapM_some
  intro i hi
  have hi := List.mem_range.1 hi
  rw [hgl, List.getElem?_map, List.getElem?_range (by omega)]
  simp [brCal_eq hp hi]

/-- C21: bit reversal is an involution. -/
theorem brCal_invol {x p : Nat} (hp : p ≤ 32) (hx : x < 2 ^ p) : brCal (brCal x p) p = x := by
  rw [brCal_eq hp hx, brCal_eq hp (revBits_lt p x), revBits_invol hx]

/-- C21 is violated for out-of-range arguments: `BR(5, 2)` answers in a fresh process, but panics and poisons the cache
for every later call when made after `BR(0, 2)`. -/
theorem BR_history_dependent :
    (BR Cache.empty 5 2).1 = some (brCal 5 2) ∧ (BR (after [.br 0 2]) 5 2).1 = none ∧
    ∀ x p, (BR (after [.br 0 2, .br 5 2]) x p).1 = none := by
  refine ⟨by decide, by decide, fun x p => ?_⟩
  have : (after [.br 0 2, .br 5 2]).poisoned = true := by decide
  rw [BR, this]
  split <;> rfl

example : (BR (after [.br 3 5, .brs 0 8 3, .br 1 3]) 6 3).1 = some 3 := by
  have := (BR_answers [.br 3 5, .brs 0 8 3, .br 1 3] (x := 6) (p := 3) (by norm_num) (by norm_num)
    (never_poisoned _ (by simp))).1
  rw [this]; decide

end Verif.FftP
