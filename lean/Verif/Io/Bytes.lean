import Mathlib.Data.Nat.ModEq
import Mathlib.Tactic.Ring
import Mathlib.Tactic.NormNum

/-!
# Byte streams

A file is a list of bytes.  A reader (`std::io::Read` with the `byteorder` and `read_exact` calls) is a function from the unread bytes to a
value and the remaining bytes; `none` is an error or a panic.
-/
namespace Verif.Io

/-- a byte -/
abbrev Byte := Fin 256

/-- `k` little-endian bytes of `v` (`write_u32::<LittleEndian>`, `write_u64`, `to_le_bytes`) -/
def le : Nat → Nat → List Byte
  | 0, _ => []
  | k + 1, v => ⟨v % 256, Nat.mod_lt _ (by norm_num)⟩ :: le k (v / 256)

/-- the value of little-endian bytes -/
def unle : List Byte → Nat
  | [] => 0
  | b :: bs => b.val + 256 * unle bs

@[simp] theorem le_length (k v : Nat) : (le k v).length = k := by
  induction k generalizing v with
  | zero => rfl
  | succ k ih => simp [le, ih]

theorem unle_le (k v : Nat) : unle (le k v) = v % 256 ^ k := by
  induction k generalizing v with
  | zero => simp [le, unle, Nat.mod_one]
  | succ k ih =>
    simp only [le, unle, ih]
    rw [pow_succ', Nat.mod_mul]

theorem unle_le_of_lt {k v : Nat} (h : v < 256 ^ k) : unle (le k v) = v := by rw [unle_le, Nat.mod_eq_of_lt h]

theorem unle_lt (bs : List Byte) : unle bs < 256 ^ bs.length := by
  induction bs with
  | nil => simp [unle]
  | cons b bs ih =>
    simp only [unle, List.length_cons, pow_succ']
    have := b.isLt
    omega

theorem le_unle (bs : List Byte) : le bs.length (unle bs) = bs := by
  induction bs with
  | nil => rfl
  | cons b bs ih =>
    simp only [List.length_cons, le, unle]
    have hb := b.isLt
    have h1 : (b.val + 256 * unle bs) % 256 = b.val := by omega
    have h2 : (b.val + 256 * unle bs) / 256 = unle bs := by omega
    rw [h2, ih]
    congr 1
    exact Fin.ext h1

theorem unle_append (a b : List Byte) : unle (a ++ b) = unle a + 256 ^ a.length * unle b := by
  induction a with
  | nil => simp [unle]
  | cons x a ih =>
    simp only [List.cons_append, unle, ih, List.length_cons, pow_succ']
    ring

theorem le_inj {k v w : Nat} (hv : v < 256 ^ k) (hw : w < 256 ^ k) (h : le k v = le k w) : v = w := by
  rw [← unle_le_of_lt hv, ← unle_le_of_lt hw, h]

theorem le_mod (k v : Nat) : le k (v % 256 ^ k) = le k v := by
  induction k generalizing v with
  | zero => rfl
  | succ k ih =>
    simp only [le]
    have h1 : v % 256 ^ (k + 1) % 256 = v % 256 := by
      rw [pow_succ']; exact Nat.mod_mul_right_mod _ _ _
    have h2 : v % 256 ^ (k + 1) / 256 = v / 256 % 256 ^ k := by
      rw [pow_succ']; exact Nat.mod_mul_right_div_self _ _ _
    rw [h2, ih]
    congr 1
    exact Fin.ext h1

/-- a reader -/
abbrev Rd (α : Type) := StateT (List Byte) Option α

/-- `read_exact` on a buffer of `k` bytes -/
def rdN (k : Nat) : Rd (List Byte) := fun bs => if bs.length < k then none else some (bs.take k, bs.drop k)

/-- `read_u32::<LittleEndian>` (`k = 4`), `read_u64` (`k = 8`), `repr.read_le` of a field (`k` = its size) -/
def rdLe (k : Nat) : Rd Nat := do return unle (← rdN k)

theorem rdN_iff (k : Nat) (bs x rest : List Byte) : rdN k bs = some (x, rest) ↔ x.length = k ∧ bs = x ++ rest := by
  unfold rdN
  constructor
  · intro h
    split at h
    · simp at h
    · simp only [Option.some.injEq, Prod.mk.injEq] at h
      obtain ⟨rfl, rfl⟩ := h
      exact ⟨by rw [List.length_take]; omega, (List.take_append_drop k bs).symm⟩
  · rintro ⟨rfl, rfl⟩
    rw [if_neg (by simp), List.take_left, List.drop_left]

theorem rdLe_iff (k : Nat) (bs rest : List Byte) (v : Nat) : rdLe k bs = some (v, rest) ↔ v < 256 ^ k ∧ bs = le k v ++ rest := by
  have hdef : rdLe k bs = (rdN k bs).map fun p => (unle p.1, p.2) := by
    simp only [rdLe, bind, StateT.bind, pure, StateT.pure]
    cases h : rdN k bs with
    | none => rfl
    | some p => rfl
  rw [hdef, Option.map_eq_some_iff]
  constructor
  · rintro ⟨⟨x, y⟩, h, e⟩
    obtain ⟨hx, rfl⟩ := (rdN_iff _ _ _ _).mp h
    simp only [Prod.mk.injEq] at e
    obtain ⟨rfl, rfl⟩ := e
    subst hx
    exact ⟨unle_lt x, by rw [le_unle]⟩
  · rintro ⟨hv, rfl⟩
    exact ⟨(le k v, rest), (rdN_iff _ _ _ _).mpr ⟨le_length _ _, rfl⟩, by simp [unle_le_of_lt hv]⟩

/-- sequencing of readers -/
theorem bind_iff {α β : Type} (r : Rd α) (f : α → Rd β) (bs : List Byte) (q : β × List Byte) :
    (r >>= f) bs = some q ↔ ∃ a bs', r bs = some (a, bs') ∧ f a bs' = some q := by
  simp only [bind, StateT.bind]
  constructor
  · intro h
    cases h' : r bs with
    | none => rw [h'] at h; cases h
    | some p =>
      rw [h'] at h
      exact ⟨p.1, p.2, rfl, h⟩
  · rintro ⟨a, bs', h1, h2⟩
    rw [h1]
    exact h2

theorem pure_iff {α : Type} (a : α) (bs : List Byte) (q : α × List Byte) : (pure a : Rd α) bs = some q ↔ q = (a, bs) := by
  simp only [pure, StateT.pure, Option.some.injEq]
  exact eq_comm

/-- failure -/
def fail {α : Type} : Rd α := fun _ => none

/-- a check that ends the reading with an error -/
def check (c : Prop) [Decidable c] : Rd Unit := fun bs => if c then some ((), bs) else none

theorem check_iff (c : Prop) [Decidable c] (bs : List Byte) (q : Unit × List Byte) : check c bs = some q ↔ c ∧ q = ((), bs) := by
  unfold check
  split
  · rename_i h; simp [h, eq_comm]
  · rename_i h; simp [h]

theorem check_bind {β : Type} (c : Prop) [Decidable c] (f : Unit → Rd β) (bs : List Byte) (q : β × List Byte) :
    (check c >>= f) bs = some q ↔ c ∧ f () bs = some q := by
  rw [bind_iff]
  simp only [check_iff, Prod.mk.injEq]
  constructor
  · rintro ⟨u, bs', ⟨h, -, rfl⟩, h2⟩; exact ⟨h, h2⟩
  · rintro ⟨h, h2⟩; exact ⟨(), bs, ⟨h, trivial, rfl⟩, h2⟩

/-- `n` times the same reader -/
def rdMany {α : Type} (r : Rd α) : Nat → Rd (List α)
  | 0 => pure []
  | n + 1 => do
    let a ← r
    let l ← rdMany r n
    return a :: l

/-- if one value is read exactly from its encoding, `n` of them are -/
theorem rdMany_iff {α : Type} (r : Rd α) (enc : α → List Byte) (ok : α → Prop)
    (h : ∀ bs a rest, r bs = some (a, rest) ↔ ok a ∧ bs = enc a ++ rest) (n : Nat) (bs : List Byte) (l : List α) (rest : List Byte) :
    rdMany r n bs = some (l, rest) ↔ l.length = n ∧ (∀ a ∈ l, ok a) ∧ bs = l.flatMap enc ++ rest := by
  induction n generalizing bs l with
  | zero =>
    rw [rdMany, pure_iff]
    constructor
    · intro e
      simp only [Prod.mk.injEq] at e
      obtain ⟨rfl, rfl⟩ := e
      simp
    · rintro ⟨h1, -, h3⟩
      rw [List.length_eq_zero_iff] at h1
      subst h1
      simp at h3
      rw [h3]
  | succ n ih =>
    rw [rdMany, bind_iff]
    constructor
    · rintro ⟨a, bs1, h1, h2⟩
      rw [bind_iff] at h2
      obtain ⟨l', bs2, h2, h3⟩ := h2
      rw [pure_iff] at h3
      simp only [Prod.mk.injEq] at h3
      obtain ⟨rfl, rfl⟩ := h3
      obtain ⟨oka, rfl⟩ := (h _ _ _).mp h1
      obtain ⟨hl, hok, rfl⟩ := (ih _ _).mp h2
      refine ⟨by simp [hl], ?_, by simp⟩
      intro x hx
      rcases List.mem_cons.mp hx with rfl | hx
      · exact oka
      · exact hok x hx
    · rintro ⟨hl, hok, rfl⟩
      cases l with
      | nil => simp at hl
      | cons a l =>
        refine ⟨a, l.flatMap enc ++ rest, (h _ _ _).mpr ⟨hok a (by simp), by simp⟩, ?_⟩
        rw [bind_iff]
        exact ⟨l, rest, (ih _ _).mpr ⟨by simpa using hl, fun x hx => hok x (by simp [hx]), rfl⟩, (pure_iff _ _ _).mpr rfl⟩

end Verif.Io
