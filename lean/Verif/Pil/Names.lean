import Mathlib.Data.List.Basic

/-!
# C135: the names of exported columns, recursion/src/pilcom/export.rs L185-195
-/
namespace Verif.Pil.Names

/-- strings -/
abbrev Str := List Char

/-- `name.rfind("::")` (standard library): where the last occurrence begins -/
def rfind : Str → Option Nat
  | [] => none
  | c :: cs => match rfind cs with
    | some i => some (i + 1)
    | none => if c = ':' ∧ cs.head? = some ':' then some 0 else none

/-- `fixup_name`, export.rs L187-195; `none` is a panic -/
def fixupName (name : Str) : Option Str :=
  if '.' ∈ name then some name else (rfind name).map fun i => name.take i ++ '.' :: name.drop (i + 1)

theorem rfind_plain (x : Str) (h : ':' ∉ x) : rfind x = none := by
  induction x with
  | nil => rfl
  | cons c cs ih =>
    rw [rfind, ih fun h' => h (List.mem_cons_of_mem _ h')]
    exact if_neg fun h' => h (by rw [h'.1]; exact List.mem_cons_self)

theorem rfind_eq (ns x : Str) (h : ':' ∉ x) : rfind (ns ++ ':' :: ':' :: x) = some ns.length := by
  induction ns with
  | nil =>
    have h1 : rfind (':' :: x) = none := by
      rw [rfind, rfind_plain x h]
      refine if_neg fun h' => h ?_
      cases x with
      | nil => simp at h'
      | cons c cs => rw [List.head?_cons] at h'; rw [Option.some.inj h'.2]; exact List.mem_cons_self
    rw [List.nil_append, rfind, h1]
    rfl
  | cons c cs ih =>
    rw [List.cons_append, rfind, ih]
    rfl

theorem rfind_some (name : Str) : ∀ i, rfind name = some i → ∃ t, name = name.take i ++ ':' :: ':' :: t := by
  induction name with
  | nil => intro i h; cases h
  | cons c cs ih =>
    intro i h
    rw [rfind] at h
    cases hr : rfind cs with
    | some k =>
      rw [hr] at h
      cases h
      obtain ⟨t, ht⟩ := ih k hr
      exact ⟨t, by rw [List.take_succ_cons, List.cons_append, ← ht]⟩
    | none =>
      rw [hr] at h
      dsimp only at h
      split at h
      · rename_i hc
        cases h
        obtain ⟨d, t, rfl⟩ : ∃ d t, cs = d :: t := List.exists_cons_of_ne_nil (by rintro rfl; simp at hc)
        rw [List.head?_cons] at hc
        exact ⟨t, by rw [hc.1, Option.some.inj hc.2]; rfl⟩
      · cases h

/-- a name with a dot is kept -/
theorem fixup_dot (name : Str) (h : '.' ∈ name) : fixupName name = some name := if_pos h

/-- **C135, what happens**: the name `x` of namespace `ns` is exported with one dot, which stands for the first of the two colons.  Missing: that it stands
for both, so that the name is `x` in the namespace `ns`, which fails (`fixup_colon`). -/
theorem fixup_partial (ns x : Str) (h1 : '.' ∉ ns) (h2 : '.' ∉ x) (h3 : ':' ∉ x) :
    fixupName (ns ++ ':' :: ':' :: x) = some (ns ++ '.' :: ':' :: x) ∧ (ns ++ '.' :: ':' :: x).count '.' = 1 := by
  constructor
  · rw [fixupName, if_neg (by simp [h1, h2]), rfind_eq ns x h3, Option.map_some]
    congr 1
    rw [List.take_left, List.drop_append, List.drop_eq_nil_of_le (by omega), Nat.add_sub_cancel_left]
    rfl
  · rw [List.count_append, List.count_cons_self, List.count_eq_zero_of_not_mem h1, List.count_eq_zero_of_not_mem (by simp [h2])]

/-- different names without a dot stay different -/
theorem fixup_inj {a b c : Str} (ha : '.' ∉ a) (hb : '.' ∉ b) (h : fixupName a = some c) (h' : fixupName b = some c) : a = b := by
  have key : ∀ {a : Str}, '.' ∉ a → fixupName a = some c → ∃ l t, a = l ++ ':' :: ':' :: t ∧ c = l ++ '.' :: ':' :: t ∧ '.' ∉ l := by
    intro a ha h
    rw [fixupName, if_neg ha] at h
    obtain ⟨i, h1, h2⟩ := Option.map_eq_some_iff.mp h
    obtain ⟨t, ht⟩ := rfind_some a i h1
    have hl : (a.take i).length = i := by
      have := congrArg List.length ht
      rw [List.length_append, List.length_take] at this
      simp only [List.length_cons] at this
      rw [List.length_take]
      omega
    refine ⟨a.take i, t, ht, ?_, fun hm => ha (List.mem_of_mem_take hm)⟩
    rw [← h2]
    congr 2
    conv_lhs => rw [ht]
    rw [List.drop_append, List.drop_eq_nil_of_le (by omega), hl, Nat.add_sub_cancel_left]
    rfl
  obtain ⟨l, t, rfl, rfl, hl⟩ := key ha h
  obtain ⟨l', t', rfl, e, hl'⟩ := key hb h'
  have : ∀ (l l' : Str) (t t' : Str), '.' ∉ l → '.' ∉ l' → l ++ '.' :: ':' :: t = l' ++ '.' :: ':' :: t' → l = l' ∧ t = t' := by
    intro l
    induction l with
    | nil =>
      intro l' t t' _ hl' e
      cases l' with
      | nil => simpa using e
      | cons d l' => exact absurd (by rw [List.nil_append, List.cons_append] at e; rw [(List.cons.inj e).1]; exact List.mem_cons_self) hl'
    | cons d l ih =>
      intro l' t t' hl hl' e
      cases l' with
      | nil => exact absurd (by rw [List.nil_append, List.cons_append] at e; rw [← (List.cons.inj e).1]; exact List.mem_cons_self) hl
      | cons d' l' =>
        rw [List.cons_append, List.cons_append] at e
        obtain ⟨rfl, e'⟩ := List.cons.inj e
        obtain ⟨rfl, rfl⟩ := ih l' t t' (fun h => hl (List.mem_cons_of_mem _ h)) (fun h => hl' (List.mem_cons_of_mem _ h)) e'
        exact ⟨rfl, rfl⟩
  obtain ⟨rfl, rfl⟩ := this _ _ _ _ hl hl' e
  rfl

/-- a colon is left: column `x` of namespace `main` is exported as `:x` of namespace `main` -/
theorem fixup_colon : fixupName "main::x".toList = some "main.:x".toList ∧ fixupName "main::x".toList ≠ some "main.x".toList := by decide

/-- a dot made by the export is followed by a colon -/
theorem fixup_new {a c : Str} (ha : '.' ∉ a) (h : fixupName a = some c) : ':' ∈ c := by
  rw [fixupName, if_neg ha] at h
  obtain ⟨i, h1, rfl⟩ := Option.map_eq_some_iff.mp h
  obtain ⟨t, ht⟩ := rfind_some a i h1
  have hl : (a.take i).length = i := by
    have := congrArg List.length ht
    rw [List.length_append, List.length_take] at this
    simp only [List.length_cons] at this
    rw [List.length_take]
    omega
  have : a.drop (i + 1) = ':' :: t := by
    conv_lhs => rw [ht]
    rw [List.drop_append, List.drop_eq_nil_of_le (by omega), hl, Nat.add_sub_cancel_left]
    rfl
  rw [this]
  simp

/-- the column `Global.L1` that the arguments of the prover look up (starky/src/constant.rs L118, starkinfo_Z.rs L127-131) is only there if it has this very name
in the source: `Global::L1` is not found -/
theorem fixup_L1 (name : Str) : fixupName name = some "Global.L1".toList ↔ name = "Global.L1".toList := by
  constructor
  · intro h
    by_cases hd : '.' ∈ name
    · rw [fixup_dot name hd] at h
      exact Option.some.inj h
    · exact absurd (fixup_new hd h) (by decide)
  · rintro rfl
    decide

/-- nested namespaces, and a name that is kept -/
example : fixupName "std::hash::x".toList = some "std::hash.:x".toList ∧ fixupName "main.x".toList = some "main.x".toList ∧ fixupName "x".toList = none := by decide

end Verif.Pil.Names
