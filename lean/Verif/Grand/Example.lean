import Verif.Grand.Link

/-!
# Non-vacuity: a table with a lookup, a permutation and a connection

Two committed columns `a`, `b` on two rows, with `(a, b)` looked up in `(b, a)` (with a selector that is one everywhere), `a` a permutation of
`b`, and every cell of `a` connected to the cell of `b` in the other row.
-/
namespace Verif.Grand.Example
open Codegen Codegen.Spec Stark
open Verif.GL (F)

/-- columns `a`, `b`, the connection labels, and the constant one -/
def exps : List (Expr F) := [eCm 0, eCm 1, eCol .const_ 1, eCol .const_ 2, eNum 1]
def st : PilSt F := ⟨exps, [], 2⟩
def args : Args := ⟨[⟨[0, 1], [1, 0], none, some 4⟩], [⟨[0], [1], none, none⟩], [⟨[0, 1], [2, 3]⟩]⟩
/-- the points of the rows -/
def pt (i : Nat) : F := (-1) ^ i
/-- the constant columns: `L1` and the labels -/
def fx (k i : Nat) : Option F :=
  if k = 0 then some (if i = 0 then 1 else 0) else if k = 1 then some (label id pt 1 (1 - i)) else some (label id pt 0 (1 - i))
/-- a fulfilling table: rows `(5, 6)` and `(6, 5)` -/
def a1 (i : Nat) : F := if i = 0 then 5 else 6
def b1 (i : Nat) : F := if i = 0 then 6 else 5
def good (k i : Nat) : Option F := if k = 0 then some (a1 i) else some (b1 i)
/-- a table that violates everything: rows `(5, 6)` and `(7, 5)` -/
def a2 (i : Nat) : F := if i = 0 then 5 else 7
def bad (k i : Nat) : Option F := if k = 0 then some (a2 i) else some (b1 i)

/-- the setup succeeds -/
theorem gen : ∃ st' cx, genArgs id (some 0) st args = some (st', cx) := ⟨_, _, rfl⟩

/-- the store of the first round -/
abbrev row (c : Nat → Nat → Option F) : Nat → Store F := rowStore 2 (sections 2 2 c (fun _ _ => none) fun _ _ => none) fx [] [] pt

theorem col0 (c : Nat → Nat → Option F) (v : Nat → F) (h : ∀ i < 2, c 0 i = some (v i)) : Col exps 2 (row c) 1 0 v := by
  intro i hi
  refine v_exp (e := eCm 0) rfl rfl (v_cm rfl ?_)
  simp only [rowStore, Bool.or_self, Bool.false_eq_true, if_false, Nat.add_zero, Nat.mod_eq_of_lt hi]
  exact h i hi

theorem col1 (c : Nat → Nat → Option F) (v : Nat → F) (h : ∀ i < 2, c 1 i = some (v i)) : Col exps 2 (row c) 1 1 v := by
  intro i hi
  refine v_exp (e := eCm 1) rfl rfl (v_cm rfl ?_)
  simp only [rowStore, Bool.or_self, Bool.false_eq_true, if_false, Nat.add_zero, Nat.mod_eq_of_lt hi]
  exact h i hi

theorem col2 (c : Nat → Nat → Option F) : Col exps 2 (row c) 1 2 fun i => label id pt 1 (1 - i) := by
  intro i hi
  refine v_exp (e := eCol .const_ 1) rfl rfl (v_const ?_)
  simp only [rowStore, Bool.or_self, Bool.false_eq_true, if_false, Nat.add_zero, Nat.mod_eq_of_lt hi]
  rfl

theorem col3 (c : Nat → Nat → Option F) : Col exps 2 (row c) 1 3 fun i => label id pt 0 (1 - i) := by
  intro i hi
  refine v_exp (e := eCol .const_ 2) rfl rfl (v_const ?_)
  simp only [rowStore, Bool.or_self, Bool.false_eq_true, if_false, Nat.add_zero, Nat.mod_eq_of_lt hi]
  rfl

theorem col4 (c : Nat → Nat → Option F) : Col exps 2 (row c) 1 4 fun _ => 1 :=
  fun _ _ => v_exp (e := eNum 1) rfl rfl (v_num 1)

theorem lookupSides (c : Nat → Nat → Option F) (v w : Nat → F) (h0 : ∀ i < 2, c 0 i = some (v i)) (h1 : ∀ i < 2, c 1 i = some (w i)) :
    Sides st.exps 2 (row c) 1 ⟨[0, 1], [1, 0], none, some 4⟩ [v, w] [w, v] (fun _ => 1) fun _ => 1 where
  f := .cons (col0 c v h0) (.cons (col1 c w h1) .nil)
  t := .cons (col1 c w h1) (.cons (col0 c v h0) .nil)
  selF := by simp
  selT := by rintro k ⟨⟩; exact col4 c
  noF := by simp
  noT := by simp
  boolF := by simp
  boolT := by simp
  len := rfl
  pos := by simp

theorem permSides (c : Nat → Nat → Option F) (v w : Nat → F) (h0 : ∀ i < 2, c 0 i = some (v i)) (h1 : ∀ i < 2, c 1 i = some (w i)) :
    Sides st.exps 2 (row c) 1 ⟨[0], [1], none, none⟩ [v] [w] (fun _ => 1) fun _ => 1 where
  f := .cons (col0 c v h0) .nil
  t := .cons (col1 c w h1) .nil
  selF := by simp
  selT := by simp
  noF := by simp
  noT := by simp
  boolF := by simp
  boolT := by simp
  len := rfl
  pos := by simp

theorem nextRow (c : Nat → Nat → Option F) (v w : Nat → F) (h0 : ∀ i < 2, c 0 i = some (v i)) (h1 : ∀ i < 2, c 1 i = some (w i)) :
    NextRow st.exps 2 (row c) 1 ⟨[0, 1], [1, 0], none, some 4⟩ [w, v] fun _ => 1 where
  t := by
    refine .cons (fun i hi => ?_) (.cons (fun i hi => ?_) .nil)
    · refine v_exp (e := eCm 1) rfl rfl (v_cm rfl ?_)
      exact h1 _ (nxt_lt (by norm_num))
    · refine v_exp (e := eCm 0) rfl rfl (v_cm rfl ?_)
      exact h0 _ (nxt_lt (by norm_num))
  sel := by rintro k ⟨⟩ i hi; exact v_exp (e := eNum 1) rfl rfl (v_num 1)

theorem num_ne : (5 : F) ≠ 6 ∧ (5 : F) ≠ 7 ∧ (6 : F) ≠ 7 := ⟨by decide +kernel, by decide +kernel, by decide +kernel⟩

/-- hypotheses of `permutation_sound` -/
example : ∃ st' cx, genArgs id (some 0) st args = some (st', cx) ∧ (⟨[0], [1], none, none⟩ : LookupId) ∈ args.permutations ∧
    Sides st.exps 2 (rowStore 2 (sections st.nCm st.nCm bad (fun _ _ => none) fun _ _ => none) fx [] [] pt) 1 ⟨[0], [1], none, none⟩ [a2] [b1]
      (fun _ => 1) (fun _ => 1) ∧
    (∀ l, some 0 = some l → ∃ v, v ≠ 0 ∧ fx l 0 = some v) ∧ selected 2 [a2] (fun _ => (1 : F)) ≠ selected 2 [b1] fun _ => 1 := by
  obtain ⟨st', cx, h⟩ := gen
  refine ⟨st', cx, h, by simp [args], permSides bad a2 b1 (fun _ _ => rfl) (fun _ _ => rfl), ?_, ?_⟩
  · rintro l ⟨⟩
    exact ⟨1, one_ne_zero, rfl⟩
  · intro he
    have : [7] ∈ selected 2 [b1] fun _ => (1 : F) := by
      rw [← he]
      exact Multiset.mem_map.mpr ⟨1, by simp, rfl⟩
    obtain ⟨i, hi, hv⟩ := Multiset.mem_map.mp this
    have hi' : i < 2 := Multiset.mem_range.mp (Multiset.mem_filter.mp hi).1
    interval_cases i
    · exact num_ne.2.2 (by simpa [tuple, b1] using hv)
    · exact num_ne.2.1 (by simpa [tuple, b1] using hv)

/-- hypotheses of `plookup_sound` -/
example : ∃ st' cx, genArgs id (some 0) st args = some (st', cx) ∧ (∀ e ∈ st.exps, Plain st.exps.length e) ∧
    (⟨[0, 1], [1, 0], none, some 4⟩ : LookupId) ∈ args.plookups ∧
    Sides st.exps 2 (rowStore 2 (sections st.nCm st.nCm bad (fun _ _ => none) fun _ _ => none) fx [] [] pt) 1 ⟨[0, 1], [1, 0], none, some 4⟩
      [a2, b1] [b1, a2] (fun _ => 1) (fun _ => 1) ∧
    (∀ l, some 0 = some l → ∃ v, v ≠ 0 ∧ fx l 0 = some v) ∧
    ∃ i < 2, (1 : F) = 1 ∧ ∀ j < 2, (1 : F) = 1 → tuple [a2, b1] i ≠ tuple [b1, a2] j := by
  obtain ⟨st', cx, h⟩ := gen
  refine ⟨st', cx, h, ?_, by simp [args], lookupSides bad a2 b1 (fun _ _ => rfl) (fun _ _ => rfl), ?_, 1, by norm_num, rfl, ?_⟩
  · intro e he
    simp only [st, exps, List.mem_cons, List.not_mem_nil, or_false] at he
    rcases he with rfl | rfl | rfl | rfl | rfl <;> exact p_leaf (by simp) (by simp)
  · rintro l ⟨⟩
    exact ⟨1, one_ne_zero, rfl⟩
  · intro j hj _ he
    interval_cases j
    · exact num_ne.2.2 (by simpa [tuple, a2, b1] using (congrArg List.head? he).symm)
    · exact num_ne.2.1 (by simpa [tuple, a2, b1] using (congrArg List.head? he).symm)

/-- hypotheses of `connection_sound` -/
example : ∃ st' cx, genArgs id (some 0) st args = some (st', cx) ∧ (⟨[0, 1], [2, 3]⟩ : ConnId) ∈ args.connections ∧
    List.Forall₂ (Col st.exps 2 (row bad) 1) [0, 1] [a2, b1] ∧
    List.Forall₂ (Col st.exps 2 (row bad) 1) [2, 3] [fun i => label id pt 1 (1 - i), fun i => label id pt 0 (1 - i)] ∧
    (∀ l, some 0 = some l → ∃ v, v ≠ 0 ∧ fx l 0 = some v) ∧
    (∀ j < 2, ∀ i < 2, ∀ j' < 2, ∀ i' < 2, label id pt j i = label id pt j' i' → j = j' ∧ i = i') ∧
    ∃ j < 2, ∃ i < 2, ∃ j' < 2, ∃ i' < 2,
      (tuple [fun i => label id pt 1 (1 - i), fun i => label id pt 0 (1 - i)] i).getD j 0 = label id pt j' i' ∧
      (tuple [a2, b1] i).getD j 0 ≠ (tuple [a2, b1] i').getD j' 0 := by
  obtain ⟨st', cx, h⟩ := gen
  refine ⟨st', cx, h, by simp [args], .cons (col0 bad a2 fun _ _ => rfl) (.cons (col1 bad b1 fun _ _ => rfl) .nil),
    .cons (col2 bad) (.cons (col3 bad) .nil), ?_, ?_, 0, by norm_num, 1, by norm_num, 1, by norm_num, 0, by norm_num, rfl, ?_⟩
  · rintro l ⟨⟩
    exact ⟨1, one_ne_zero, rfl⟩
  · have key : ∀ j < 2, ∀ i < 2, ∀ j' < 2, ∀ i' < 2, label id pt j i = label id pt j' i' → j = j' ∧ i = i' := by
      intro j hj i hi j' hj' i' hi'
      interval_cases j <;> interval_cases i <;> interval_cases j' <;> interval_cases i' <;> decide +kernel
    exact key
  · simp only [tuple, a2, b1, List.map_cons, List.map_nil, if_neg one_ne_zero, if_true]
    exact fun he => num_ne.2.2 he.symm

/-- hypotheses of `args_complete` -/
theorem fulfils : Fulfils id st args 2 good fx [] pt where
  ids := by simp [Holds, st]
  lookup := by
    intro pi hpi
    obtain rfl := List.mem_singleton.mp hpi
    refine ⟨1, [a1, b1], [b1, a1], fun _ => 1, fun _ => 1, lookupSides good a1 b1 (fun _ _ => rfl) (fun _ _ => rfl),
      nextRow good a1 b1 (fun _ _ => rfl) (fun _ _ => rfl), ?_⟩
    intro i hi _
    refine ⟨1 - i, by omega, rfl, ?_⟩
    interval_cases i <;> simp [tuple, a1, b1]
  perm := by
    intro pi hpi
    obtain rfl := List.mem_singleton.mp hpi
    refine ⟨1, [a1], [b1], fun _ => 1, fun _ => 1, permSides good a1 b1 (fun _ _ => rfl) (fun _ _ => rfl), ?_⟩
    have e : ∀ v : Nat → F, selected 2 [v] (fun _ => 1) = {[v 0], [v 1]} := by
      intro v
      simp [selected, tuple, Multiset.range_succ]
      exact Multiset.cons_swap _ _ _
    rw [e, e]
    exact Multiset.cons_swap _ _ _
  conn := by
    intro ci hci
    obtain rfl := List.mem_singleton.mp hci
    refine ⟨1, [a1, b1], [fun i => label id pt 1 (1 - i), fun i => label id pt 0 (1 - i)],
      .cons (col0 good a1 fun _ _ => rfl) (.cons (col1 good b1 fun _ _ => rfl) .nil), .cons (col2 good) (.cons (col3 good) .nil), ?_⟩
    refine ⟨(Equiv.prodCongr Fin.revPerm Fin.revPerm : Equiv.Perm (Fin 2 × Fin 2)), ?_⟩
    rintro ⟨i, j⟩
    fin_cases i <;> fin_cases j <;> exact ⟨rfl, rfl⟩

example : (∃ st' cx, genArgs id (some 0) st args = some (st', cx)) ∧ (∀ l, some 0 = some l → ∀ i < 2, fx l i = some (if i = 0 then 1 else 0)) ∧
    Fulfils id st args 2 good fx [] pt ∧ ArgsWF args st.exps.length := by
  refine ⟨gen, ?_, fulfils, ⟨?_, ?_⟩⟩
  · rintro l ⟨⟩ i _
    rfl
  · intro pi hpi
    obtain rfl := List.mem_singleton.mp hpi
    simp [st, exps]
  · intro pi hpi
    obtain rfl := List.mem_singleton.mp hpi
    simp [st, exps]

end Verif.Grand.Example

namespace Verif.Grand

/-- The code asks for `pols.len() - 1` multipliers and `get_ks(0)` panics: a connection identity with a single column cannot be set up. -/
theorem single_column_connection {A : Type} [One A] (emb : GL.F → A) (l1 : Option Nat) (st : PilSt A) (p : Nat) (conns : List Nat) :
    connZOne emb l1 st ⟨[p], conns⟩ = none := by
  unfold connZOne
  cases conns <;> rfl

end Verif.Grand
