import Verif.Plonk.Spec
import Mathlib.Tactic.Ring
import Mathlib.Tactic.LinearCombination
import Mathlib.Tactic.NormNum
import Mathlib.Algebra.BigOperators.Group.List.Basic
import Mathlib.Data.ZMod.Basic
import Mathlib.Tactic.NormNum.Prime
import Mathlib.Algebra.Field.ZMod

/-!
# R1CS to PLONK: proofs
-/
set_option linter.unusedSectionVars false
namespace Verif.Plonk

variable {F : Type} [Field F] [DecidableEq F]

/-! ### Maps -/

/-- keys strictly increasing -/
def Sorted (m : LC F) : Prop := m.Pairwise fun a b => a.1 < b.1

omit [Field F] [DecidableEq F] in
theorem get?_none_of_lt (m : LC F) (k : Nat) (h : ∀ e ∈ m, k < e.1) : get? m k = none := by
  induction m with
  | nil => rfl
  | cons e m ih =>
    obtain ⟨k', v⟩ := e
    have : k < k' := h (k', v) (by simp)
    unfold get?
    rw [if_neg (by omega)]
    exact ih fun e he => h e (by simp [he])

omit [Field F] [DecidableEq F] in
theorem mem_insert {m : LC F} {k : Nat} {v : F} {e : Nat × F} (h : e ∈ insert m k v) : e = (k, v) ∨ e ∈ m := by
  induction m with
  | nil => simpa [insert] using h
  | cons a m ih =>
    obtain ⟨k', v'⟩ := a
    unfold insert at h
    split at h
    · simpa using h
    · split at h
      · simp only [List.mem_cons] at h ⊢
        rcases h with h | h
        · exact Or.inl h
        · exact Or.inr (Or.inr h)
      · simp only [List.mem_cons] at h ⊢
        rcases h with h | h
        · exact Or.inr (Or.inl h)
        · rcases ih h with h | h
          · exact Or.inl h
          · exact Or.inr (Or.inr h)

omit [Field F] [DecidableEq F] in
theorem insert_sorted {m : LC F} (hm : Sorted m) (k : Nat) (v : F) : Sorted (insert m k v) := by
  induction m with
  | nil => simp [insert, Sorted]
  | cons a m ih =>
    obtain ⟨k', v'⟩ := a
    have hm' := List.pairwise_cons.mp hm
    unfold insert
    split
    · rename_i h
      refine List.pairwise_cons.mpr ⟨?_, hm⟩
      intro b hb
      rcases List.mem_cons.mp hb with rfl | hb
      · exact h
      · exact lt_trans h (hm'.1 b hb)
    · split
      · rename_i h
        subst h
        exact List.pairwise_cons.mpr ⟨hm'.1, hm'.2⟩
      · rename_i h1 h2
        refine List.pairwise_cons.mpr ⟨?_, ih hm'.2⟩
        intro b hb
        rcases mem_insert hb with rfl | hb
        · show k' < k
          omega
        · exact hm'.1 b hb

omit [DecidableEq F] in
theorem evalLC_cons (w : Nat → F) (e : Nat × F) (m : List (Nat × F)) : evalLC w (e :: m) = e.2 * w e.1 + evalLC w m := by
  simp [evalLC]

omit [DecidableEq F] in
theorem evalLC_append (w : Nat → F) (a b : List (Nat × F)) : evalLC w (a ++ b) = evalLC w a + evalLC w b := by
  simp [evalLC]

omit [DecidableEq F] in
theorem evalLC_insert (w : Nat → F) {m : LC F} (hm : Sorted m) (k : Nat) (v : F) :
    evalLC w (insert m k v) = evalLC w m + (v - (get? m k).getD 0) * w k := by
  induction m with
  | nil => simp [insert, get?, evalLC]
  | cons a m ih =>
    obtain ⟨k', v'⟩ := a
    have hm' := List.pairwise_cons.mp hm
    unfold insert get?
    split
    · rename_i h
      rw [if_neg (by omega), get?_none_of_lt m k (fun e he => lt_trans h (hm'.1 e he))]
      simp only [evalLC_cons, Option.getD_none]
      ring
    · split
      · rename_i h
        subst h
        rw [if_pos rfl]
        simp only [evalLC_cons, Option.getD_some]
        ring
      · rename_i h1 h2
        rw [if_neg (fun h => h2 h.symm)]
        simp only [evalLC_cons, ih hm'.2]
        ring

omit [DecidableEq F] in
theorem addTo_spec {m : LC F} (hm : Sorted m) (k : Nat) (v : F) :
    Sorted (addTo m k v) ∧ (∀ w, evalLC w (addTo m k v) = evalLC w m + v * w k) ∧ ∀ e ∈ addTo m k v, e.1 = k ∨ ∃ e' ∈ m, e'.1 = e.1 := by
  unfold addTo
  cases h : get? m k with
  | none =>
    refine ⟨insert_sorted hm k v, fun w => ?_, ?_⟩
    · rw [evalLC_insert w hm, h]; simp
    · intro e he
      rcases mem_insert he with rfl | he
      · exact Or.inl rfl
      · exact Or.inr ⟨e, he, rfl⟩
  | some t =>
    refine ⟨insert_sorted hm k _, fun w => ?_, ?_⟩
    · rw [evalLC_insert w hm, h]; simp
    · intro e he
      rcases mem_insert he with rfl | he
      · exact Or.inl rfl
      · exact Or.inr ⟨e, he, rfl⟩

omit [DecidableEq F] in
theorem foldl_addTo (f : F → F) (l : List (Nat × F)) {m : LC F} (hm : Sorted m) :
    Sorted (l.foldl (fun (r : LC F) e => addTo r e.1 (f e.2)) m) ∧
    (∀ w, evalLC w (l.foldl (fun (r : LC F) e => addTo r e.1 (f e.2)) m) = evalLC w m + (l.map fun e => f e.2 * w e.1).sum) ∧
    ∀ n, UsesBelow n m → UsesBelow n l → UsesBelow n (l.foldl (fun (r : LC F) e => addTo r e.1 (f e.2)) m) := by
  induction l generalizing m with
  | nil => exact ⟨hm, fun w => by simp, fun n h _ => h⟩
  | cons a l ih =>
    obtain ⟨h1, h2, h3⟩ := addTo_spec hm a.1 (f a.2)
    obtain ⟨i1, i2, i3⟩ := ih h1
    refine ⟨i1, fun w => ?_, fun n hn hl => ?_⟩
    · rw [List.foldl_cons, i2, h2, List.map_cons, List.sum_cons]
      ring
    · refine i3 n ?_ fun e he => hl e (by simp [he])
      intro e he
      rcases h3 e he with h | ⟨e', he', h⟩
      · rw [h]; exact hl a (by simp)
      · rw [← h]; exact hn e' he'

theorem evalLC_filter (w : Nat → F) (l : List (Nat × F)) : evalLC w (l.filter fun e => decide (e.2 ≠ 0)) = evalLC w l := by
  induction l with
  | nil => rfl
  | cons a l ih =>
    by_cases h : a.2 = 0
    · rw [List.filter_cons_of_neg (by simp [h]), ih, evalLC_cons, h]
      ring
    · rw [List.filter_cons_of_pos (by simp [h]), evalLC_cons, evalLC_cons, ih]

theorem join_spec (lc1 : LC F) (k : F) (lc2 : LC F) :
    (∀ w, evalLC w (join lc1 k lc2) = k * evalLC w lc1 + evalLC w lc2) ∧
    ∀ n, UsesBelow n lc1 → UsesBelow n lc2 → UsesBelow n (join lc1 k lc2) := by
  obtain ⟨s1, e1, u1⟩ := foldl_addTo (fun v => k * v) lc1 (m := ([] : LC F)) (by simp [Sorted])
  obtain ⟨-, e2, u2⟩ := foldl_addTo (fun v => v) lc2 s1
  constructor
  · intro w
    unfold join normalize
    rw [evalLC_filter, e2, e1]
    have h : (lc1.map fun e => k * e.2 * w e.1).sum = k * evalLC w lc1 := by
      unfold evalLC
      rw [← List.sum_map_mul_left]
      congr 1
      refine List.map_congr_left fun e _ => ?_
      ring
    rw [h]
    simp [evalLC]
  · intro n h1 h2 e he
    unfold join normalize at he
    exact u2 n (u1 n (fun e he => by simp at he) h1) h2 e (List.mem_of_mem_filter he)

omit [DecidableEq F] in
theorem toBeMap_spec {lc : List (Nat × F)} {m : LC F} (h : toBeMap lc = some m) :
    (∀ w, evalLC w m = evalLC w lc) ∧ (∀ e, e ∈ m ↔ e ∈ lc) := by
  have key : ∀ (lc : List (Nat × F)) (m0 m : LC F), Sorted m0 →
      lc.foldlM (fun (r : LC F) c => if (get? r c.1).isSome then none else some (insert r c.1 c.2)) m0 = some m →
      (∀ w, evalLC w m = evalLC w m0 + evalLC w lc) ∧ (∀ e, e ∈ m ↔ e ∈ m0 ∨ e ∈ lc) := by
    intro lc
    induction lc with
    | nil =>
      intro m0 m _ h
      simp only [List.foldlM_nil, pure, Option.some.injEq] at h
      subst h
      exact ⟨fun w => by simp [evalLC], fun e => by simp⟩
    | cons a lc ih =>
      intro m0 m hs h
      rw [List.foldlM_cons] at h
      obtain ⟨m1, h1, h2⟩ := Option.bind_eq_some_iff.mp h
      split at h1
      · simp at h1
      · rename_i hn
        simp only [Option.some.injEq] at h1
        subst h1
        have hnone : get? m0 a.1 = none := by simpa using hn
        obtain ⟨i1, i2⟩ := ih _ m (insert_sorted hs a.1 a.2) h2
        constructor
        · intro w
          rw [i1, evalLC_insert w hs, hnone, evalLC_cons]
          simp only [Option.getD_none]
          ring
        · intro e
          rw [i2]
          have mem : ∀ (m0 : LC F), get? m0 a.1 = none → (e ∈ insert m0 a.1 a.2 ↔ e = a ∨ e ∈ m0) := by
            intro m0
            induction m0 with
            | nil => intro _; simp [insert]
            | cons b m0 ihm =>
              obtain ⟨k', v'⟩ := b
              intro hg
              unfold get? at hg
              split at hg
              · simp at hg
              · rename_i hk
                unfold insert
                split
                · simp
                · rw [if_neg (fun h => hk h.symm)]
                  simp only [List.mem_cons, ihm hg]
                  constructor
                  · rintro (h | h | h)
                    · exact Or.inr (Or.inl h)
                    · exact Or.inl h
                    · exact Or.inr (Or.inr h)
                  · rintro (h | h | h)
                    · exact Or.inr (Or.inl h)
                    · exact Or.inl h
                    · exact Or.inr (Or.inr h)
          rw [mem m0 hnone]
          simp only [List.mem_cons]
          constructor
          · rintro ((h | h) | h)
            · exact Or.inr (Or.inl h)
            · exact Or.inl h
            · exact Or.inr (Or.inr h)
          · rintro (h | h | h)
            · exact Or.inl (Or.inr h)
            · exact Or.inl (Or.inl h)
            · exact Or.inr h
  obtain ⟨h1, h2⟩ := key lc [] m (by simp [Sorted]) h
  exact ⟨fun w => by rw [h1]; simp [evalLC], fun e => by rw [h2]; simp⟩

omit [Field F] [DecidableEq F] in
theorem get?_some_mem {m : LC F} {k : Nat} {v : F} (h : get? m k = some v) : (k, v) ∈ m := by
  induction m with
  | nil => simp [get?] at h
  | cons a m ih =>
    obtain ⟨k', v'⟩ := a
    unfold get? at h
    split at h
    · rename_i hk
      simp only [Option.some.injEq] at h
      subst hk h
      simp
    · exact List.mem_cons_of_mem _ (ih h)

omit [Field F] [DecidableEq F] in
/-- `to_be_map` succeeds exactly when no wire is repeated -/
theorem toBeMap_isSome {lc : List (Nat × F)} (h : (lc.map (·.1)).Nodup) : ∃ m, toBeMap lc = some m := by
  have key : ∀ (lc : List (Nat × F)) (m0 : LC F), (lc.map (·.1)).Nodup → (∀ e ∈ m0, ∀ e' ∈ lc, e.1 ≠ e'.1) →
      ∃ m, lc.foldlM (fun (r : LC F) c => if (get? r c.1).isSome then none else some (insert r c.1 c.2)) m0 = some m := by
    intro lc
    induction lc with
    | nil => intro m0 _ _; exact ⟨m0, rfl⟩
    | cons a lc ih =>
      intro m0 hn hd
      rw [List.map_cons, List.nodup_cons] at hn
      have hnone : get? m0 a.1 = none := by
        cases hg : get? m0 a.1 with
        | none => rfl
        | some v => exact absurd rfl (hd _ (get?_some_mem hg) a (by simp))
      obtain ⟨m, hm⟩ := ih (insert m0 a.1 a.2) hn.2 (by
        intro e he e' he'
        rcases mem_insert he with rfl | he
        · intro h
          exact hn.1 (List.mem_map.mpr ⟨e', he', h.symm⟩)
        · exact hd e he e' (by simp [he']))
      refine ⟨m, ?_⟩
      rw [List.foldlM_cons, hnone]
      exact hm
  exact key lc [] h (fun e he => by simp at he)

/-! ### Additions -/

/-- the assignment satisfies the additions, the first defining variable `n` -/
def AddsOk (v : Nat → F) (n : Nat) : List (Add F) → Prop
  | [] => True
  | a :: as => v n = a.c1 * v a.sl + a.c2 * v a.sr ∧ AddsOk v (n + 1) as

omit [DecidableEq F] in
theorem addsOk_append (v : Nat → F) (n : Nat) (as bs : List (Add F)) :
    AddsOk v n (as ++ bs) ↔ AddsOk v n as ∧ AddsOk v (n + as.length) bs := by
  induction as generalizing n with
  | nil => simp [AddsOk]
  | cons a as ih =>
    simp only [List.cons_append, AddsOk, ih, List.length_cons, and_assoc]
    rw [show n + 1 + as.length = n + (as.length + 1) by omega]

/-- each addition uses variables that exist when it is made (and not the constant wire) -/
def Refs (n : Nat) : List (Add F) → Prop
  | [] => True
  | a :: as => (a.sl < n ∧ a.sr < n ∧ a.sl ≠ 0 ∧ a.sr ≠ 0) ∧ Refs (n + 1) as

omit [Field F] [DecidableEq F] in
theorem refs_append (n : Nat) (as bs : List (Add F)) :
    Refs n (as ++ bs) ↔ Refs n as ∧ Refs (n + as.length) bs := by
  induction as generalizing n with
  | nil => simp [Refs]
  | cons a as ih =>
    simp only [List.cons_append, Refs, ih, List.length_cons, and_assoc]
    rw [show n + 1 + as.length = n + (as.length + 1) by omega]

omit [DecidableEq F] in
theorem extend_below (n : Nat) (as : List (Add F)) (w : Nat → F) (i : Nat) (hi : i < n) : extend n as w i = w i := by
  induction as generalizing n w with
  | nil => rfl
  | cons a as ih =>
    unfold extend
    rw [ih _ _ (by omega), Function.update_of_ne (by omega)]

omit [DecidableEq F] in
theorem extend_ok (n : Nat) (as : List (Add F)) (w : Nat → F) (hr : Refs n as) : AddsOk (extend n as w) n as := by
  induction as generalizing n w with
  | nil => trivial
  | cons a as ih =>
    obtain ⟨⟨h1, h2, -, -⟩, h3⟩ := hr
    refine ⟨?_, ?_⟩
    · unfold extend
      rw [extend_below _ _ _ _ (Nat.lt_succ_self n), extend_below _ _ _ _ (by omega), extend_below _ _ _ _ (by omega),
        Function.update_self, Function.update_of_ne (by omega), Function.update_of_ne (by omega)]
    · unfold extend
      exact ih _ _ h3

omit [DecidableEq F] in
theorem extend_unique (n : Nat) (as : List (Add F)) (v : Nat → F) (h : AddsOk v n as) (i : Nat) : extend n as v i = v i := by
  induction as generalizing n with
  | nil => rfl
  | cons a as ih =>
    unfold extend
    rw [← h.1, Function.update_eq_self]
    exact ih _ h.2

/-! ### One step -/

/-- what a piece of the conversion does: it appends gates and additions; the gates mean that the additions hold and `P`;
the additions imply the facts `E` -/
def Step (st st' : St F) (E P : (Nat → F) → Prop) : Prop :=
  ∃ gs as, st'.gates = st.gates ++ gs ∧ st'.adds = st.adds ++ as ∧ st'.nVar = st.nVar + as.length ∧ Refs st.nVar as ∧
    ∀ v : Nat → F, v 0 = 1 → ((∀ g ∈ gs, g.Holds v) ↔ AddsOk v st.nVar as ∧ P v) ∧ (AddsOk v st.nVar as → E v)

omit [DecidableEq F] in
theorem Step.refl (a : St F) : Step a a (fun _ => True) (fun _ => True) :=
  ⟨[], [], by simp, by simp, by simp, trivial, fun v _ => by simp [AddsOk]⟩

omit [DecidableEq F] in
theorem Step.trans {a b c : St F} {D P E Q : (Nat → F) → Prop} (h1 : Step a b D P) (h2 : Step b c E Q) :
    Step a c (fun v => D v ∧ E v) (fun v => P v ∧ Q v) := by
  obtain ⟨g1, a1, e1, f1, n1, r1, i1⟩ := h1
  obtain ⟨g2, a2, e2, f2, n2, r2, i2⟩ := h2
  refine ⟨g1 ++ g2, a1 ++ a2, by rw [e2, e1, List.append_assoc], by rw [f2, f1, List.append_assoc],
    by rw [n2, n1, List.length_append]; omega, ?_, ?_⟩
  · rw [refs_append, ← n1]
    exact ⟨r1, r2⟩
  · intro v hv
    rw [addsOk_append, ← n1]
    refine ⟨?_, fun h => ⟨(i1 v hv).2 h.1, (i2 v hv).2 h.2⟩⟩
    constructor
    · intro h
      have x := (i1 v hv).1.mp fun g hg => h g (List.mem_append_left _ hg)
      have y := (i2 v hv).1.mp fun g hg => h g (List.mem_append_right _ hg)
      exact ⟨⟨x.1, y.1⟩, x.2, y.2⟩
    · rintro ⟨⟨x1, y1⟩, x2, y2⟩ g hg
      rcases List.mem_append.mp hg with hg | hg
      · exact (i1 v hv).1.mpr ⟨x1, x2⟩ g hg
      · exact (i2 v hv).1.mpr ⟨y1, y2⟩ g hg

omit [DecidableEq F] in
theorem Step.mono {a b : St F} {D E P Q : (Nat → F) → Prop} (h : Step a b D P) (hde : ∀ v, v 0 = 1 → D v → E v)
    (hpq : ∀ v, v 0 = 1 → D v → (P v ↔ Q v)) : Step a b E Q := by
  obtain ⟨gs, as, e1, e2, e3, e4, e5⟩ := h
  refine ⟨gs, as, e1, e2, e3, e4, fun v hv => ⟨(e5 v hv).1.trans (and_congr_right fun h => hpq v hv ((e5 v hv).2 h)), fun h => hde v hv ((e5 v hv).2 h)⟩⟩

omit [DecidableEq F] in
/-- appending one gate -/
theorem Step.gate {a b : St F} {D P : (Nat → F) → Prop} (h : Step a b D P) (g : Gate F) :
    Step a { b with gates := b.gates ++ [g] } D (fun v => P v ∧ g.Holds v) := by
  have : Step b { b with gates := b.gates ++ [g] } (fun _ => True) (fun v => g.Holds v) :=
    ⟨[g], [], rfl, by simp, by simp, trivial, fun v _ => by simp [AddsOk]⟩
  exact (h.trans this).mono (fun v _ h => h.1) (fun v _ _ => Iff.rfl)

omit [DecidableEq F] in
theorem Step.nVar_le {a b : St F} {D P : (Nat → F) → Prop} (h : Step a b D P) : a.nVar ≤ b.nVar := by
  obtain ⟨gs, as, -, -, e3, -, -⟩ := h
  omega

omit [DecidableEq F] in
theorem evalLC_perm_two (v : Nat → F) (c1 c2 : Nat × F) (rest : LC F) :
    evalLC v (c1 :: c2 :: rest) = c1.2 * v c1.1 + c2.2 * v c2.1 + evalLC v rest := by
  rw [evalLC_cons, evalLC_cons]; ring

omit [DecidableEq F] in
theorem reduceLoop_spec (maxC : Nat) (hc : 0 < maxC) (cs : LC F) (st : St F)
    (hk : ∀ e ∈ cs, e.1 ≠ 0 ∧ e.1 < st.nVar) (hn : 0 < st.nVar) :
    Step st (reduceLoop maxC cs st).2 (fun v => evalLC v (reduceLoop maxC cs st).1 = evalLC v cs) (fun _ => True) ∧
    (reduceLoop maxC cs st).1.length ≤ maxC ∧
    (∀ e ∈ (reduceLoop maxC cs st).1, e.1 ≠ 0 ∧ e.1 < (reduceLoop maxC cs st).2.nVar) := by
  induction hl : cs.length using Nat.strong_induction_on generalizing cs st with
  | _ m ih =>
    have base : ∀ cs : LC F, cs.length ≤ maxC → (∀ e ∈ cs, e.1 ≠ 0 ∧ e.1 < st.nVar) →
        Step st (cs, st).2 (fun v => evalLC v (cs, st).1 = evalLC v cs) (fun _ => True) ∧ (cs, st).1.length ≤ maxC ∧
        (∀ e ∈ (cs, st).1, e.1 ≠ 0 ∧ e.1 < (cs, st).2.nVar) := fun cs h hk =>
      ⟨(Step.refl st).mono (fun _ _ _ => rfl) (fun _ _ _ => Iff.rfl), h, hk⟩
    match cs, hk, hl with
    | [], hk, hl =>
      rw [show reduceLoop maxC ([] : LC F) st = ([], st) by simp [reduceLoop]]
      exact base [] (by simp) hk
    | [c], hk, hl =>
      rw [show reduceLoop maxC [c] st = ([c], st) by simp [reduceLoop]]
      exact base [c] (by simp; omega) hk
    | c1 :: c2 :: rest, hk, hl =>
      by_cases hgt : rest.length + 2 > maxC
      · have hk1 := hk c1 (by simp)
        have hk2 := hk c2 (by simp)
        obtain ⟨st1, hst1⟩ : ∃ st1 : St F, st1 = ⟨st.gates ++ [⟨c1.1, c2.1, st.nVar, 0, -c1.2, -c2.2, 1, 0⟩],
            st.adds ++ [⟨c1.1, c2.1, c1.2, c2.2⟩], st.nVar + 1⟩ := ⟨_, rfl⟩
        have heq : reduceLoop maxC (c1 :: c2 :: rest) st = reduceLoop maxC (rest ++ [(st.nVar, 1)]) st1 := by
          rw [reduceLoop, if_pos hgt, hst1]
        have hnv : st1.nVar = st.nVar + 1 := by rw [hst1]
        obtain ⟨i1, i2, i3⟩ := ih (rest.length + 1) (by simp only [List.length_cons] at hl; omega) (rest ++ [(st.nVar, 1)]) st1
          (by
            intro e he
            rw [hnv]
            rcases List.mem_append.mp he with he | he
            · have := hk e (by simp [he])
              exact ⟨this.1, Nat.lt_succ_of_lt this.2⟩
            · simp only [List.mem_singleton] at he
              subst he
              exact ⟨by show st.nVar ≠ 0; omega, Nat.lt_succ_self _⟩)
          (by omega) (by simp)
        rw [heq]
        refine ⟨?_, i2, i3⟩
        have first : Step st st1 (fun v => v st.nVar = c1.2 * v c1.1 + c2.2 * v c2.1) (fun _ => True) := by
          refine ⟨[⟨c1.1, c2.1, st.nVar, 0, -c1.2, -c2.2, 1, 0⟩], [⟨c1.1, c2.1, c1.2, c2.2⟩], by rw [hst1], by rw [hst1], by rw [hst1]; rfl,
            ⟨⟨hk1.2, hk2.2, hk1.1, hk2.1⟩, trivial⟩, ?_⟩
          intro v _
          simp only [List.mem_singleton, forall_eq, Gate.Holds, cell, if_neg hk1.1, if_neg hk2.1, if_neg (show st.nVar ≠ 0 by omega),
            AddsOk, and_true]
          refine ⟨⟨fun h => by linear_combination h, fun h => by rw [h]; ring⟩, fun h => h⟩
        refine (first.trans i1).mono ?_ (fun _ _ _ => by simp)
        rintro v _ ⟨h1, h2⟩
        rw [h2, evalLC_append, evalLC_perm_two, ← h1]
        simp [evalLC]; ring
      · have heq : reduceLoop maxC (c1 :: c2 :: rest) st = (c1 :: c2 :: rest, st) := by
          rw [reduceLoop, if_neg hgt]
        rw [heq]
        exact base _ (by simp only [List.length_cons]; omega) hk

theorem const_split (v : Nat → F) (hv : v 0 = 1) (lc : LC F) :
    evalLC v lc = lc.foldl (fun (k : F) e => if e.1 = 0 then k + e.2 else k) 0 +
      evalLC v (lc.filter fun e => decide (e.1 ≠ 0 ∧ e.2 ≠ 0)) := by
  have key : ∀ (lc : LC F) (k0 : F), k0 + evalLC v lc = lc.foldl (fun (k : F) e => if e.1 = 0 then k + e.2 else k) k0 +
      evalLC v (lc.filter fun e => decide (e.1 ≠ 0 ∧ e.2 ≠ 0)) := by
    intro lc
    induction lc with
    | nil => intro k0; rfl
    | cons a lc ih =>
      intro k0
      by_cases h : a.1 = 0
      · rw [List.filter_cons_of_neg (by simp [h]), List.foldl_cons, if_pos h, ← ih, evalLC_cons, h, hv]
        ring
      · rw [List.foldl_cons, if_neg h]
        by_cases h2 : a.2 = 0
        · rw [List.filter_cons_of_neg (by simp [h2]), ← ih, evalLC_cons, h2]
          ring
        · rw [List.filter_cons_of_pos (by simp [h, h2]), evalLC_cons, evalLC_cons]
          have := ih k0
          linear_combination this
  simpa using key lc 0


/-- the value of a reduced linear combination on the cells -/
def Red.val (r : Red F) (v : Nat → F) : F := r.k + ((r.s.zip r.coefs).map fun e => e.2 * cell v e.1).sum

theorem reduceCoefs_spec (lc : LC F) (maxC : Nat) (hc : 0 < maxC) (st : St F) (hk : UsesBelow st.nVar lc) (hn : 0 < st.nVar) :
    Step st (reduceCoefs lc maxC st).2 (fun v => (reduceCoefs lc maxC st).1.val v = evalLC v lc) (fun _ => True) ∧
    (reduceCoefs lc maxC st).1.s.length = maxC ∧ (reduceCoefs lc maxC st).1.coefs.length = maxC := by
  unfold reduceCoefs
  simp only []
  obtain ⟨h1, h2, h3⟩ := reduceLoop_spec maxC hc (lc.filter fun e => decide (e.1 ≠ 0 ∧ e.2 ≠ 0)) st (by
    intro e he
    have := List.mem_filter.mp he
    exact ⟨(of_decide_eq_true this.2).1, hk e this.1⟩) hn
  have hcs : ∀ v : Nat → F, v 0 = 1 → _ := fun v hv => const_split v hv lc
  generalize lc.filter (fun e => decide (e.1 ≠ 0 ∧ e.2 ≠ 0)) = cs at h1 h2 h3 hcs ⊢
  generalize reduceLoop maxC cs st = r at h1 h2 h3 ⊢
  refine ⟨h1.mono ?_ (fun _ _ _ => Iff.rfl), by simp; omega, by simp; omega⟩
  intro v hv hr
  rw [hcs v hv, ← hr]
  unfold Red.val
  congr 1
  simp only []
  rw [List.zip_append (by simp), List.map_append, List.sum_append]
  have z : ((List.replicate (maxC - r.1.length) (0 : Nat)).zip (List.replicate (maxC - r.1.length) (0 : F))).map
      (fun e => e.2 * cell v e.1) = List.replicate (maxC - r.1.length) 0 := by
    rw [List.zip_replicate', List.map_replicate]
    simp
  rw [z]
  have e : (r.1.map (·.1)).zip (r.1.map (·.2)) = r.1 := by
    have := List.zip_unzip r.1
    rwa [List.unzip_eq_map] at this
  rw [e]
  simp only [List.sum_replicate, smul_zero, add_zero, evalLC]
  congr 1
  refine List.map_congr_left fun e he => ?_
  rw [cell, if_neg (h3 e he).1]

omit [DecidableEq F] in
theorem val_one (r : Red F) (v : Nat → F) (h1 : r.s.length = 1) (h2 : r.coefs.length = 1) :
    r.val v = r.k + r.coefs.getD 0 0 * cell v (r.s.getD 0 0) := by
  obtain ⟨k, s, c⟩ := r
  match s, c, h1, h2 with
  | [x], [y], _, _ => simp [Red.val]

omit [DecidableEq F] in
theorem val_three (r : Red F) (v : Nat → F) (h1 : r.s.length = 3) (h2 : r.coefs.length = 3) :
    r.val v = r.k + r.coefs.getD 0 0 * cell v (r.s.getD 0 0) + r.coefs.getD 1 0 * cell v (r.s.getD 1 0) +
      r.coefs.getD 2 0 * cell v (r.s.getD 2 0) := by
  obtain ⟨k, s, c⟩ := r
  match s, c, h1, h2 with
  | [x, x', x''], [y, y', y''], _, _ => simp [Red.val]; ring

theorem addConstraintSum_spec (lc : LC F) (st : St F) (hk : UsesBelow st.nVar lc) (hn : 0 < st.nVar) :
    Step st (addConstraintSum lc st) (fun _ => True) (fun v => evalLC v lc = 0) := by
  obtain ⟨h1, h2, h3⟩ := reduceCoefs_spec lc 3 (by omega) st hk hn
  refine (h1.gate _).mono (fun _ _ _ => trivial) ?_
  intro v _ hE
  rw [val_three _ v h2 h3] at hE
  simp only [true_and, Gate.Holds]
  rw [← hE]
  constructor <;> intro h <;> linear_combination h

theorem addConstraintMul_spec (la lb lc : LC F) (st : St F) (ha : UsesBelow st.nVar la) (hb : UsesBelow st.nVar lb)
    (hc : UsesBelow st.nVar lc) (hn : 0 < st.nVar) :
    Step st (addConstraintMul la lb lc st) (fun _ => True) (fun v => evalLC v la * evalLC v lb = evalLC v lc) := by
  obtain ⟨a1, a2, a3⟩ := reduceCoefs_spec la 1 (by omega) st ha hn
  have na := a1.nVar_le
  obtain ⟨b1, b2, b3⟩ := reduceCoefs_spec lb 1 (by omega) (reduceCoefs la 1 st).2 (fun e he => lt_of_lt_of_le (hb e he) na) (by omega)
  have nb := b1.nVar_le
  obtain ⟨c1, c2, c3⟩ := reduceCoefs_spec lc 1 (by omega) (reduceCoefs lb 1 (reduceCoefs la 1 st).2).2
    (fun e he => lt_of_lt_of_le (hc e he) (na.trans nb)) (by omega)
  refine (((a1.trans b1).trans c1).gate _).mono (fun _ _ _ => trivial) ?_
  rintro v _ ⟨⟨ea, eb⟩, ec⟩
  rw [val_one _ v a2 a3] at ea
  rw [val_one _ v b2 b3] at eb
  rw [val_one _ v c2 c3] at ec
  simp only [true_and, Gate.Holds]
  rw [← ea, ← eb, ← ec]
  constructor <;> intro h <;> linear_combination h

/-! ### Classification -/

theorem getLcType_eval (v : Nat → F) (lc : LC F) : evalLC v (getLcType lc).1 = evalLC v lc := evalLC_filter v lc

theorem getLcType_n (lc : LC F) : (getLcType lc).2 = .n ↔ ¬ Constant lc := by
  unfold getLcType Constant
  simp only []
  constructor
  · intro h hc
    split at h
    · rename_i hp
      obtain ⟨e, he, hk⟩ := List.countP_pos_iff.mp hp
      have := List.mem_filter.mp he
      exact of_decide_eq_true this.2 (hc e this.1 (of_decide_eq_true hk))
    · split at h <;> simp at h
  · intro h
    push Not at h
    obtain ⟨e, he, h1, h2⟩ := h
    rw [if_pos]
    refine List.countP_pos_iff.mpr ⟨e, List.mem_filter.mpr ⟨he, by simpa using h2⟩, by simpa using h1⟩

omit [DecidableEq F] in
theorem eval_constant (v : Nat → F) (hv : v 0 = 1) (lc : LC F) (hc : Constant lc) :
    evalLC v lc = (lc.map fun e => e.2).sum := by
  unfold evalLC
  congr 1
  refine List.map_congr_left fun e he => ?_
  by_cases h : e.1 = 0
  · rw [h, hv, mul_one]
  · rw [hc e he h, zero_mul]

theorem fold_constant (lc : LC F) (hc : Constant lc) :
    lc.foldl (fun (k : F) e => if e.1 = 0 then k + e.2 else k) 0 = (lc.map fun e => e.2).sum := by
  have h1 := const_split (fun _ => (1 : F)) rfl lc
  have h2 : lc.filter (fun e => decide (e.1 ≠ 0 ∧ e.2 ≠ 0)) = [] := by
    rw [List.filter_eq_nil_iff]
    intro e he
    simp only [decide_eq_true_eq]
    rintro ⟨h3, h4⟩
    exact h4 (hc e he h3)
  rw [h2] at h1
  rw [show evalLC (fun _ => (1 : F)) ([] : LC F) = 0 from rfl, add_zero] at h1
  rw [← h1, eval_constant _ rfl lc hc]

theorem constant_filter (lc : LC F) (hc : Constant lc) : Constant (getLcType lc).1 :=
  fun e he h => hc e (List.mem_of_mem_filter he) h

theorem getLcType_zero (v : Nat → F) (hv : v 0 = 1) (lc : LC F) (h : (getLcType lc).2 = .zero) : evalLC v lc = 0 := by
  have hc : Constant lc := by
    by_contra hc
    rw [(getLcType_n lc).mpr hc] at h
    simp at h
  rw [← getLcType_eval, eval_constant v hv _ (constant_filter lc hc), ← fold_constant _ (constant_filter lc hc)]
  unfold getLcType at h ⊢
  simp only [] at h ⊢
  by_contra hne
  rw [if_pos hne] at h
  split at h <;> simp at h

theorem getLcType_k (v : Nat → F) (hv : v 0 = 1) (lc : LC F) (hs : Sorted lc) (h : (getLcType lc).2 = .k) :
    get? (getLcType lc).1 0 = some (evalLC v lc) ∧ Constant lc := by
  have hc : Constant lc := by
    by_contra hc
    rw [(getLcType_n lc).mpr hc] at h
    simp at h
  refine ⟨?_, hc⟩
  have hc' := constant_filter lc hc
  have hs' : Sorted (getLcType lc).1 := List.Pairwise.filter _ hs
  have hnz : ∀ e ∈ (getLcType lc).1, e.2 ≠ 0 := fun e he => of_decide_eq_true (List.mem_filter.mp he).2
  have hsum : ((getLcType lc).1.map fun e => e.2).sum ≠ 0 := by
    rw [← fold_constant _ hc']
    unfold getLcType at h ⊢
    simp only [] at h ⊢
    split at h
    · simp at h
    · split at h
      · rename_i hk; exact hk
      · simp at h
  rw [← getLcType_eval, eval_constant v hv _ hc']
  generalize (getLcType lc).1 = l at hc' hs' hnz hsum
  match l, hc', hs', hnz, hsum with
  | [], _, _, _, hsum => simp at hsum
  | [e], hc', _, hnz, _ =>
    have : e.1 = 0 := by
      by_contra h0
      exact hnz e (by simp) (hc' e (by simp) h0)
    obtain ⟨k, x⟩ := e
    simp only at this
    subst this
    simp [get?]
  | e :: f :: l, hc', hs', hnz, _ =>
    have h1 : f.1 = 0 := by
      by_contra h0
      exact hnz f (by simp) (hc' f (by simp) h0)
    have := (List.pairwise_cons.mp hs').1 f (by simp)
    omega

omit [DecidableEq F] in
theorem toBeMap_sorted {lc : List (Nat × F)} {m : LC F} (h : toBeMap lc = some m) : Sorted m := by
  have key : ∀ (lc : List (Nat × F)) (m0 m : LC F), Sorted m0 →
      lc.foldlM (fun (r : LC F) c => if (get? r c.1).isSome then none else some (insert r c.1 c.2)) m0 = some m → Sorted m := by
    intro lc
    induction lc with
    | nil =>
      intro m0 m hs h
      simp only [List.foldlM_nil, pure, Option.some.injEq] at h
      exact h ▸ hs
    | cons a lc ih =>
      intro m0 m hs h
      rw [List.foldlM_cons] at h
      obtain ⟨m1, h1, h2⟩ := Option.bind_eq_some_iff.mp h
      split at h1
      · simp at h1
      · simp only [Option.some.injEq] at h1
        subst h1
        exact ih _ m (insert_sorted hs _ _) h2
  exact key lc [] m (by simp [Sorted]) h

/-! ### One constraint -/

/-- What the gates generated for a constraint demand of the wires.  It is the R1CS relation, except that with a constant
factor `A` or `B` the code adds `C` instead of subtracting it. -/
def Con.Emitted (w : Nat → F) (c : Con F) : Prop :=
  (¬ Constant c.a ∧ ¬ Constant c.b → evalLC w c.a * evalLC w c.b = evalLC w c.c) ∧
  (Constant c.a ∨ Constant c.b → evalLC w c.a * evalLC w c.b + evalLC w c.c = 0)

theorem process_spec (c : Con F) (st : St F) (hw : c.Wf st.nVar) (hn : 0 < st.nVar) :
    ∃ st', process c st = some st' ∧ Step st st' (fun _ => True) (fun v => c.Emitted v) := by
  obtain ⟨⟨ua, ub, uc⟩, na, nb, nc⟩ := hw
  obtain ⟨ma, hma⟩ := toBeMap_isSome na
  obtain ⟨mb, hmb⟩ := toBeMap_isSome nb
  obtain ⟨mc, hmc⟩ := toBeMap_isSome nc
  obtain ⟨ea, fa⟩ := toBeMap_spec hma
  obtain ⟨eb, fb⟩ := toBeMap_spec hmb
  obtain ⟨ec, fc⟩ := toBeMap_spec hmc
  have sa := toBeMap_sorted hma
  have sb := toBeMap_sorted hmb
  have ua' : UsesBelow st.nVar (getLcType ma).1 := fun e he => ua e ((fa e).mp (List.mem_of_mem_filter he))
  have ub' : UsesBelow st.nVar (getLcType mb).1 := fun e he => ub e ((fb e).mp (List.mem_of_mem_filter he))
  have uc' : UsesBelow st.nVar mc := fun e he => uc e ((fc e).mp he)
  have ca : Constant ma ↔ Constant c.a := by
    constructor <;> intro h e he
    · exact h e ((fa e).mpr he)
    · exact h e ((fa e).mp he)
  have cb : Constant mb ↔ Constant c.b := by
    constructor <;> intro h e he
    · exact h e ((fb e).mpr he)
    · exact h e ((fb e).mp he)
  have cst : ∀ m : LC F, (getLcType m).2 ≠ .n → Constant m := by
    intro m h
    by_contra hc
    exact h ((getLcType_n m).mpr hc)
  unfold process
  simp only [hma, hmb, hmc, Option.bind_eq_bind, Option.bind_some]
  by_cases hz : (getLcType ma).2 = .zero ∨ (getLcType mb).2 = .zero
  · rw [if_pos hz]
    refine ⟨_, rfl, (addConstraintSum_spec (normalize mc) st (fun e he => uc' e (List.mem_of_mem_filter he)) hn).mono (fun _ _ _ => trivial) ?_⟩
    intro v hv _
    rw [normalize, evalLC_filter, ec]
    have hconst : Constant c.a ∨ Constant c.b := by
      rcases hz with h | h
      · exact Or.inl (ca.mp (cst _ (by rw [h]; simp)))
      · exact Or.inr (cb.mp (cst _ (by rw [h]; simp)))
    have hprod : evalLC v c.a * evalLC v c.b = 0 := by
      rcases hz with h | h
      · rw [← ea, getLcType_zero v hv _ h, zero_mul]
      · rw [← eb, getLcType_zero v hv _ h, mul_zero]
    unfold Con.Emitted
    rw [hprod, zero_add]
    constructor
    · intro h
      exact ⟨fun hn => absurd hconst (by simp [hn.1, hn.2]), fun _ => h⟩
    · intro h
      exact h.2 hconst
  · rw [if_neg hz]
    by_cases hka : (getLcType ma).2 = .k
    · rw [if_pos hka]
      have hk1 := (getLcType_k (fun _ => (1 : F)) rfl ma sa hka)
      rw [hk1.1, Option.bind_some]
      obtain ⟨j1, j2⟩ := join_spec (getLcType mb).1 (evalLC (fun _ => (1 : F)) ma) mc
      refine ⟨_, rfl, (addConstraintSum_spec _ st (j2 _ ub' uc') hn).mono (fun _ _ _ => trivial) ?_⟩
      intro v hv _
      have hkv := (getLcType_k v hv ma sa hka).1
      rw [hk1.1, Option.some.injEq] at hkv
      have hconst : Constant c.a := ca.mp hk1.2
      rw [j1, hkv, getLcType_eval, ea, eb, ec]
      unfold Con.Emitted
      constructor
      · intro h
        exact ⟨fun hn => absurd hconst hn.1, fun _ => h⟩
      · intro h
        exact h.2 (Or.inl hconst)
    · rw [if_neg hka]
      by_cases hkb : (getLcType mb).2 = .k
      · rw [if_pos hkb]
        have hk1 := (getLcType_k (fun _ => (1 : F)) rfl mb sb hkb)
        rw [hk1.1, Option.bind_some]
        obtain ⟨j1, j2⟩ := join_spec (getLcType ma).1 (evalLC (fun _ => (1 : F)) mb) mc
        refine ⟨_, rfl, (addConstraintSum_spec _ st (j2 _ ua' uc') hn).mono (fun _ _ _ => trivial) ?_⟩
        intro v hv _
        have hkv := (getLcType_k v hv mb sb hkb).1
        rw [hk1.1, Option.some.injEq] at hkv
        have hconst : Constant c.b := cb.mp hk1.2
        rw [j1, hkv, getLcType_eval, ea, eb, ec]
        unfold Con.Emitted
        constructor
        · intro h
          exact ⟨fun hn => absurd hconst hn.2, fun _ => by rw [mul_comm]; exact h⟩
        · intro h
          rw [mul_comm]
          exact h.2 (Or.inr hconst)
      · rw [if_neg hkb]
        refine ⟨_, rfl, (addConstraintMul_spec _ _ _ st ua' ub' uc' hn).mono (fun _ _ _ => trivial) ?_⟩
        intro v hv _
        rw [getLcType_eval, getLcType_eval, ea, eb, ec]
        push Not at hz
        have h1 : ¬ Constant c.a := by
          rw [← ca, ← getLcType_n]
          cases h : (getLcType ma).2 <;> simp_all
        have h2 : ¬ Constant c.b := by
          rw [← cb, ← getLcType_n]
          cases h : (getLcType mb).2 <;> simp_all
        unfold Con.Emitted
        constructor
        · intro h
          exact ⟨fun _ => h, fun hc => by rcases hc with hc | hc <;> contradiction⟩
        · intro h
          exact h.1 ⟨h1, h2⟩

omit [DecidableEq F] in
theorem Wf.mono {n m : Nat} (h : n ≤ m) {c : Con F} (hc : c.Wf n) : c.Wf m := by
  obtain ⟨⟨a, b, d⟩, e⟩ := hc
  exact ⟨⟨fun x hx => lt_of_lt_of_le (a x hx) h, fun x hx => lt_of_lt_of_le (b x hx) h, fun x hx => lt_of_lt_of_le (d x hx) h⟩, e⟩

theorem run_spec (cs : List (Con F)) (st : St F) (hw : ∀ c ∈ cs, c.Wf st.nVar) (hn : 0 < st.nVar) :
    ∃ st', cs.foldlM (fun st c => process c st) st = some st' ∧ Step st st' (fun _ => True) (fun v => ∀ c ∈ cs, c.Emitted v) := by
  induction cs generalizing st with
  | nil => exact ⟨st, rfl, (Step.refl st).mono (fun _ _ _ => trivial) (fun _ _ _ => by simp)⟩
  | cons c cs ih =>
    obtain ⟨st1, h1, s1⟩ := process_spec c st (hw c (by simp)) hn
    obtain ⟨st2, h2, s2⟩ := ih st1 (fun c' hc' => Wf.mono s1.nVar_le (hw c' (by simp [hc']))) (lt_of_lt_of_le hn s1.nVar_le)
    refine ⟨st2, ?_, (s1.trans s2).mono (fun _ _ _ => trivial) (fun _ _ _ => by simp)⟩
    rw [List.foldlM_cons, h1]
    exact h2

/-! ### The theorems -/

/-- evaluation only sees the wires below `n` -/
theorem evalLC_congr {n : Nat} {v w : Nat → F} (h : ∀ i < n, v i = w i) {lc : List (Nat × F)} (hu : UsesBelow n lc) :
    evalLC v lc = evalLC w lc := by
  unfold evalLC
  congr 1
  exact List.map_congr_left fun e he => by rw [h e.1 (hu e he)]

theorem emitted_congr {n : Nat} {v w : Nat → F} (h : ∀ i < n, v i = w i) {c : Con F} (hc : c.Wf n) :
    c.Emitted v ↔ c.Emitted w := by
  unfold Con.Emitted
  rw [evalLC_congr h hc.1.1, evalLC_congr h hc.1.2.1, evalLC_congr h hc.1.2.2]

/-- Exact meaning of the conversion: for every system with `n > 0` wires, the conversion succeeds; every assignment satisfying the gates
is the extension by the additions and satisfies the emitted relations; and for every witness, its extension satisfies the gates iff
the witness satisfies the emitted relations.  Additions only refer to earlier variables, and there is one per new variable. -/
theorem r1cs2plonk_exact (n : Nat) (hn : 0 < n) (cs : List (Con F)) (hw : ∀ c ∈ cs, c.Wf n) :
    ∃ st, r1cs2plonk n cs = some st ∧ st.nVar = n + st.adds.length ∧
      (∀ i a, st.adds[i]? = some a → a.sl < n + i ∧ a.sr < n + i) ∧
      (∀ w : Nat → F, w 0 = 1 → ((∀ g ∈ st.gates, g.Holds (extend n st.adds w)) ↔ ∀ c ∈ cs, c.Emitted w)) ∧
      (∀ v : Nat → F, v 0 = 1 → (∀ g ∈ st.gates, g.Holds v) → (∀ c ∈ cs, c.Emitted v) ∧ ∀ i, extend n st.adds v i = v i) := by
  obtain ⟨st, h1, gs, as, e1, e2, e3, e4, e5⟩ := run_spec cs { gates := [], adds := [], nVar := n } hw hn
  simp only [List.nil_append] at e1 e2 e3 e4 e5
  refine ⟨st, h1, by rw [e3, e2], ?_, ?_, ?_⟩
  · rw [e2]
    have key : ∀ (as : List (Add F)) (n : Nat), Refs n as → ∀ (i : Nat) (a : Add F), as[i]? = some a → a.sl < n + i ∧ a.sr < n + i := by
      intro as
      induction as with
      | nil => intro n _ i a h; simp at h
      | cons b as ih =>
        intro n hr i a h
        cases i with
        | zero =>
          simp only [List.getElem?_cons_zero, Option.some.injEq] at h
          subst h
          exact ⟨hr.1.1, hr.1.2.1⟩
        | succ i =>
          simp only [List.getElem?_cons_succ] at h
          have := ih (n + 1) hr.2 i a h
          omega
    exact key as n e4
  · intro w hw0
    have hx0 : extend n st.adds w 0 = 1 := by rw [extend_below n _ w 0 hn, hw0]
    rw [e1, (e5 _ hx0).1]
    have hok : AddsOk (extend n st.adds w) n as := by rw [e2]; exact extend_ok n as w e4
    have hcongr : ∀ c ∈ cs, (c.Emitted (extend n st.adds w) ↔ c.Emitted w) := fun c hc =>
      emitted_congr (fun i hi => extend_below n _ w i hi) (hw c hc)
    constructor
    · rintro ⟨-, h⟩ c hc
      exact (hcongr c hc).mp (h c hc)
    · intro h
      exact ⟨hok, fun c hc => (hcongr c hc).mpr (h c hc)⟩
  · intro v hv h
    rw [e1] at h
    have := (e5 v hv).1.mp h
    exact ⟨this.2, fun i => by rw [e2]; exact extend_unique n as v this.1 i⟩

/-- **C49** (the part that holds).  If no constraint has a constant factor other than a null one, a witness satisfies the R1CS iff its
extension by the additions satisfies all gates, and every assignment satisfying all gates restricts to a satisfying witness of
which it is the extension. -/
theorem r1cs2plonk_sound_partial (n : Nat) (hn : 0 < n) (cs : List (Con F)) (hw : ∀ c ∈ cs, c.Wf n)
    (hk : ∀ c ∈ cs, Constant c.a ∨ Constant c.b → Null c.a ∨ Null c.b) :
    ∃ st, r1cs2plonk n cs = some st ∧
      (∀ w : Nat → F, w 0 = 1 → ((∀ c ∈ cs, c.Sat w) ↔ ∀ g ∈ st.gates, g.Holds (extend n st.adds w))) ∧
      (∀ v : Nat → F, v 0 = 1 → (∀ g ∈ st.gates, g.Holds v) → (∀ c ∈ cs, c.Sat v) ∧ ∀ i, extend n st.adds v i = v i) := by
  obtain ⟨st, h1, -, -, h2, h3⟩ := r1cs2plonk_exact n hn cs hw
  have null : ∀ (w : Nat → F) (l : List (Nat × F)), Null l → evalLC w l = 0 := by
    intro w l hl
    unfold evalLC
    have : l.map (fun e => e.2 * w e.1) = l.map (fun _ => (0 : F)) := List.map_congr_left fun e he => by rw [hl e he, zero_mul]
    rw [this]
    simp
  have eq : ∀ w : Nat → F, ∀ c ∈ cs, (c.Emitted w ↔ c.Sat w) := by
    intro w c hc
    unfold Con.Emitted Con.Sat
    by_cases h : Constant c.a ∨ Constant c.b
    · have hz : evalLC w c.a * evalLC w c.b = 0 := by
        rcases hk c hc h with h | h
        · rw [null w _ h, zero_mul]
        · rw [null w _ h, mul_zero]
      rw [hz, zero_add]
      constructor
      · intro x
        exact (x.2 h).symm
      · intro x
        exact ⟨fun hn => absurd h (by simp [hn.1, hn.2]), fun _ => x.symm⟩
    · push Not at h
      constructor
      · intro x
        exact x.1 h
      · intro x
        exact ⟨fun _ => x, fun hc => by rcases hc with hc | hc <;> simp_all⟩
  refine ⟨st, h1, ?_, ?_⟩
  · intro w hw0
    rw [h2 w hw0]
    exact forall₂_congr fun c hc => (eq w c hc).symm
  · intro v hv h
    obtain ⟨x, y⟩ := h3 v hv h
    exact ⟨fun c hc => (eq v c hc).mp (x c hc), y⟩

/-- **C49** is violated for constant factors: in every field where `1 + 1 ≠ 0`, the constraint `1 * x = y` is satisfied by
`x = y = 1`, but the converted gates are not; and they are satisfied by `x = 1, y = -1`, which the constraint rejects. -/
theorem r1cs2plonk_sign (h2 : (1 : F) + 1 ≠ 0) :
    ∃ (st : St F) (c : Con F) (w w' : Nat → F), c.Wf 3 ∧ r1cs2plonk 3 [c] = some st ∧ w 0 = 1 ∧ w' 0 = 1 ∧
      c.Sat w ∧ ¬ (∀ g ∈ st.gates, g.Holds (extend 3 st.adds w)) ∧
      ¬ c.Sat w' ∧ (∀ g ∈ st.gates, g.Holds (extend 3 st.adds w')) := by
  let c : Con F := ⟨[(0, 1)], [(1, 1)], [(2, 1)]⟩
  have hwf : c.Wf 3 := by
    refine ⟨⟨?_, ?_, ?_⟩, ?_, ?_, ?_⟩ <;> simp [c, UsesBelow]
  obtain ⟨st, h1, -, -, h3, -⟩ := r1cs2plonk_exact 3 (by omega) [c] (by simpa using hwf)
  have hconst : Constant c.a := by simp [c, Constant]
  have em : ∀ w : Nat → F, w 0 = 1 → (c.Emitted w ↔ w 1 + w 2 = 0) := by
    intro w hw0
    unfold Con.Emitted
    constructor
    · intro h
      have := h.2 (Or.inl hconst)
      simpa [c, evalLC, hw0] using this
    · intro h
      exact ⟨fun hn => absurd hconst hn.1, fun _ => by simpa [c, evalLC, hw0] using h⟩
  have sat : ∀ w : Nat → F, w 0 = 1 → (c.Sat w ↔ w 1 = w 2) := by
    intro w hw0
    simp [Con.Sat, c, evalLC, hw0]
  refine ⟨st, c, fun _ => 1, fun i => if i = 2 then -1 else 1, hwf, h1, rfl, rfl, ?_, ?_, ?_, ?_⟩
  · rw [sat _ rfl]
  · rw [h3 _ rfl]
    simp only [List.mem_singleton, forall_eq]
    rw [em _ rfl]
    exact h2
  · rw [sat _ rfl]
    simp only []
    intro h
    apply h2
    simp at h
    linear_combination h
  · rw [h3 _ rfl]
    simp only [List.mem_singleton, forall_eq]
    rw [em _ rfl]
    simp

/-! ### Non-vacuity -/

instance prime101 : Fact (Nat.Prime 101) := ⟨by norm_num⟩

/-- `(x + y + 1) * (2 z) = 3 x + 4 y` and `0 * 0 = x + y + z + t - 7` -/
def exCons : List (Con (ZMod 101)) :=
  [⟨[(1, 1), (2, 1), (0, 1)], [(3, 2)], [(1, 3), (2, 4)]⟩, ⟨[], [], [(1, 1), (2, 1), (3, 1), (4, 1), (0, -7)]⟩]

/-- the hypotheses of `r1cs2plonk_sound_partial` hold for the example -/
example : (∀ c ∈ exCons, c.Wf 5) ∧ (∀ c ∈ exCons, Constant c.a ∨ Constant c.b → Null c.a ∨ Null c.b) := by
  constructor
  · intro c hc
    simp only [exCons, List.mem_cons, List.not_mem_nil, or_false] at hc
    rcases hc with rfl | rfl <;> refine ⟨⟨?_, ?_, ?_⟩, ?_, ?_, ?_⟩ <;> simp [UsesBelow]
  · intro c hc
    simp only [exCons, List.mem_cons, List.not_mem_nil, or_false] at hc
    rcases hc with rfl | rfl
    · intro h
      exfalso
      rcases h with h | h
      · exact absurd (h (1, 1) (by simp) (by simp)) (by decide)
      · exact absurd (h (3, 2) (by simp) (by simp)) (by decide)
    · intro _
      exact Or.inl (by simp [Null])

/-- the example has satisfying and violating witnesses -/
example : (∀ c ∈ exCons, c.Sat (fun i => [1, 2, 1, 77, -73].getD i 0)) ∧ ¬ (∀ c ∈ exCons, c.Sat (fun _ => (1 : ZMod 101))) := by
  constructor
  · intro c hc
    simp only [exCons, List.mem_cons, List.not_mem_nil, or_false] at hc
    rcases hc with rfl | rfl <;> simp only [Con.Sat, evalLC] <;> decide
  · intro h
    have := h _ (by simp [exCons]; exact Or.inl rfl)
    simp only [Con.Sat, evalLC] at this
    revert this
    decide

/-- the conversion of the example: 3 reductions of `A` and `C`, 2 of the linear constraint -/
example : ((r1cs2plonk 5 exCons).map fun st => (st.gates.length, st.adds.length, st.nVar)) = some (5, 3, 8) := by decide +kernel

end Verif.Plonk
