import Verif.Map.Model

/-!
# The columns that `map` creates
-/
namespace Verif.Map
open Verif.Interp (Sec PolType Info)
open Verif.StarkInfo
open Verif.Codegen (Expr)
open Verif.Grand (PCtx)

/-! ### Positions after `map_section` -/

/-- the polynomial `x` at index `i` after `map_section` -/
def posAt (pols : List PolType) (i : Nat) (x : PolType) : PolType :=
  if x.dim = 1 ∨ x.dim = 2 ∨ x.dim = 3 then
    { x with sectionPos := start x.section_ pols x.dim + x.dim * cnt x.section_ x.dim (pols.take i) } else x

theorem start_shape {a b : List PolType} (h : SameShape a b) (s : Sec) (e : Nat) : start s a e = start s b e := by
  unfold start
  split <;> simp only [h.cntAll]

theorem mapSection_get (pols : List PolType) (i : Nat) (x : PolType) (hx : pols[i]? = some x) (hs : x.section_ ∈ names) :
    (mapSection pols).pols[i]? = some (posAt pols i x) := by
  have key : ∀ (todo : List Sec), todo.Nodup → ∀ L : Layout, SameShape L.pols pols →
      L.pols[i]? = some (if x.section_ ∈ todo then x else posAt pols i x) →
      let L' := todo.foldl (fun L s =>
        let r := mapOne s L.pols
        { pols := r.pols, n1 := Function.update L.n1 s r.n1, n := Function.update L.n s r.n, n3 := Function.update L.n3 s r.n3 }) L
      L'.pols[i]? = some (posAt pols i x) := by
    intro todo
    induction todo with
    | nil => intro _ L _ h; simpa using h
    | cons s todo ih =>
      intro hnd L hsh h
      rw [List.nodup_cons] at hnd
      refine ih hnd.2 _ ((mapOne_shape s L.pols).trans hsh) ?_
      show (mapOne s L.pols).pols[i]? = _
      by_cases hxs : x.section_ = s
      · rw [if_pos (by simp [hxs])] at h
        rw [if_neg (by rw [hxs]; exact hnd.1), mapOne_get s L.pols i x h]
        unfold posAt
        rw [start_shape hsh, hsh.cnt, hxs]
        simp
      · have hmem : (x.section_ ∈ s :: todo) = (x.section_ ∈ todo) := by simp [hxs]
        rw [mapOne_get s L.pols i _ h, if_neg, if_congr (by rw [hmem]) rfl rfl]
        rintro ⟨h1, -⟩
        apply hxs
        rw [← h1]
        split_ifs
        · rfl
        · unfold posAt
          split_ifs <;> rfl
  refine key names (by decide) _ rfl ?_
  rw [if_pos hs]
  exact hx

theorem mapSection_width (pols : List PolType) (s : Sec) (hs : s ∈ names) :
    (mapSection pols).n s = cnt s 1 pols + 2 * cnt s 2 pols + 3 * cnt s 3 pols := by
  have key : ∀ (todo : List Sec), todo.Nodup → ∀ L : Layout, SameShape L.pols pols →
      (s ∉ todo → L.n s = cnt s 1 pols + 2 * cnt s 2 pols + 3 * cnt s 3 pols) →
      let L' := todo.foldl (fun L s =>
        let r := mapOne s L.pols
        { pols := r.pols, n1 := Function.update L.n1 s r.n1, n := Function.update L.n s r.n, n3 := Function.update L.n3 s r.n3 }) L
      L'.n s = cnt s 1 pols + 2 * cnt s 2 pols + 3 * cnt s 3 pols := by
    intro todo
    induction todo with
    | nil => intro _ L _ h; simpa using h
    | cons t todo ih =>
      intro hnd L hsh h
      rw [List.nodup_cons] at hnd
      refine ih hnd.2 _ ((mapOne_shape t L.pols).trans hsh) fun hn => ?_
      show Function.update L.n t (mapOne t L.pols).n s = _
      by_cases hst : s = t
      · subst hst
        rw [Function.update_self, (mapOne_n s L.pols).1, hsh.cntAll, hsh.cntAll, hsh.cntAll]
      · rw [Function.update_of_ne hst]
        exact h (by simp [hst, hn])
  exact key names (by decide) _ rfl fun h => absurd hs h

/-! ### The construction -/

/-- the section of the trace domain of a tree -/
def secN : Nat → Sec
  | 1 => .cm1_n | 2 => .cm2_n | 3 => .cm3_n | _ => .cm4_n

/-- the section of the extended domain of a tree -/
def sec2 : Nat → Sec
  | 1 => .cm1_2ns | 2 => .cm2_2ns | 3 => .cm3_2ns | _ => .cm4_2ns

/-- number of columns of a tree and dimension -/
def cntC (t e : Nat) (cols : List (Nat × Nat)) : Nat := cols.countP fun c => decide (c.1 = t ∧ c.2 = e)

/-- what is known of the columns while they are created; `cols` lists their trees and dimensions -/
structure Inv {E : Type} (i : In E) (cols : List (Nat × Nat)) (s : St) : Prop where
  trees : ∀ c ∈ cols, 1 ≤ c.1 ∧ c.1 ≤ 4
  lenN : s.cmN.length = cols.length
  len2 : s.cm2ns.length = cols.length
  col : ∀ k t e, cols[k]? = some (t, e) → ∃ a b, s.cmN[k]? = some a ∧ s.cm2ns[k]? = some b ∧
    s.pols[a]? = some ⟨secN t, 0, e⟩ ∧ s.pols[b]? = some ⟨sec2 t, 0, e⟩ ∧
    cnt (secN t) e (s.pols.take a) = cntC t e (cols.take k) ∧ cnt (sec2 t) e (s.pols.take b) = cntC t e (cols.take k)
  tot : ∀ t e, 1 ≤ t → t ≤ 4 → cnt (secN t) e s.pols = cntC t e cols ∧ cnt (sec2 t) e s.pols = cntC t e cols
  secs : ∀ x ∈ s.pols, x.section_ ∈ names ∧ x.section_ ≠ .q_2ns ∧ x.section_ ≠ .f_2ns
  tmpLen : s.tmpexps.length = s.tmpexpN.length
  tmpPol : ∀ (j a : Nat), s.tmpexpN[j]? = some a → ∃ d, s.pols[a]? = some ⟨.tmpexp_n, 0, d⟩
  tmpLt : ∀ (j j' a a' : Nat), j < j' → s.tmpexpN[j]? = some a → s.tmpexpN[j']? = some a' → a < a'
  tmpId : ∀ id j, s.tmpexps.lookup id = some j → i.imExps id = false ∧ ∃ a, s.tmpexpN[j]? = some a
  tmpInj : ∀ id id' j, s.tmpexps.lookup id = some j → s.tmpexps.lookup id' = some j → id = id'

variable {E : Type} {i : In E} {cols : List (Nat × Nat)} {s s' : St}

theorem secN_inj {t t' : Nat} (h1 : 1 ≤ t) (h2 : t ≤ 4) (h3 : 1 ≤ t') (h4 : t' ≤ 4) (h : secN t = secN t') : t = t' := by
  interval_cases t <;> interval_cases t' <;> first | rfl | (exact absurd h (by decide))

theorem sec2_inj {t t' : Nat} (h1 : 1 ≤ t) (h2 : t ≤ 4) (h3 : 1 ≤ t') (h4 : t' ≤ 4) (h : sec2 t = sec2 t') : t = t' := by
  interval_cases t <;> interval_cases t' <;> first | rfl | (exact absurd h (by decide))

theorem secN_ne_sec2 {t t' : Nat} (h1 : 1 ≤ t) (h2 : t ≤ 4) (h3 : 1 ≤ t') (h4 : t' ≤ 4) : secN t ≠ sec2 t' := by
  interval_cases t <;> interval_cases t' <;> decide

theorem secN_mem {t : Nat} (h1 : 1 ≤ t) (h2 : t ≤ 4) : secN t ∈ names ∧ secN t ≠ .q_2ns ∧ secN t ≠ .f_2ns ∧ secN t ≠ .tmpexp_n := by
  interval_cases t <;> decide

theorem sec2_mem {t : Nat} (h1 : 1 ≤ t) (h2 : t ≤ 4) : sec2 t ∈ names ∧ sec2 t ≠ .q_2ns ∧ sec2 t ≠ .f_2ns ∧ sec2 t ≠ .tmpexp_n := by
  interval_cases t <;> decide

theorem lt_of_get {α : Type} {l : List α} {k : Nat} {x : α} (h : l[k]? = some x) : k < l.length := (List.getElem?_eq_some_iff.mp h).1

theorem get_append {α : Type} {l m : List α} {k : Nat} {x : α} (h : l[k]? = some x) : (l ++ m)[k]? = some x := by
  rw [List.getElem?_append_left (lt_of_get h)]; exact h

theorem take_append {α : Type} {l m : List α} {k : Nat} (h : k ≤ l.length) : (l ++ m).take k = l.take k := by
  rw [List.take_append_of_le_length h]

theorem cnt_append (t : Sec) (e : Nat) (l m : List PolType) : cnt t e (l ++ m) = cnt t e l + cnt t e m := by
  simp [cnt, List.countP_append]

theorem cnt_one (t : Sec) (e : Nat) (x : PolType) : cnt t e [x] = if x.section_ = t ∧ x.dim = e then 1 else 0 := by
  simp [cnt, isPol, List.countP_cons]

/-- one committed column more -/
theorem inv_cm (h : Inv i cols s) {t : Nat} (h1 : 1 ≤ t) (h2 : t ≤ 4) {dim slot : Nat} (hs : addCm (secN t) (sec2 t) dim slot s = some s') :
    Inv i (cols ++ [(t, dim)]) s' ∧ s'.tmpexps = s.tmpexps ∧ s'.tmpexpN = s.tmpexpN := by
  unfold addCm at hs
  split_ifs at hs
  obtain rfl := Option.some.inj hs
  refine ⟨⟨?_, ?_, ?_, ?_, ?_, ?_, h.tmpLen, ?_, h.tmpLt, h.tmpId, h.tmpInj⟩, rfl, rfl⟩
  · intro c hc
    rcases List.mem_append.mp hc with hc | hc
    · exact h.trees c hc
    · simp only [List.mem_singleton] at hc; subst hc; exact ⟨h1, h2⟩
  · simp [h.lenN]
  · simp [h.len2]
  · intro k u e hk
    by_cases hlt : k < cols.length
    · rw [List.getElem?_append_left hlt] at hk
      obtain ⟨a, b, g1, g2, g3, g4, g5, g6⟩ := h.col k u e hk
      refine ⟨a, b, get_append g1, get_append g2, get_append g3, get_append g4, ?_, ?_⟩
      · rw [take_append (le_of_lt (lt_of_get g3)), take_append (le_of_lt hlt)]; exact g5
      · rw [take_append (le_of_lt (lt_of_get g4)), take_append (le_of_lt hlt)]; exact g6
    · have hk' : k = cols.length := by
        have := lt_of_get hk
        simp at this
        omega
      subst hk'
      rw [List.getElem?_append_right (le_refl _)] at hk
      simp only [Nat.sub_self, List.getElem?_cons_zero, Option.some.injEq, Prod.mk.injEq] at hk
      obtain ⟨rfl, rfl⟩ := hk
      refine ⟨s.pols.length, s.pols.length + 1, ?_, ?_, ?_, ?_, ?_, ?_⟩
      · rw [← h.lenN]; simp
      · rw [← h.len2]; simp
      · simp
      · simp
      · rw [take_append (le_refl _), take_append (le_refl _), List.take_length, List.take_length]
        exact (h.tot t dim h1 h2).1
      · rw [take_append (le_refl _), List.take_length, List.take_append, List.take_of_length_le (by omega), Nat.add_sub_cancel_left, cnt_append]
        rw [(h.tot t dim h1 h2).2]
        rw [show [(⟨secN t, 0, dim⟩ : PolType), ⟨sec2 t, 0, dim⟩].take 1 = [⟨secN t, 0, dim⟩] from rfl, cnt_one,
          if_neg (fun hh => secN_ne_sec2 h1 h2 h1 h2 hh.1), Nat.add_zero]
  · intro u e hu1 hu2
    obtain ⟨g1, g2⟩ := h.tot u e hu1 hu2
    have hc : cntC u e (cols ++ [(t, dim)]) = cntC u e cols + if t = u ∧ dim = e then 1 else 0 := by
      simp [cntC, List.countP_append, List.countP_cons]
    rw [hc, show [(⟨secN t, 0, dim⟩ : PolType), ⟨sec2 t, 0, dim⟩] = [⟨secN t, 0, dim⟩] ++ [⟨sec2 t, 0, dim⟩] from rfl]
    simp only [cnt_append, cnt_one, g1, g2]
    constructor
    · rw [if_neg (c := sec2 t = secN u ∧ dim = e) (fun hh => secN_ne_sec2 hu1 hu2 h1 h2 hh.1.symm)]
      by_cases e1 : t = u
      · subst e1; simp
      · rw [if_neg (fun hh => e1 (secN_inj h1 h2 hu1 hu2 hh.1)), if_neg (fun hh => e1 hh.1)]
    · rw [if_neg (c := secN t = sec2 u ∧ dim = e) (fun hh => secN_ne_sec2 h1 h2 hu1 hu2 hh.1)]
      by_cases e1 : t = u
      · subst e1; simp
      · rw [if_neg (fun hh => e1 (sec2_inj h1 h2 hu1 hu2 hh.1)), if_neg (fun hh => e1 hh.1)]
  · intro x hx
    simp only [List.mem_append, List.mem_cons, List.not_mem_nil, or_false] at hx
    rcases hx with hx | rfl | rfl
    · exact h.secs x hx
    · exact ⟨(secN_mem h1 h2).1, (secN_mem h1 h2).2.1, (secN_mem h1 h2).2.2.1⟩
    · exact ⟨(sec2_mem h1 h2).1, (sec2_mem h1 h2).2.1, (sec2_mem h1 h2).2.2.1⟩
  · intro j a hj
    obtain ⟨d, hd⟩ := h.tmpPol j a hj
    exact ⟨d, get_append hd⟩

theorem lookup_cons_ite {α : Type} (a b : Nat) (x : α) (l : List (Nat × α)) :
    ((a, x) :: l).lookup b = if b = a then some x else l.lookup b := by
  rw [List.lookup_cons]
  by_cases h : b = a
  · subst h; simp
  · simp [h, beq_false_of_ne h]

/-- one temporary column more -/
theorem inv_tmp (h : Inv i cols s) (id dim : Nat) : Inv i cols (addTmp i id dim s) := by
  unfold addTmp
  split_ifs with hc
  swap
  · exact h
  have hcN : ∀ t e, 1 ≤ t → t ≤ 4 → cnt (secN t) e [(⟨.tmpexp_n, 0, dim⟩ : PolType)] = 0 ∧ cnt (sec2 t) e [(⟨.tmpexp_n, 0, dim⟩ : PolType)] = 0 := by
    intro t e h1 h2
    rw [cnt_one, cnt_one, if_neg fun hh => (secN_mem h1 h2).2.2.2 hh.1.symm, if_neg fun hh => (sec2_mem h1 h2).2.2.2 hh.1.symm]
    exact ⟨rfl, rfl⟩
  have hjlt : ∀ id' j, s.tmpexps.lookup id' = some j → j < s.tmpexpN.length := fun id' j hj => by
    obtain ⟨-, a, ha⟩ := h.tmpId id' j hj
    exact lt_of_get ha
  refine ⟨h.trees, h.lenN, h.len2, ?_, ?_, ?_, by simp [h.tmpLen], ?_, ?_, ?_, ?_⟩
  · intro k u e hk
    obtain ⟨a, b, g1, g2, g3, g4, g5, g6⟩ := h.col k u e hk
    refine ⟨a, b, g1, g2, get_append g3, get_append g4, ?_, ?_⟩
    · rw [take_append (le_of_lt (lt_of_get g3))]; exact g5
    · rw [take_append (le_of_lt (lt_of_get g4))]; exact g6
  · intro t e h1 h2
    dsimp only
    rw [cnt_append, cnt_append, (hcN t e h1 h2).1, (hcN t e h1 h2).2]
    exact h.tot t e h1 h2
  · intro x hx
    simp only [List.mem_append, List.mem_singleton] at hx
    rcases hx with hx | rfl
    · exact h.secs x hx
    · exact ⟨(by decide : Sec.tmpexp_n ∈ names), (by decide : Sec.tmpexp_n ≠ .q_2ns), (by decide : Sec.tmpexp_n ≠ .f_2ns)⟩
  · intro j a hj
    dsimp only at hj ⊢
    by_cases hlt : j < s.tmpexpN.length
    · rw [List.getElem?_append_left hlt] at hj
      obtain ⟨d, hd⟩ := h.tmpPol j a hj
      exact ⟨d, get_append hd⟩
    · have hj' : j = s.tmpexpN.length := by have := lt_of_get hj; simp at this; omega
      subst hj'
      simp only [List.getElem?_concat_length, Option.some.injEq] at hj
      subst hj
      exact ⟨dim, by simp⟩
  · intro j j' a a' hjj hj hj'
    dsimp only at hj hj'
    have hlen := lt_of_get hj'
    simp only [List.length_append, List.length_singleton] at hlen
    rw [List.getElem?_append_left (by omega)] at hj
    by_cases hlt : j' < s.tmpexpN.length
    · rw [List.getElem?_append_left hlt] at hj'
      exact h.tmpLt j j' a a' hjj hj hj'
    · have : j' = s.tmpexpN.length := by omega
      subst this
      simp only [List.getElem?_concat_length, Option.some.injEq] at hj'
      subst hj'
      obtain ⟨d, hd⟩ := h.tmpPol j a hj
      exact lt_of_get hd
  · intro id' j hj
    dsimp only at hj ⊢
    rw [lookup_cons_ite] at hj
    split_ifs at hj with he
    · obtain rfl := Option.some.inj hj
      subst he
      exact ⟨hc.1, s.pols.length, by simp⟩
    · obtain ⟨g1, a, g2⟩ := h.tmpId id' j hj
      exact ⟨g1, a, get_append g2⟩
  · intro id1 id2 j hj1 hj2
    dsimp only at hj1 hj2
    rw [lookup_cons_ite] at hj1 hj2
    split_ifs at hj1 hj2 with e1 e2 e2
    · rw [e1, e2]
    · obtain rfl := Option.some.inj hj1
      exact absurd (hjlt id2 _ hj2) (lt_irrefl _)
    · obtain rfl := Option.some.inj hj2
      exact absurd (hjlt id1 _ hj1) (lt_irrefl _)
    · exact h.tmpInj id1 id2 j hj1 hj2

theorem inv_exp2pol (h : Inv i cols s) (l : List (Nat × Nat)) : Inv i cols { s with exp2pol := l } :=
  ⟨h.trees, h.lenN, h.len2, h.col, h.tot, h.secs, h.tmpLen, h.tmpPol, h.tmpLt, h.tmpId, h.tmpInj⟩

theorem inv_empty (i : In E) (l : List Nat) : Inv i [] { cmDims := l } := by
  refine ⟨by simp, rfl, rfl, by simp, ?_, by simp, rfl, by simp, by simp, by simp, by simp⟩
  intro t e _ _
  exact ⟨rfl, rfl⟩

end Verif.Map
