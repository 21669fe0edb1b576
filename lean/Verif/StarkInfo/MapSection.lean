import Mathlib.Data.List.Basic
import Mathlib.Tactic.Ring
import Verif.Interp.Spec

/-!
# Column layout: `map_section` and `map_offsets` (starky/src/starkinfo_map.rs L213-229, L490-517)
-/
namespace Verif.StarkInfo
open Verif.Interp

/-- the inner loop, starky/src/starkinfo_map.rs L499-504: the polynomials of section `s` and dimension `e` get consecutive positions from `p` on -/
def assign (s : Sec) (e : Nat) : List PolType → Nat → List PolType × Nat
  | [], p => ([], p)
  | x :: xs, p =>
    if x.section_ = s ∧ x.dim = e then
      let r := assign s e xs (p + e)
      ({ x with sectionPos := p } :: r.1, r.2)
    else
      let r := assign s e xs p
      (x :: r.1, r.2)

/-- the result of one section: the map and the entries of `map_sectionsN1`, `map_sectionsN`, `map_sectionsN3` -/
structure SecMap where
  pols : List PolType
  n1 : Nat
  n : Nat
  n3 : Nat

/-- the body of the outer loop for one section, starky/src/starkinfo_map.rs L496-514: dimensions 1, 2 and 3 in turn -/
def mapOne (s : Sec) (pols : List PolType) : SecMap :=
  let a := assign s 1 pols 0
  let b := assign s 2 a.1 a.2
  let c := assign s 3 b.1 b.2
  { pols := c.1, n1 := a.2, n := c.2, n3 := (c.2 - a.2) / 3 }

/-- the sections in the order of starky/src/starkinfo_map.rs L491-494 -/
def names : List Sec :=
  [.cm1_n, .cm1_2ns, .cm2_n, .cm2_2ns, .cm3_n, .cm3_2ns, .cm4_n, .cm4_2ns, .q_2ns, .f_2ns, .tmpexp_n]

/-- the three indices and the map; `Index` is a function of the section -/
structure Layout where
  pols : List PolType
  n1 : Sec → Nat
  n : Sec → Nat
  n3 : Sec → Nat

/-- `map_section`, starky/src/starkinfo_map.rs L490-517 (`Index` starts as zeros) -/
def mapSection (pols : List PolType) : Layout :=
  names.foldl (fun L s =>
    let r := mapOne s L.pols
    { pols := r.pols, n1 := Function.update L.n1 s r.n1, n := Function.update L.n s r.n, n3 := Function.update L.n3 s r.n3 })
    { pols := pols, n1 := fun _ => 0, n := fun _ => 0, n3 := fun _ => 0 }

/-! ### Lemmas -/

/-- membership test of the inner loop -/
def isPol (s : Sec) (e : Nat) (x : PolType) : Bool := decide (x.section_ = s ∧ x.dim = e)

/-- number of polynomials of a section and dimension -/
def cnt (s : Sec) (e : Nat) (l : List PolType) : Nat := l.countP (isPol s e)

theorem assign_length (s : Sec) (e : Nat) (l : List PolType) (p : Nat) : (assign s e l p).1.length = l.length := by
  induction l generalizing p with
  | nil => rfl
  | cons x l ih => unfold assign; split <;> simp [ih]

theorem assign_end (s : Sec) (e : Nat) (l : List PolType) (p : Nat) : (assign s e l p).2 = p + e * cnt s e l := by
  induction l generalizing p with
  | nil => simp [assign, cnt]
  | cons x l ih =>
    unfold assign
    split
    · rename_i h
      simp only [ih, cnt]
      rw [List.countP_cons_of_pos (by simp [isPol, h])]
      ring
    · rename_i h
      simp only [ih, cnt]
      rw [List.countP_cons_of_neg (by simp only [isPol, decide_eq_true_eq]; exact h)]

/-- the polynomial at index `i` after the inner loop -/
theorem assign_get (s : Sec) (e : Nat) (l : List PolType) (p i : Nat) (x : PolType) (hx : l[i]? = some x) :
    (assign s e l p).1[i]? =
      some (if x.section_ = s ∧ x.dim = e then { x with sectionPos := p + e * cnt s e (l.take i) } else x) := by
  induction l generalizing p i with
  | nil => simp at hx
  | cons y l ih =>
    cases i with
    | zero =>
      simp only [List.getElem?_cons_zero, Option.some.injEq] at hx
      subst hx
      unfold assign
      split <;> simp [cnt, *]
    | succ i =>
      simp only [List.getElem?_cons_succ] at hx
      unfold assign
      split
      · rename_i h
        simp only [List.getElem?_cons_succ, ih _ _ hx, List.take_succ_cons, cnt]
        rw [List.countP_cons_of_pos (by simp [isPol, h])]
        congr 1
        split
        · congr 1; ring
        · rfl
      · rename_i h
        simp only [List.getElem?_cons_succ, ih _ _ hx, List.take_succ_cons, cnt]
        rw [List.countP_cons_of_neg (by simp only [isPol, decide_eq_true_eq]; exact h)]

theorem cnt_take_lt (s : Sec) (e : Nat) (l : List PolType) (i j : Nat) (x : PolType) (hij : i < j) (hx : l[i]? = some x)
    (hm : x.section_ = s ∧ x.dim = e) : cnt s e (l.take i) < cnt s e (l.take j) := by
  have h1 : l.take (i + 1) = l.take i ++ [x] := by
    rw [List.take_add_one, hx]; rfl
  have h2 : cnt s e (l.take (i + 1)) = cnt s e (l.take i) + 1 := by
    rw [h1, cnt, List.countP_append, List.countP_singleton]
    simp [isPol, hm, cnt]
  have h3 : cnt s e (l.take (i + 1)) ≤ cnt s e (l.take j) := by
    have : (l.take (i + 1)).Sublist (l.take j) := by
      have : l.take (i + 1) = (l.take j).take (i + 1) := by rw [List.take_take, Nat.min_eq_left hij]
      rw [this]
      exact List.take_sublist _ _
    exact this.countP_le
  omega

theorem cnt_take_total (s : Sec) (e : Nat) (l : List PolType) (i : Nat) (x : PolType) (hx : l[i]? = some x)
    (hm : x.section_ = s ∧ x.dim = e) : cnt s e (l.take i) < cnt s e l := by
  have hi : i < l.length := by
    by_contra h
    rw [List.getElem?_eq_none (by omega)] at hx
    simp at hx
  have := cnt_take_lt s e l i l.length x hi hx hm
  rwa [List.take_length] at this

theorem cnt_exists (s : Sec) (e : Nat) (l : List PolType) (r : Nat) (hr : r < cnt s e l) :
    ∃ i x, l[i]? = some x ∧ (x.section_ = s ∧ x.dim = e) ∧ cnt s e (l.take i) = r := by
  induction l generalizing r with
  | nil => simp [cnt] at hr
  | cons y l ih =>
    by_cases h : y.section_ = s ∧ y.dim = e
    · cases r with
      | zero => exact ⟨0, y, rfl, h, by simp [cnt]⟩
      | succ r =>
        have : cnt s e (y :: l) = cnt s e l + 1 := by
          rw [cnt, List.countP_cons_of_pos (by simp [isPol, h])]; rfl
        obtain ⟨i, x, h1, h2, h3⟩ := ih r (by omega)
        refine ⟨i + 1, x, by simpa using h1, h2, ?_⟩
        rw [List.take_succ_cons, cnt, List.countP_cons_of_pos (by simp [isPol, h])]
        simpa [cnt] using h3
    · have hn : ∀ t : List PolType, cnt s e (y :: t) = cnt s e t := by
        intro t
        rw [cnt, List.countP_cons_of_neg (by simp only [isPol, decide_eq_true_eq]; exact h)]; rfl
      rw [hn] at hr
      obtain ⟨i, x, h1, h2, h3⟩ := ih r hr
      exact ⟨i + 1, x, by simpa using h1, h2, by rw [List.take_succ_cons, hn]; exact h3⟩

/-- same sections and dimensions -/
def SameShape (a b : List PolType) : Prop :=
  a.map (fun x => (x.section_, x.dim)) = b.map (fun x => (x.section_, x.dim))

theorem assign_shape (s : Sec) (e : Nat) (l : List PolType) (p : Nat) : SameShape (assign s e l p).1 l := by
  unfold SameShape
  induction l generalizing p with
  | nil => rfl
  | cons x l ih => unfold assign; split <;> simp [ih]

theorem SameShape.cnt {a b : List PolType} (h : SameShape a b) (s : Sec) (e i : Nat) :
    cnt s e (a.take i) = cnt s e (b.take i) := by
  have key : ∀ l : List PolType, StarkInfo.cnt s e l = (l.map fun x => (x.section_, x.dim)).countP
      (fun q => decide (q.1 = s ∧ q.2 = e)) := by
    intro l
    rw [List.countP_map]
    rfl
  rw [key, key, List.map_take, List.map_take, h]

theorem SameShape.cntAll {a b : List PolType} (h : SameShape a b) (s : Sec) (e : Nat) :
    StarkInfo.cnt s e a = StarkInfo.cnt s e b := by
  have hl : a.length = b.length := by simpa using congrArg List.length h
  have := h.cnt s e a.length
  rwa [List.take_length, hl, List.take_length] at this

/-- where the columns of dimension `e` start -/
def start (s : Sec) (l : List PolType) : Nat → Nat
  | 1 => 0
  | 2 => cnt s 1 l
  | 3 => cnt s 1 l + 2 * cnt s 2 l
  | _ => 0

theorem mapOne_get (s : Sec) (l : List PolType) (i : Nat) (x : PolType) (hx : l[i]? = some x) :
    (mapOne s l).pols[i]? = some (if x.section_ = s ∧ (x.dim = 1 ∨ x.dim = 2 ∨ x.dim = 3)
      then { x with sectionPos := start s l x.dim + x.dim * cnt s x.dim (l.take i) } else x) := by
  unfold mapOne
  simp only []
  have h1 := assign_get s 1 l 0 i x hx
  have s1 := assign_shape s 1 l 0
  have h2 := assign_get s 2 (assign s 1 l 0).1 (assign s 1 l 0).2 i _ h1
  have s2 := assign_shape s 2 (assign s 1 l 0).1 (assign s 1 l 0).2
  have h3 := assign_get s 3 _ (assign s 2 (assign s 1 l 0).1 (assign s 1 l 0).2).2 i _ h2
  rw [h3]
  have s12 : SameShape (assign s 2 (assign s 1 l 0).1 (assign s 1 l 0).2).1 l := s2.trans s1
  rw [s12.cnt s 3 i, s1.cnt s 2 i]
  simp only [assign_end, s1.cntAll]
  by_cases hs : x.section_ = s
  · by_cases d1 : x.dim = 1
    · simp [hs, d1, start]
    · by_cases d2 : x.dim = 2
      · simp [hs, d2, start]
      · by_cases d3 : x.dim = 3
        · simp [hs, d3, start]
        · simp [d1, d2, d3]
  · simp [hs]

theorem mapOne_n (s : Sec) (l : List PolType) : (mapOne s l).n = cnt s 1 l + 2 * cnt s 2 l + 3 * cnt s 3 l ∧
    (mapOne s l).n1 = cnt s 1 l ∧ (mapOne s l).n3 = (2 * cnt s 2 l + 3 * cnt s 3 l) / 3 := by
  have s1 := assign_shape s 1 l 0
  have s12 : ∀ p, SameShape (assign s 2 (assign s 1 l 0).1 p).1 l := fun p => (assign_shape s 2 _ p).trans s1
  unfold mapOne
  simp only [assign_end, s1.cntAll, (s12 _).cntAll]
  refine ⟨by omega, by omega, ?_⟩
  congr 1
  omega

theorem mapOne_shape (s : Sec) (l : List PolType) : SameShape (mapOne s l).pols l :=
  (assign_shape s 3 _ _).trans ((assign_shape s 2 _ _).trans (assign_shape s 1 _ _))

/-! ### Specification -/

/-- the polynomial `x` occupies column `c` of the rows of its section -/
def Occupies (x : PolType) (c : Nat) : Prop := x.sectionPos ≤ c ∧ c < x.sectionPos + x.dim

/-- The layout of a section: rows of width `N` in which every column belongs to exactly one polynomial. -/
def Tiles (s : Sec) (N : Nat) (l : List PolType) : Prop :=
  (∀ (i : Nat) (x : PolType), l[i]? = some x → x.section_ = s → x.sectionPos + x.dim ≤ N) ∧
  (∀ (i j : Nat) (x y : PolType) (c : Nat), l[i]? = some x → l[j]? = some y → x.section_ = s → y.section_ = s → Occupies x c → Occupies y c → i = j) ∧
  (∀ c, c < N → ∃ (i : Nat) (x : PolType), l[i]? = some x ∧ x.section_ = s ∧ Occupies x c)

/-- one section -/
theorem mapOne_tiles (s : Sec) (l : List PolType) (hd : ∀ x ∈ l, x.section_ = s → x.dim = 1 ∨ x.dim = 2 ∨ x.dim = 3) :
    Tiles s (mapOne s l).n (mapOne s l).pols := by
  have hget : ∀ i y, (mapOne s l).pols[i]? = some y → y.section_ = s → ∃ x, l[i]? = some x ∧ x.section_ = s ∧ y.dim = x.dim ∧
      (x.dim = 1 ∨ x.dim = 2 ∨ x.dim = 3) ∧ y.sectionPos = start s l x.dim + x.dim * cnt s x.dim (l.take i) := by
    intro i y hy hs
    have hi : i < l.length := by
      by_contra h
      have hl : (mapOne s l).pols.length = l.length := by
        have := congrArg List.length (mapOne_shape s l)
        simpa using this
      rw [List.getElem?_eq_none (by omega)] at hy
      simp at hy
    have hx := mapOne_get s l i _ (List.getElem?_eq_getElem hi)
    rw [hy, Option.some.injEq] at hx
    have hsx : l[i].section_ = s := by
      rw [hx] at hs
      split at hs <;> exact hs
    have hdx := hd l[i] (List.getElem_mem _) hsx
    rw [if_pos ⟨hsx, hdx⟩] at hx
    exact ⟨l[i], List.getElem?_eq_getElem hi, hsx, by rw [hx], hdx, by rw [hx]⟩
  have hN := (mapOne_n s l).1
  refine ⟨?_, ?_, ?_⟩
  · intro i y hy hs
    obtain ⟨x, h1, h2, h3, h4, h5⟩ := hget i y hy hs
    have := cnt_take_total s x.dim l i x h1 ⟨h2, rfl⟩
    rw [hN, h5, h3]
    rcases h4 with h | h | h <;> rw [h] at this ⊢ <;> simp only [start] <;> omega
  · intro i j y z c hy hz hsy hsz hoy hoz
    obtain ⟨x, h1, h2, h3, h4, h5⟩ := hget i y hy hsy
    obtain ⟨w, g1, g2, g3, g4, g5⟩ := hget j z hz hsz
    have tx := cnt_take_total s x.dim l i x h1 ⟨h2, rfl⟩
    have tw := cnt_take_total s w.dim l j w g1 ⟨g2, rfl⟩
    unfold Occupies at hoy hoz
    rw [h5, h3] at hoy
    rw [g5, g3] at hoz
    by_cases hdim : x.dim = w.dim
    · by_contra hne
      rcases Nat.lt_or_gt_of_ne hne with hlt | hlt
      · have := cnt_take_lt s x.dim l i j x hlt h1 ⟨h2, rfl⟩
        rw [← hdim] at hoz
        rcases h4 with h | h | h <;> rw [h] at this hoy hoz <;> simp only [start] at hoy hoz <;> omega
      · have := cnt_take_lt s w.dim l j i w hlt g1 ⟨g2, rfl⟩
        rw [hdim] at hoy
        rcases g4 with h | h | h <;> rw [h] at this hoy hoz <;> simp only [start] at hoy hoz <;> omega
    · exfalso
      rcases h4 with h | h | h <;> rcases g4 with g | g | g <;> rw [h] at hoy tx <;> rw [g] at hoz tw <;>
        simp only [start] at hoy hoz <;> omega
  · intro c hc
    have mk : ∀ e, (e = 1 ∨ e = 2 ∨ e = 3) → ∀ r, r < cnt s e l → start s l e + e * r ≤ c → c < start s l e + e * r + e →
        ∃ (i : Nat) (x : PolType), (mapOne s l).pols[i]? = some x ∧ x.section_ = s ∧ Occupies x c := by
      intro e he r hr h1 h2
      obtain ⟨i, x, hx, ⟨hs, rfl⟩, hcnt⟩ := cnt_exists s e l r hr
      refine ⟨i, _, mapOne_get s l i x hx, ?_, ?_⟩
      · rw [if_pos ⟨hs, he⟩]; exact hs
      · rw [if_pos ⟨hs, he⟩]
        unfold Occupies
        simp only [hcnt]
        omega
    rw [hN] at hc
    by_cases c1 : c < cnt s 1 l
    · exact mk 1 (by simp) c c1 (by simp [start]) (by simp only [start]; omega)
    · by_cases c2 : c < cnt s 1 l + 2 * cnt s 2 l
      · refine mk 2 (by simp) ((c - cnt s 1 l) / 2) (by omega) ?_ ?_ <;> simp only [start] <;> omega
      · refine mk 3 (by simp) ((c - (cnt s 1 l + 2 * cnt s 2 l)) / 3) (by omega) ?_ ?_ <;> simp only [start] <;> omega

theorem mapOne_other (s t : Sec) (l : List PolType) (hst : t ≠ s) (i : Nat) (y : PolType) (hy : (mapOne s l).pols[i]? = some y)
    (ht : y.section_ = t) : l[i]? = some y := by
  have hi : i < l.length := by
    by_contra h
    have hl : (mapOne s l).pols.length = l.length := by
      have := congrArg List.length (mapOne_shape s l)
      simpa using this
    rw [List.getElem?_eq_none (by omega)] at hy
    simp at hy
  have hx := mapOne_get s l i _ (List.getElem?_eq_getElem hi)
  rw [hy, Option.some.injEq] at hx
  split at hx
  · rename_i h
    rw [hx] at ht
    exact absurd (ht.symm.trans h.1) hst
  · rw [hx, List.getElem?_eq_getElem hi]

theorem mapOne_other' (s t : Sec) (l : List PolType) (hst : t ≠ s) (i : Nat) (y : PolType) (hy : l[i]? = some y)
    (ht : y.section_ = t) : (mapOne s l).pols[i]? = some y := by
  rw [mapOne_get s l i y hy, if_neg]
  rintro ⟨h, -⟩
  exact hst (ht.symm.trans h)

theorem tiles_other (s t : Sec) (N : Nat) (l : List PolType) (hst : t ≠ s) (h : Tiles t N l) : Tiles t N (mapOne s l).pols := by
  obtain ⟨h1, h2, h3⟩ := h
  refine ⟨?_, ?_, ?_⟩
  · intro i x hx hs
    exact h1 i x (mapOne_other s t l hst i x hx hs) hs
  · intro i j x y c hx hy hsx hsy
    exact h2 i j x y c (mapOne_other s t l hst i x hx hsx) (mapOne_other s t l hst j y hy hsy) hsx hsy
  · intro c hc
    obtain ⟨i, x, hx, hs, ho⟩ := h3 c hc
    exact ⟨i, x, mapOne_other' s t l hst i x hx hs, hs, ho⟩

theorem SameShape.dims {a b : List PolType} (h : SameShape a b) {P : Sec → Nat → Prop}
    (hb : ∀ x ∈ b, P x.section_ x.dim) : ∀ x ∈ a, P x.section_ x.dim := by
  intro x hx
  have : (x.section_, x.dim) ∈ b.map (fun x => (x.section_, x.dim)) := by
    rw [← h]
    exact List.mem_map.mpr ⟨x, hx, rfl⟩
  obtain ⟨y, hy, he⟩ := List.mem_map.mp this
  have := hb y hy
  simp only [Prod.mk.injEq] at he
  rwa [he.1, he.2] at this

/-- **C46**: whatever polynomials there are (of dimension 1, 2 or 3), after `map_section` the polynomials of every section
occupy pairwise disjoint column ranges inside the row, which they cover exactly; sections, dimensions and the order of
the polynomials are unchanged; the row widths are the sums of the dimensions. -/
theorem mapSection_spec (pols : List PolType) (hd : ∀ x ∈ pols, x.dim = 1 ∨ x.dim = 2 ∨ x.dim = 3) (s : Sec) (hs : s ∈ names) :
    Tiles s ((mapSection pols).n s) (mapSection pols).pols ∧
    (mapSection pols).pols.map (fun x => (x.section_, x.dim)) = pols.map (fun x => (x.section_, x.dim)) ∧
    (mapSection pols).n s = ((pols.filter (fun x => x.section_ = s)).map PolType.dim).sum := by
  have key : ∀ (done todo : List Sec), (done ++ todo).Nodup → ∀ L : Layout, SameShape L.pols pols →
      (∀ t ∈ done, Tiles t (L.n t) L.pols ∧ L.n t = cnt t 1 pols + 2 * cnt t 2 pols + 3 * cnt t 3 pols) →
      let L' := todo.foldl (fun L s =>
        let r := mapOne s L.pols
        { pols := r.pols, n1 := Function.update L.n1 s r.n1, n := Function.update L.n s r.n, n3 := Function.update L.n3 s r.n3 }) L
      SameShape L'.pols pols ∧
      (∀ t ∈ done ++ todo, Tiles t (L'.n t) L'.pols ∧ L'.n t = cnt t 1 pols + 2 * cnt t 2 pols + 3 * cnt t 3 pols) := by
    intro done todo
    induction todo generalizing done with
    | nil => intro _ L h1 h2; simpa using ⟨h1, h2⟩
    | cons s todo ih =>
      intro hnd L h1 h2
      have hdims : ∀ x ∈ L.pols, x.dim = 1 ∨ x.dim = 2 ∨ x.dim = 3 :=
        h1.dims (P := fun _ d => d = 1 ∨ d = 2 ∨ d = 3) hd
      have := ih (done ++ [s]) (by simpa using hnd)
        { pols := (mapOne s L.pols).pols, n1 := Function.update L.n1 s (mapOne s L.pols).n1,
          n := Function.update L.n s (mapOne s L.pols).n, n3 := Function.update L.n3 s (mapOne s L.pols).n3 }
        ((mapOne_shape s L.pols).trans h1) (by
          intro t ht
          rcases List.mem_append.mp ht with htd | ht
          · have hts : t ≠ s := by
              rintro rfl
              rw [List.nodup_append] at hnd
              exact hnd.2.2 t htd t (by simp) rfl
            simp only [Function.update_of_ne hts]
            exact ⟨tiles_other s t _ _ hts (h2 t htd).1, (h2 t htd).2⟩
          · simp only [List.mem_singleton] at ht
            subst ht
            simp only [Function.update_self]
            refine ⟨mapOne_tiles t L.pols fun x hx _ => hdims x hx, ?_⟩
            rw [(mapOne_n t L.pols).1, h1.cntAll, h1.cntAll, h1.cntAll])
      simpa using this
  obtain ⟨k1, k2⟩ := key [] names (by decide) { pols := pols, n1 := fun _ => 0, n := fun _ => 0, n3 := fun _ => 0 } rfl (by simp)
  obtain ⟨t1, t2⟩ := k2 s (by simpa using hs)
  refine ⟨t1, k1, ?_⟩
  have hsum : ∀ l : List PolType, (∀ x ∈ l, x.dim = 1 ∨ x.dim = 2 ∨ x.dim = 3) →
      cnt s 1 l + 2 * cnt s 2 l + 3 * cnt s 3 l = ((l.filter (fun x => x.section_ = s)).map PolType.dim).sum := by
    intro l
    induction l with
    | nil => intro _; rfl
    | cons x l ih =>
      intro hl
      have ih' := ih fun y hy => hl y (by simp [hy])
      have c1 : ∀ e, cnt s e (x :: l) = cnt s e l + if x.section_ = s ∧ x.dim = e then 1 else 0 := by
        intro e
        rw [cnt, List.countP_cons]
        simp [cnt, isPol]
      by_cases hxs : x.section_ = s
      · rw [List.filter_cons_of_pos (by simpa using hxs), List.map_cons, List.sum_cons, ← ih', c1, c1, c1]
        rcases hl x (by simp) with h | h | h <;> simp [hxs, h] <;> omega
      · rw [List.filter_cons_of_neg (by simpa using hxs), ← ih', c1, c1, c1]
        simp [hxs]
  show (mapSection pols).n s = _
  rw [← hsum pols hd]
  exact t2

/-! ### The big buffer -/

/-- `map_offsets` and `map_total_n`, starky/src/starkinfo_map.rs L217-229: the sections follow each other, each taking `rows * width` cells -/
def offsets (N Next : Nat) (w : Sec → Nat) : List (Sec × Nat × Nat) :=
  let o1 := 0
  let o2 := o1 + N * w .cm1_n
  let o3 := o2 + N * w .cm2_n
  let o4 := o3 + N * w .cm3_n
  let ot := o4 + N * w .cm4_n
  let e1 := ot + N * w .tmpexp_n
  let e2 := e1 + Next * w .cm1_2ns
  let e3 := e2 + Next * w .cm2_2ns
  let e4 := e3 + Next * w .cm3_2ns
  let q := e4 + Next * w .cm4_2ns
  let f := q + Next * w .q_2ns
  [(.cm1_n, o1, N), (.cm2_n, o2, N), (.cm3_n, o3, N), (.cm4_n, o4, N), (.tmpexp_n, ot, N), (.cm1_2ns, e1, Next),
   (.cm2_2ns, e2, Next), (.cm3_2ns, e3, Next), (.cm4_2ns, e4, Next), (.q_2ns, q, Next), (.f_2ns, f, Next)]

/-- `map_total_n`, starky/src/starkinfo_map.rs L229 -/
def total (N Next : Nat) (w : Sec → Nat) : Nat :=
  N * w .cm1_n + N * w .cm2_n + N * w .cm3_n + N * w .cm4_n + N * w .tmpexp_n + Next * w .cm1_2ns + Next * w .cm2_2ns +
  Next * w .cm3_2ns + Next * w .cm4_2ns + Next * w .q_2ns + Next * w .f_2ns

/-- **C46**: in the linear address space of `map_offsets` the sections occupy pairwise disjoint intervals, in order, and the last one
ends at `map_total_n`. -/
theorem offsets_disjoint (N Next : Nat) (w : Sec → Nat) :
    (offsets N Next w).Pairwise (fun a b => a.2.1 + a.2.2 * w a.1 ≤ b.2.1) ∧
    ∀ a ∈ offsets N Next w, a.2.1 + a.2.2 * w a.1 ≤ total N Next w := by
  generalize hw : w = w'
  constructor
  · simp only [offsets, List.pairwise_cons, List.mem_cons, List.not_mem_nil, or_false, forall_eq_or_imp, forall_eq]
    refine ⟨?_, ?_, ?_, ?_, ?_, ?_, ?_, ?_, ?_, ?_, ?_⟩ <;> (try simp) <;> (try omega)
  · simp only [offsets, total, List.mem_cons, List.not_mem_nil, or_false, forall_eq_or_imp, forall_eq]
    refine ⟨?_, ?_, ?_, ?_, ?_, ?_, ?_, ?_, ?_, ?_, ?_⟩ <;> omega

/-! ### Non-vacuity -/

example : (mapSection [⟨.cm1_n, 0, 1⟩, ⟨.cm3_n, 0, 3⟩, ⟨.cm3_n, 0, 1⟩, ⟨.cm1_n, 0, 1⟩, ⟨.cm3_n, 0, 3⟩]).pols.map PolType.sectionPos =
    [0, 1, 0, 1, 4] ∧ (mapSection [⟨.cm1_n, 0, 1⟩, ⟨.cm3_n, 0, 3⟩, ⟨.cm3_n, 0, 1⟩, ⟨.cm1_n, 0, 1⟩, ⟨.cm3_n, 0, 3⟩]).n .cm3_n = 7 := by
  decide

end Verif.StarkInfo
