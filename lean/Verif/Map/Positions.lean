import Verif.Map.Build
import Verif.Grand.Columns

/-!
# Positions of the columns that `map` creates (C92)
-/
namespace Verif.Map
open Verif.Interp (Sec PolType Info)
open Verif.StarkInfo
open Verif.Stark (ColPos)
open Verif.Codegen (Expr)
open Verif.Grand (PCtx Disj)

variable {E : Type} {i : In E} {fuel : Nat} {o : Out}

/-! ### Specification -/

/-- number of committed columns -/
def In.nCols (i : In E) : Nat := i.nCm1 + 2 * i.pu.length + (i.pu.length + i.pe.length + i.ci.length) + i.imList.length + i.qDeg

/-- the Merkle tree (the round) of column `k`: the trace, the columns of the lookups, the grand products with the intermediate
polynomials, the quotient -/
def In.tree (i : In E) (k : Nat) : Nat :=
  if k < i.nCm1 then 1
  else if k < i.nCm1 + 2 * i.pu.length then 2
  else if k < i.nCm1 + 2 * i.pu.length + (i.pu.length + i.pe.length + i.ci.length) + i.imList.length then 3
  else 4

/-- the round of a section of the trace domain -/
def roundOf : Sec → Option Nat
  | .cm1_n => some 1
  | .cm2_n => some 2
  | .cm3_n => some 3
  | .cm4_n => some 4
  | _ => none

/-- where the values of column `k` on the trace domain are stored (`cm_n`): round, position in the row, cells -/
def Out.base (o : Out) (k : Nat) : Option ColPos :=
  o.st.cmN[k]?.bind fun p => o.lay.pols[p]?.bind fun x => (roundOf x.section_).map fun t => ⟨t, x.sectionPos, x.dim⟩

/-- cells in a row of round `t`, on the trace domain and on the extended domain -/
def Out.widthN (o : Out) (t : Nat) : Nat := o.lay.n (secN t)
@[inherit_doc Out.widthN] def Out.width2 (o : Out) (t : Nat) : Nat := o.lay.n (sec2 t)

/-! ### Proofs -/

/-- first cell of the columns of dimension `e` -/
def startC (t : Nat) (cols : List (Nat × Nat)) : Nat → Nat
  | 1 => 0
  | 2 => cntC t 1 cols
  | 3 => cntC t 1 cols + 2 * cntC t 2 cols
  | _ => 0

/-- position of column `k` -/
def posC (cols : List (Nat × Nat)) (k t e : Nat) : Nat := if e = 1 ∨ e = 2 ∨ e = 3 then startC t cols e + e * cntC t e (cols.take k) else 0

theorem cntC_take_lt {cols : List (Nat × Nat)} {k k' t e : Nat} (h : k < k') (hk : cols[k]? = some (t, e)) :
    cntC t e (cols.take k) < cntC t e (cols.take k') := by
  have h1 : cols.take (k + 1) = cols.take k ++ [(t, e)] := by
    rw [List.take_add_one, hk]; rfl
  have h2 : cntC t e (cols.take (k + 1)) = cntC t e (cols.take k) + 1 := by
    rw [h1]; simp [cntC, List.countP_append]
  have h3 : cntC t e (cols.take (k + 1)) ≤ cntC t e (cols.take k') := by
    unfold cntC
    exact List.Sublist.countP_le (List.take_sublist_take_left (by omega))
  omega

theorem cntC_take_total {cols : List (Nat × Nat)} {k t e : Nat} (hk : cols[k]? = some (t, e)) : cntC t e (cols.take k) < cntC t e cols := by
  have := cntC_take_lt (lt_of_get hk) hk
  rwa [List.take_length] at this

/-- width of a row -/
def widthC (cols : List (Nat × Nat)) (t : Nat) : Nat := cntC t 1 cols + 2 * cntC t 2 cols + 3 * cntC t 3 cols

theorem posC_fit {cols : List (Nat × Nat)} {k t e : Nat} (hk : cols[k]? = some (t, e)) (he : e ≤ 3) : posC cols k t e + e ≤ widthC cols t := by
  have := cntC_take_total hk
  unfold posC widthC
  interval_cases e <;> simp [startC] <;> omega

theorem posC_disj {cols : List (Nat × Nat)} {k k' t e e' : Nat} (h : k < k') (hk : cols[k]? = some (t, e)) (hk' : cols[k']? = some (t, e'))
    (he : e ≤ 3) (he' : e' ≤ 3) : posC cols k t e + e ≤ posC cols k' t e' ∨ posC cols k' t e' + e' ≤ posC cols k t e ∨ e = 0 ∨ e' = 0 := by
  have a1 := cntC_take_total hk
  have a2 := cntC_take_total hk'
  by_cases hee : e = e'
  · subst hee
    have := cntC_take_lt h hk
    unfold posC
    interval_cases e <;> simp [startC] <;> omega
  · unfold posC
    interval_cases e <;> interval_cases e' <;> simp [startC] at hee ⊢ <;> omega

/-- the ghost columns determine the layout -/
structure Cols (i : In E) (cols : List (Nat × Nat)) (o : Out) : Prop where
  len : cols.length = i.nCols
  trees : ∀ (k t e : Nat), cols[k]? = some (t, e) → t = i.tree k ∧ e ≤ 3
  pos : ∀ (k t e : Nat), cols[k]? = some (t, e) → o.pos k = some ⟨t, posC cols k t e, e⟩ ∧ o.base k = some ⟨t, posC cols k t e, e⟩
  none : ∀ k, cols.length ≤ k → o.pos k = none ∧ o.base k = none
  width : ∀ t, 1 ≤ t → t ≤ 4 → o.widthN t = widthC cols t ∧ o.width2 t = widthC cols t

theorem colList_length (ds es : List Nat) (qDim : Nat) (h1 : ds.length = i.pu.length) (h2 : es.length = i.imList.length) :
    (colList i ds es qDim).length = i.nCols := by
  unfold colList In.nCols
  simp [List.length_flatMap, h1, h2]
  omega

theorem pairs_get (ds : List Nat) : ∀ k : Nat, (ds.flatMap fun d => [(2, d), (2, d)])[k]? = (ds[k / 2]?).map fun d => (2, d) := by
  induction ds with
  | nil => intro k; simp
  | cons d ds ih =>
    intro k
    rw [List.flatMap_cons]
    match k with
    | 0 => simp
    | 1 => simp
    | k + 2 =>
      rw [List.getElem?_append_right (by simp)]
      simp only [List.length_cons, List.length_nil]
      rw [show k + 2 - (0 + 1 + 1) = k by omega, ih, show (k + 2) / 2 = k / 2 + 1 by omega, List.getElem?_cons_succ]

/-- the columns, one by one -/
theorem colList_get {ds es : List Nat} {qDim k t e : Nat} (h1 : ds.length = i.pu.length) (h2 : es.length = i.imList.length)
    (h : (colList i ds es qDim)[k]? = some (t, e)) : t = i.tree k ∧
      (k < i.nCm1 ∧ e = 1 ∨
       (∃ n, n < i.pu.length ∧ (k = i.nCm1 + 2 * n ∨ k = i.nCm1 + 2 * n + 1) ∧ ds[n]? = some e) ∨
       (i.nCm1 + 2 * i.pu.length ≤ k ∧ k < i.nCm1 + 2 * i.pu.length + (i.pu.length + i.pe.length + i.ci.length) ∧ e = 3) ∨
       (∃ n, n < i.imList.length ∧ k = i.nCm1 + 2 * i.pu.length + (i.pu.length + i.pe.length + i.ci.length) + n ∧ es[n]? = some e) ∨
       (i.nCm1 + 2 * i.pu.length + (i.pu.length + i.pe.length + i.ci.length) + i.imList.length ≤ k ∧ e = qDim)) := by
  have hlen := lt_of_get h
  rw [colList_length _ _ _ h1 h2, In.nCols] at hlen
  unfold colList at h
  have l1 : (List.replicate i.nCm1 ((1, 1) : Nat × Nat)).length = i.nCm1 := by simp
  have l2 : ((List.replicate i.nCm1 ((1, 1) : Nat × Nat)) ++ (ds.flatMap fun d => [(2, d), (2, d)])).length = i.nCm1 + 2 * i.pu.length := by
    simp [List.length_flatMap, h1]; omega
  have l3 : ((List.replicate i.nCm1 ((1, 1) : Nat × Nat)) ++ (ds.flatMap fun d => [(2, d), (2, d)]) ++ List.replicate (i.pu ++ i.pe ++ i.ci).length (3, 3)).length
      = i.nCm1 + 2 * i.pu.length + (i.pu.length + i.pe.length + i.ci.length) := by
    rw [List.length_append, l2]; simp; omega
  have l4 : ((List.replicate i.nCm1 ((1, 1) : Nat × Nat)) ++ (ds.flatMap fun d => [(2, d), (2, d)]) ++ List.replicate (i.pu ++ i.pe ++ i.ci).length (3, 3)
      ++ es.map fun d => (3, d)).length = i.nCm1 + 2 * i.pu.length + (i.pu.length + i.pe.length + i.ci.length) + i.imList.length := by
    rw [List.length_append, l3]; simp [h2]
  unfold In.tree
  by_cases c1 : k < i.nCm1
  · rw [List.getElem?_append_left (by omega), List.getElem?_append_left (by omega), List.getElem?_append_left (by omega),
      List.getElem?_append_left (by omega), List.getElem?_replicate, if_pos c1] at h
    simp only [Option.some.injEq, Prod.mk.injEq] at h
    rw [if_pos c1]
    exact ⟨h.1.symm, .inl ⟨c1, h.2.symm⟩⟩
  rw [if_neg c1]
  by_cases c2 : k < i.nCm1 + 2 * i.pu.length
  · rw [List.getElem?_append_left (by omega), List.getElem?_append_left (by omega), List.getElem?_append_left (by omega),
      List.getElem?_append_right (by omega), l1, pairs_get] at h
    obtain ⟨d, hd, he⟩ := Option.map_eq_some_iff.mp h
    simp only [Prod.mk.injEq] at he
    obtain ⟨rfl, rfl⟩ := he
    rw [if_pos c2]
    exact ⟨rfl, .inr (.inl ⟨(k - i.nCm1) / 2, by omega, by omega, hd⟩)⟩
  rw [if_neg c2]
  by_cases c3 : k < i.nCm1 + 2 * i.pu.length + (i.pu.length + i.pe.length + i.ci.length)
  · rw [List.getElem?_append_left (by omega), List.getElem?_append_left (by omega), List.getElem?_append_right (by omega), l2,
      List.getElem?_replicate, if_pos (by simp; omega)] at h
    simp only [Option.some.injEq, Prod.mk.injEq] at h
    rw [if_pos (by omega)]
    exact ⟨h.1.symm, .inr (.inr (.inl ⟨by omega, c3, h.2.symm⟩))⟩
  by_cases c4 : k < i.nCm1 + 2 * i.pu.length + (i.pu.length + i.pe.length + i.ci.length) + i.imList.length
  · rw [List.getElem?_append_left (by omega), List.getElem?_append_right (by omega), l3, List.getElem?_map] at h
    obtain ⟨d, hd, he⟩ := Option.map_eq_some_iff.mp h
    simp only [Prod.mk.injEq] at he
    obtain ⟨rfl, rfl⟩ := he
    rw [if_pos c4]
    exact ⟨rfl, .inr (.inr (.inr (.inl ⟨_, by omega, by omega, hd⟩)))⟩
  · rw [List.getElem?_append_right (by omega), l4, List.getElem?_replicate, if_pos (by omega)] at h
    simp only [Option.some.injEq, Prod.mk.injEq] at h
    rw [if_neg c4]
    exact ⟨h.1.symm, .inr (.inr (.inr (.inr ⟨by omega, h.2.symm⟩)))⟩

theorem start_eq {cols : List (Nat × Nat)} {s : Sec} {t : Nat} {pols : List PolType} (h : ∀ e, cnt s e pols = cntC t e cols) (e : Nat) :
    start s pols e = startC t cols e := by
  unfold start startC
  split <;> simp [h]

theorem treeOf_sec2 {t : Nat} (h1 : 1 ≤ t) (h2 : t ≤ 4) : treeOf (sec2 t) = some t := by interval_cases t <;> rfl

theorem roundOf_secN {t : Nat} (h1 : 1 ≤ t) (h2 : t ≤ 4) : roundOf (secN t) = some t := by interval_cases t <;> rfl

/-- the dimensions in the list are at most 3 -/
theorem full_dims_le {ds es : List Nat} {qDim : Nat} {s : St} (hc : CmD i ds s) (h1 : ds.length = i.pu.length)
    (hes : ∀ (n k d : Nat), i.imList[n]? = some k → es[n]? = some d → ImDim i fuel ds k d)
    (h2 : es.length = i.imList.length) (hq : ImDim i fuel ds i.cExp qDim) {k t e : Nat} (h : (colList i ds es qDim)[k]? = some (t, e)) : e ≤ 3 := by
  obtain ⟨-, h⟩ := colList_get h1 h2 h
  rcases h with ⟨-, rfl⟩ | ⟨n, hn, -, hd⟩ | ⟨-, -, rfl⟩ | ⟨n, hn, -, hd⟩ | ⟨-, rfl⟩
  · omega
  · exact hc.le e (List.mem_of_getElem? (hc.pair n e hd).1)
  · omega
  · obtain ⟨s', c', h'⟩ := hes n _ e (List.getElem?_eq_getElem hn) hd
    exact c'.dimOf_le h'
  · obtain ⟨s', c', h'⟩ := hq
    exact c'.dimOf_le h'

/-- `map` and its ghost columns -/
theorem map_cols_raw (h : map i fuel = some o) (hn2 : i.nCm2 = 2 * i.pu.length) :
    ∃ (r : St × Nat) (ds es : List Nat), columns i fuel = some r ∧
      o = ⟨{ r.1 with pols := r.1.pols ++ [⟨.q_2ns, 0, r.2⟩, ⟨.f_2ns, 0, 3⟩] }, r.2, r.1.pols.length, r.1.pols.length + 1, mapSection (r.1.pols ++ [⟨.q_2ns, 0, r.2⟩, ⟨.f_2ns, 0, 3⟩])⟩ ∧
      Full i (fun id d => (d = 3 ∧ i.FracId id) ∨ PairTmp i.pu ds id d) (colList i ds es r.2) ds r.1 ∧ ds.length = i.pu.length ∧ es.length = i.imList.length ∧ Cols i (colList i ds es o.qDim) o ∧
      (∀ (n : Nat) (c : PCtx) (d : Nat), i.pu[n]? = some c → ds[n]? = some d → PairDim i fuel (ds.take n) c d) ∧
      (∀ (n k d : Nat), i.imList[n]? = some k → es[n]? = some d → ImDim i fuel ds k d) ∧ ImDim i fuel ds i.cExp o.qDim := by
  unfold map at h
  obtain ⟨r, hr, h⟩ := Option.map_eq_some_iff.mp h
  obtain ⟨ds, es, a1, a2, f, a3, a4, a5, -, -⟩ := columns_tmps hr hn2
  subst h
  refine ⟨r, ds, es, hr, rfl, f, a1, a2, ?_, a3, a4, a5⟩
  dsimp only
  obtain ⟨cols, hcols⟩ : ∃ cols, cols = colList i ds es r.2 := ⟨_, rfl⟩
  have hle : ∀ (k t e : Nat), cols[k]? = some (t, e) → e ≤ 3 := fun k t e hk => by
    rw [hcols] at hk
    exact full_dims_le f.cmd a1 a4 a2 a5 hk
  have hlen : cols.length = i.nCols := by rw [hcols]; exact colList_length _ _ _ a1 a2
  have htree : ∀ (k t e : Nat), cols[k]? = some (t, e) → t = i.tree k := fun k t e hk => by
    rw [hcols] at hk
    exact (colList_get a1 a2 hk).1
  have hI := f.inv
  rw [← hcols] at hI ⊢
  have ht : ∀ t e, 1 ≤ t → t ≤ 4 → cnt (secN t) e (r.1.pols ++ [⟨.q_2ns, 0, r.2⟩, ⟨.f_2ns, 0, 3⟩]) = cntC t e cols ∧
      cnt (sec2 t) e (r.1.pols ++ [⟨.q_2ns, 0, r.2⟩, ⟨.f_2ns, 0, 3⟩]) = cntC t e cols := by
    intro t e h1 h2
    obtain ⟨g1, g2⟩ := hI.tot t e h1 h2
    have hz : ∀ s : Sec, s ≠ .q_2ns → s ≠ .f_2ns → cnt s e [(⟨.q_2ns, 0, r.2⟩ : PolType), ⟨.f_2ns, 0, 3⟩] = 0 := by
      intro s hq hf
      rw [show [(⟨.q_2ns, 0, r.2⟩ : PolType), ⟨.f_2ns, 0, 3⟩] = [⟨.q_2ns, 0, r.2⟩] ++ [⟨.f_2ns, 0, 3⟩] from rfl, cnt_append, cnt_one, cnt_one,
        if_neg fun hh => hq hh.1.symm, if_neg fun hh => hf hh.1.symm]
    rw [cnt_append, cnt_append, g1, g2, hz _ (secN_mem h1 h2).2.1 (secN_mem h1 h2).2.2.1, hz _ (sec2_mem h1 h2).2.1 (sec2_mem h1 h2).2.2.1]
    exact ⟨rfl, rfl⟩
  refine ⟨hlen, fun k t e hk => ⟨htree k t e hk, hle k t e hk⟩, ?_, ?_, ?_⟩
  · intro k t e hk
    obtain ⟨h1, h2⟩ := hI.trees _ (List.mem_of_getElem? hk)
    obtain ⟨a, b, g1, g2, g3, g4, g5, g6⟩ := hI.col k t e hk
    constructor
    · unfold Out.pos
      dsimp only
      rw [g2, Option.bind_some, mapSection_get _ b _ (get_append g4) (sec2_mem h1 h2).1, Option.bind_some]
      have e1 : (posAt (r.1.pols ++ [⟨.q_2ns, 0, r.2⟩, ⟨.f_2ns, 0, 3⟩]) b ⟨sec2 t, 0, e⟩) = ⟨sec2 t, posC cols k t e, e⟩ := by
        unfold posAt posC
        dsimp only
        rw [take_append (le_of_lt (lt_of_get g4)), g6, start_eq (t := t) (cols := cols) fun e => (ht t e h1 h2).2]
        split_ifs <;> rfl
      rw [e1]
      dsimp only
      rw [treeOf_sec2 h1 h2]
      rfl
    · unfold Out.base
      dsimp only
      rw [g1, Option.bind_some, mapSection_get _ a _ (get_append g3) (secN_mem h1 h2).1, Option.bind_some]
      have e1 : (posAt (r.1.pols ++ [⟨.q_2ns, 0, r.2⟩, ⟨.f_2ns, 0, 3⟩]) a ⟨secN t, 0, e⟩) = ⟨secN t, posC cols k t e, e⟩ := by
        unfold posAt posC
        dsimp only
        rw [take_append (le_of_lt (lt_of_get g3)), g5, start_eq (t := t) (cols := cols) fun e => (ht t e h1 h2).1]
        split_ifs <;> rfl
      rw [e1]
      dsimp only
      rw [roundOf_secN h1 h2]
      rfl
  · intro k hk
    unfold Out.pos Out.base
    dsimp only
    rw [List.getElem?_eq_none (by rw [hI.len2]; exact hk), List.getElem?_eq_none (by rw [hI.lenN]; exact hk)]
    exact ⟨rfl, rfl⟩
  · intro t h1 h2
    unfold Out.widthN Out.width2 widthC
    dsimp only
    rw [mapSection_width _ _ (secN_mem h1 h2).1, mapSection_width _ _ (sec2_mem h1 h2).1]
    simp only [ht t _ h1 h2, and_self]

/-- `map` and its ghost columns -/
theorem map_cols (h : map i fuel = some o) (hn2 : i.nCm2 = 2 * i.pu.length) :
    ∃ ds es : List Nat, ds.length = i.pu.length ∧ es.length = i.imList.length ∧ Cols i (colList i ds es o.qDim) o ∧
      (∀ (n : Nat) (c : PCtx) (d : Nat), i.pu[n]? = some c → ds[n]? = some d → PairDim i fuel (ds.take n) c d) ∧
      (∀ (n k d : Nat), i.imList[n]? = some k → es[n]? = some d → ImDim i fuel ds k d) ∧ ImDim i fuel ds i.cExp o.qDim := by
  obtain ⟨r, ds, es, -, -, -, h⟩ := map_cols_raw h hn2
  exact ⟨ds, es, h⟩

/-- **C92** every committed column has a place in the tree of its round, the same one on the trace domain and on the extended domain, and
inside the row; there are no other columns -/
theorem map_pos (h : map i fuel = some o) (hn2 : i.nCm2 = 2 * i.pu.length) :
    (∀ k < i.nCols, ∃ c, o.pos k = some c ∧ o.base k = some c ∧ c.tree = i.tree k ∧ c.dim ≤ 3 ∧ c.pos + c.dim ≤ o.width2 c.tree) ∧
    (∀ k, i.nCols ≤ k → o.pos k = none ∧ o.base k = none) ∧
    ∀ t, 1 ≤ t → t ≤ 4 → o.widthN t = o.width2 t := by
  obtain ⟨ds, es, a1, a2, C, -⟩ := map_cols h hn2
  refine ⟨fun k hk => ?_, fun k hk => C.none k (by rw [C.len]; exact hk), fun t h1 h2 => by rw [(C.width t h1 h2).1, (C.width t h1 h2).2]⟩
  rw [← C.len] at hk
  obtain ⟨⟨t, e⟩, hc⟩ : ∃ c, (colList i ds es o.qDim)[k]? = some c := ⟨_, List.getElem?_eq_getElem hk⟩
  obtain ⟨p1, p2⟩ := C.pos k t e hc
  obtain ⟨ht, he⟩ := C.trees k t e hc
  refine ⟨_, p1, p2, ht, he, ?_⟩
  have htr : 1 ≤ t ∧ t ≤ 4 := by
    rw [ht]
    unfold In.tree
    split_ifs <;> omega
  rw [(C.width t htr.1 htr.2).2]
  exact posC_fit hc he

/-- **C92** two committed columns of one tree do not overlap -/
theorem map_disjoint (h : map i fuel = some o) (hn2 : i.nCm2 = 2 * i.pu.length) {k k' : Nat} (hkk : k ≠ k') {c c' : ColPos}
    (hc : o.pos k = some c) (hc' : o.pos k' = some c') (ht : c.tree = c'.tree) (x : Nat) :
    ¬ ((c.pos ≤ x ∧ x < c.pos + c.dim) ∧ (c'.pos ≤ x ∧ x < c'.pos + c'.dim)) := by
  obtain ⟨ds, es, a1, a2, C, -⟩ := map_cols h hn2
  have key : ∀ (k k' : Nat) (c c' : ColPos), k < k' → o.pos k = some c → o.pos k' = some c' → c.tree = c'.tree → ∀ x,
      ¬ ((c.pos ≤ x ∧ x < c.pos + c.dim) ∧ (c'.pos ≤ x ∧ x < c'.pos + c'.dim)) := by
    intro k k' c c' hlt hc hc' ht x
    have get : ∀ (k : Nat) (c : ColPos), o.pos k = some c → ∃ t e, (colList i ds es o.qDim)[k]? = some (t, e) ∧ e ≤ 3 ∧
        c = ⟨t, posC (colList i ds es o.qDim) k t e, e⟩ := by
      intro k c hc
      by_cases hk : k < (colList i ds es o.qDim).length
      · obtain ⟨⟨t, e⟩, hce⟩ : ∃ c, (colList i ds es o.qDim)[k]? = some c := ⟨_, List.getElem?_eq_getElem hk⟩
        rw [(C.pos k t e hce).1] at hc
        exact ⟨t, e, hce, (C.trees k t e hce).2, (Option.some.inj hc).symm⟩
      · rw [(C.none k (by omega)).1] at hc
        cases hc
    obtain ⟨t, e, g1, g2, rfl⟩ := get k c hc
    obtain ⟨t', e', g1', g2', rfl⟩ := get k' c' hc'
    obtain rfl : t = t' := ht
    have := posC_disj hlt g1 g1' g2 g2'
    dsimp only
    omega
  rcases Nat.lt_or_gt_of_ne hkk with hlt | hlt
  · exact key k k' c c' hlt hc hc' ht x
  · intro hx
    exact key k' k c' c hlt hc' hc ht.symm x hx.symm

end Verif.Map
