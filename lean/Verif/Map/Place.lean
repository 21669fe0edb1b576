import Verif.Map.Rows
import Verif.Map.Circuit

/-!
# The columns that `map` assigns satisfy what the programs need

`Rows.rows_spec` (C97) has the placement of the columns as a hypothesis.  Here the layout is the one `StarkInfo::map` computes.
-/
namespace Verif.Map
open Verif.Codegen
open Verif.Codegen.Spec (Store readN exec Val ExpVal)
open Verif.Interp (Dom Sec Info PolType algF3)
open Verif.Interp.Spec (Col rowOf meaning nodeCol readCol readBase cell polCol)
open Verif.Ext3 (F3G K WF val ofF coord)
open Verif.Stark (fieldOps ColPos)
open Verif.Grand (PCtx)
open Verif.StarkInfo
open Verif.GL (F)

variable {E : Type} {i : In E} {fuel : Nat} {o : Out}

/-- `im_exp2cm`, starkinfo_cp_prover.rs L73-84: the intermediate polynomials follow the columns of the circuit, in the order of `im_exps_list` -/
def In.im2cm (i : In E) (id : Nat) : Option Nat := if id ∈ i.imList then some (i.zBase + i.nZ + i.imList.idxOf id) else none

/-- The layout of the trace domain: what `map` computed, and where `fix_prover_code` (`dom = "n"`) sends the expressions. -/
def layN (i : In E) (o : Out) (nConst N : Nat) (lit : K → F3G) : Lay where
  s := o.info nConst
  dom := .n
  N := N
  step := 1
  tgt := tgtOf i.imList i.im2cm o.st.tmpexps .n
  em := fun _ _ => 0
  lit := lit

/-! ### `var_pol_map` before `map_section` -/

/-- the columns before `map_section` -/
structure Raw (i : In E) (o : Out) (pols : List PolType) : Prop where
  lay : o.lay = mapSection pols
  cm : ∀ k c, o.base k = some c → ∃ a, o.st.cmN[k]? = some a ∧ pols[a]? = some ⟨secN c.tree, 0, c.dim⟩ ∧ 1 ≤ c.tree ∧ c.tree ≤ 4 ∧ c.dim ≤ 3
  cmLen : ∀ k a : Nat, o.st.cmN[k]? = some a → ∃ c, o.base k = some c
  cmInj : ∀ k k' a : Nat, o.st.cmN[k]? = some a → o.st.cmN[k']? = some a → k = k'
  tmp : ∀ id j, o.st.tmpexps.lookup id = some j → i.imExps id = false ∧ ∃ a d, o.st.tmpexpN[j]? = some a ∧ o.st.exp2pol.lookup id = some a ∧
    pols[a]? = some ⟨.tmpexp_n, 0, d⟩ ∧ d ≤ 3 ∧
    (d = 3 ∧ i.FracId id ∨ ∃ (n : Nat) (c : PCtx), i.pu[n]? = some c ∧ (id = c.fExp ∨ id = c.tExp) ∧ o.dim (i.nCm1 + 2 * n) = some d)
  tmpInj : ∀ id id' j j' a : Nat, o.st.tmpexps.lookup id = some j → o.st.tmpexps.lookup id' = some j' → o.st.tmpexpN[j]? = some a →
    o.st.tmpexpN[j']? = some a → id = id'

theorem map_raw (h : map i fuel = some o) (hn2 : i.nCm2 = 2 * i.pu.length) (him : ∀ k, i.imExps k = true ↔ k ∈ i.imList) (hnd : i.imList.Nodup) :
    ∃ pols, Raw i o pols := by
  obtain ⟨r, ds, es, hr, ho, f, a1, a2, hC, a3, a4, a5⟩ := map_cols_raw h hn2
  obtain ⟨hE, -⟩ := columns_exp2pol hr hn2 (fun k hk => (him k).mpr hk) hnd
  obtain ⟨pols, hpols⟩ : ∃ pols, pols = r.1.pols ++ [(⟨.q_2ns, 0, r.2⟩ : PolType), ⟨.f_2ns, 0, 3⟩] := ⟨_, rfl⟩
  have hst : o.st.cmN = r.1.cmN ∧ o.st.tmpexpN = r.1.tmpexpN ∧ o.st.tmpexps = r.1.tmpexps ∧ o.lay = mapSection pols ∧ o.st.exp2pol = r.1.exp2pol ∧
      o.qDim = r.2 := by
    rw [ho, hpols]; exact ⟨rfl, rfl, rfl, rfl, rfl, rfl⟩
  obtain ⟨s1, s2, s3, s4, s5, s6⟩ := hst
  rw [s6] at hC
  obtain ⟨cols, hcols⟩ : ∃ cols, cols = colList i ds es r.2 := ⟨_, rfl⟩
  have hdims : ∀ (n d : Nat), ds[n]? = some d → o.dim (i.nCm1 + 2 * n) = some d := fun n d hd => by
    rw [cols_dim hC]
    exact ((colList_at a1 a2).2.1 n d hd).1
  have hI := f.inv
  rw [← hcols] at hI hC
  have hget : ∀ {a : Nat} {x : PolType}, r.1.pols[a]? = some x → pols[a]? = some x := fun h => by rw [hpols]; exact get_append h
  have hcol : ∀ k a : Nat, r.1.cmN[k]? = some a → ∃ t e, cols[k]? = some (t, e) ∧ r.1.pols[a]? = some ⟨secN t, 0, e⟩ ∧
      cnt (secN t) e (r.1.pols.take a) = cntC t e (cols.take k) := by
    intro k a hk
    have hlt := lt_of_get hk
    rw [hI.lenN] at hlt
    obtain ⟨⟨t, e⟩, hte⟩ : ∃ x, cols[k]? = some x := ⟨_, List.getElem?_eq_getElem hlt⟩
    obtain ⟨a', b, g1, -, g3, -, g5, -⟩ := hI.col k t e hte
    rw [hk] at g1
    obtain rfl := Option.some.inj g1
    exact ⟨t, e, hte, g3, g5⟩
  refine ⟨pols, s4, ?_, ?_, ?_, ?_, ?_⟩
  · intro k c hc
    have hlt : k < cols.length := by
      by_contra hn
      rw [(hC.none k (by omega)).2] at hc
      cases hc
    obtain ⟨⟨t, e⟩, hte⟩ : ∃ x, cols[k]? = some x := ⟨_, List.getElem?_eq_getElem hlt⟩
    obtain ⟨a, b, g1, -, g3, -⟩ := hI.col k t e hte
    obtain ⟨h1, h2⟩ := hI.trees _ (List.mem_of_getElem? hte)
    rw [(hC.pos k t e hte).2] at hc
    obtain rfl := Option.some.inj hc
    rw [s1]
    exact ⟨a, g1, hget g3, h1, h2, (hC.trees k t e hte).2⟩
  · intro k a hk
    rw [s1] at hk
    obtain ⟨t, e, hte, -⟩ := hcol k a hk
    exact ⟨_, (hC.pos k t e hte).2⟩
  · intro k k' a hk hk'
    rw [s1] at hk hk'
    obtain ⟨t, e, g1, g2, g3⟩ := hcol k a hk
    obtain ⟨t', e', g1', g2', g3'⟩ := hcol k' a hk'
    obtain ⟨h1, h2⟩ := hI.trees _ (List.mem_of_getElem? g1)
    obtain ⟨h3, h4⟩ := hI.trees _ (List.mem_of_getElem? g1')
    rw [g2] at g2'
    have g4 := Option.some.inj g2'
    have et : t = t' := secN_inj h1 h2 h3 h4 (congrArg PolType.section_ g4)
    have ee : e = e' := congrArg PolType.dim g4
    subst et ee
    rw [g3] at g3'
    rcases Nat.lt_trichotomy k k' with hlt | he | hlt
    · have := cntC_take_lt hlt g1
      omega
    · exact he
    · have := cntC_take_lt hlt g1'
      omega
  · intro id j hj
    rw [s3] at hj
    obtain ⟨g0, a, g1, g2⟩ := hE id j hj
    obtain ⟨d, g3⟩ := hI.tmpPol j a g1
    have g4 := f.tmps.dims id j a _ hj g1 g3
    rw [s2, s5]
    have hok : d = 3 ∧ i.FracId id ∨ ∃ (n : Nat) (c : PCtx), i.pu[n]? = some c ∧ (id = c.fExp ∨ id = c.tExp) ∧ o.dim (i.nCm1 + 2 * n) = some d := by
      rcases g4 with g4 | ⟨n, c, g4, g5, g6⟩
      · exact .inl g4
      · exact .inr ⟨n, c, g4, g6, hdims n d g5⟩
    refine ⟨g0, a, d, g1, g2, hget g3, ?_, hok⟩
    rcases g4 with ⟨rfl, -⟩ | ⟨n, c, g4, g5, g6⟩
    · exact le_refl 3
    · obtain ⟨s, df, dt, hc, h1, h2, rfl⟩ := a3 n c d g4 g5
      exact Nat.max_le.mpr ⟨hc.dimOf_le h1, hc.dimOf_le h2⟩
  · intro id id' j j' a hj hj' ha ha'
    rw [s3] at hj hj'
    rw [s2] at ha ha'
    have : j = j' := by
      rcases Nat.lt_trichotomy j j' with hlt | he | hlt
      · have := hI.tmpLt j j' a a hlt ha ha'
        omega
      · exact he
      · have := hI.tmpLt j' j a a hlt ha' ha
        omega
    subst this
    exact hI.tmpInj id id' j hj hj'

/-! ### The columns -/

/-- the column of a committed polynomial -/
theorem Raw.nodeCm {pols : List PolType} (h : Raw i o pols) (nConst k : Nat) :
    nodeCol (o.info nConst) .n ({ ty := .cm, id := k } : Interp.Node F3G) = (o.base k).map fun c => ⟨secN c.tree, c.pos, c.dim, o.widthN c.tree⟩ := by
  show (o.st.cmN[k]?.bind (polCol (o.info nConst))) = _
  cases hk : o.st.cmN[k]? with
  | none =>
    unfold Out.base
    rw [hk]
    rfl
  | some a =>
    obtain ⟨c, hc⟩ := h.cmLen k a hk
    obtain ⟨a', g1, g2, g3, g4, g5⟩ := h.cm k c hc
    rw [hk] at g1
    obtain rfl := Option.some.inj g1
    rw [hc]
    obtain ⟨y, e1, e2, e3, -⟩ := mapSection_dims g2 (secN_mem g3 g4).1 g5
    rw [← h.lay] at e1
    unfold Out.base at hc
    rw [hk, Option.bind_some, e1, Option.bind_some, e2] at hc
    rw [show (⟨secN c.tree, 0, c.dim⟩ : PolType).section_ = secN c.tree from rfl, roundOf_secN g3 g4] at hc
    have hc' := Option.some.inj hc
    have e4 : c.pos = y.sectionPos := by rw [← hc']
    show polCol (o.info nConst) a = some _
    unfold polCol
    rw [show (o.info nConst).varPolMap = o.lay.pols from rfl, e1, Option.bind_some, e2, e3, ← e4]
    rw [if_neg (fun hh => by
      have hh' : secN c.tree = .tmp := hh
      have := (secN_mem g3 g4).1
      rw [hh'] at this
      revert this
      decide)]
    rfl

/-- the column of an expression in the temporary section -/
theorem Raw.nodeTmp {pols : List PolType} (h : Raw i o pols) (nConst : Nat) {id j : Nat} (hj : o.st.tmpexps.lookup id = some j) :
    ∃ a d y, o.st.tmpexpN[j]? = some a ∧ pols[a]? = some ⟨.tmpexp_n, 0, d⟩ ∧ d ≤ 3 ∧ o.lay.pols[a]? = some y ∧ o.expPol id = some y ∧ y.section_ = .tmpexp_n ∧ y.dim = d ∧
      y.sectionPos + d ≤ o.lay.n .tmpexp_n ∧
      (d = 3 ∧ i.FracId id ∨ ∃ (n : Nat) (c : PCtx), i.pu[n]? = some c ∧ (id = c.fExp ∨ id = c.tExp) ∧ o.dim (i.nCm1 + 2 * n) = some d) ∧
      nodeCol (o.info nConst) .n ({ ty := .tmpExp, id := j } : Interp.Node F3G) = some ⟨.tmpexp_n, y.sectionPos, d, o.lay.n .tmpexp_n⟩ := by
  obtain ⟨-, a, d, g1, g2, g3, g4, g5⟩ := h.tmp id j hj
  obtain ⟨y, e1, e2, e3, e4⟩ := mapSection_dims g3 (show Sec.tmpexp_n ∈ names by decide) g4
  have e5 := e4 fun _ => rfl
  rw [← h.lay] at e1 e5
  dsimp only at e2 e3
  refine ⟨a, d, y, g1, g3, g4, e1, ?_, e2, e3, ?_, g5, ?_⟩
  · unfold Out.expPol
    rw [g2, Option.bind_some, e1]
  · rw [e2, e3] at e5; exact e5
  · show (o.st.tmpexpN[j]?.bind (polCol (o.info nConst))) = _
    rw [g1, Option.bind_some]
    unfold polCol
    rw [show (o.info nConst).varPolMap = o.lay.pols from rfl, e1, Option.bind_some, e2, e3, if_neg (by decide)]
    rfl

/-- The hypotheses on the input of `map`: the counts agree, the intermediate polynomials are listed once, the sides of a lookup are no side of another lookup and no numerator or denominator, they refer to earlier columns, the
intermediate polynomials and the constraint have the dimension that `map` computes for them (`Safe`, C94). -/
structure MapOk (i : In E) (fuel : Nat) (o : Out) : Prop where
  map : map i fuel = some o
  nCm2 : i.nCm2 = 2 * i.pu.length
  ims : ∀ k, i.imExps k = true ↔ k ∈ i.imList
  nodup : i.imList.Nodup
  sep : ∀ (n : Nat) (c : PCtx) (id : Nat), i.pu[n]? = some c → (id = c.fExp ∨ id = c.tExp) → ¬ i.FracId id ∧
    ∀ (n' : Nat) (c' : PCtx), i.pu[n']? = some c' → (id = c'.fExp ∨ id = c'.tExp) → n' = n
  pu : ∀ (n : Nat) (c : PCtx), i.pu[n]? = some c → Below i (i.nCm1 + 2 * n) c.fExp ∧ Below i (i.nCm1 + 2 * n) c.tExp
  safe : ∀ k ∈ i.imList, Safe i k
  safeC : Safe i i.cExp

theorem MapOk.raw (h : MapOk i fuel o) : ∃ pols, Raw i o pols := map_raw h.map h.nCm2 h.ims h.nodup

/-- a column of the committed polynomials -/
theorem MapOk.base (h : MapOk i fuel o) {k : Nat} {c : ColPos} (hc : o.base k = some c) : k < i.nCols ∧ o.pos k = some c ∧ c.tree = i.tree k ∧
    (c.dim = 1 ∨ c.dim = 3) ∧ 1 ≤ c.tree ∧ c.tree ≤ 4 ∧ c.pos + c.dim ≤ o.widthN c.tree := by
  obtain ⟨g1, g2, g3⟩ := map_pos h.map h.nCm2
  have hlt : k < i.nCols := by
    by_contra hn
    rw [(g2 k (by omega)).2] at hc
    cases hc
  obtain ⟨c', e1, e2, e3, e4, e5⟩ := g1 k hlt
  rw [hc] at e2
  obtain rfl := Option.some.inj e2
  obtain ⟨pols, hR⟩ := h.raw
  obtain ⟨a, -, -, h1, h2, -⟩ := hR.cm k c hc
  refine ⟨hlt, e1, e3, map_dims_13 h.map h.nCm2 h.pu h.safe h.safeC (k := k) ?_, h1, h2, by rw [g3 _ h1 h2]; exact e5⟩
  unfold Out.dim
  rw [e1]
  rfl

theorem MapOk.base_of_lt (h : MapOk i fuel o) {k : Nat} (hk : k < i.nCols) : ∃ c, o.base k = some c ∧ o.pos k = some c ∧ c.tree = i.tree k := by
  obtain ⟨c, e1, e2, e3, -⟩ := (map_pos h.map h.nCm2).1 k hk
  exact ⟨c, e2, e1, e3⟩

theorem tree_im {k : Nat} (h1 : i.zBase + i.nZ ≤ k) (h2 : k < i.zBase + i.nZ + i.imList.length) : i.tree k = 3 := by
  unfold In.tree
  unfold In.zBase In.nZ at h1 h2
  rw [if_neg (by omega), if_neg (by omega), if_pos (by omega)]

variable {nConst N : Nat} {lit : K → F3G}

/-- where an expression is stored -/
theorem layN_col {ty : NTy} {id : Nat} {col : Col} (h : (layN i o nConst N lit).col ty id = some col) : ty = .exp ∧
    ((id ∈ i.imList ∧ nodeCol (o.info nConst) .n ({ ty := .cm, id := i.zBase + i.nZ + i.imList.idxOf id } : Interp.Node F3G) = some col) ∨
     (id ∉ i.imList ∧ ∃ j, o.st.tmpexps.lookup id = some j ∧ nodeCol (o.info nConst) .n ({ ty := .tmpExp, id := j } : Interp.Node F3G) = some col)) := by
  cases ty <;> first | cases h | skip
  refine ⟨rfl, ?_⟩
  have h' : ((tgtOf i.imList i.im2cm o.st.tmpexps .n id).bind fun tk => nodeCol (o.info nConst) .n ({ ty := tk.1, id := tk.2 } : Interp.Node F3G)) = some col := h
  unfold tgtOf at h'
  by_cases hm : id ∈ i.imList
  · rw [if_pos hm] at h'
    unfold In.im2cm at h'
    rw [if_pos hm] at h'
    exact .inl ⟨hm, h'⟩
  · rw [if_neg hm, if_pos rfl] at h'
    cases hj : o.st.tmpexps.lookup id with
    | none => rw [hj] at h'; cases h'
    | some j =>
      rw [hj] at h'
      exact .inr ⟨hm, j, rfl, h'⟩

/-- what is known about the column of an expression: the index `a` of its polynomial, before and after `map_section` -/
theorem MapOk.col (h : MapOk i fuel o) {pols : List PolType} (hR : Raw i o pols) {ty : NTy} {id : Nat} {col : Col} (hc : (layN i o nConst N lit).col ty id = some col) :
    (col.dim = 1 ∨ col.dim = 3) ∧ col.pos + col.dim ≤ col.width ∧ col.width = o.lay.n col.sec ∧
    ∃ a x y, pols[a]? = some x ∧ o.lay.pols[a]? = some y ∧ x.section_ ∈ names ∧ x.dim ≤ 3 ∧ y.section_ = col.sec ∧ y.sectionPos = col.pos ∧ y.dim = col.dim ∧
      ((id ∈ i.imList ∧ col.sec = .cm3_n ∧ o.st.cmN[i.zBase + i.nZ + i.imList.idxOf id]? = some a ∧
          ∃ c, o.base (i.zBase + i.nZ + i.imList.idxOf id) = some c ∧ c.pos = col.pos ∧ c.dim = col.dim) ∨
       (id ∉ i.imList ∧ col.sec = .tmpexp_n ∧ o.expPol id = some y ∧ (∃ j, o.st.tmpexps.lookup id = some j ∧ o.st.tmpexpN[j]? = some a) ∧
          (col.dim = 3 ∧ i.FracId id ∨ ∃ (n : Nat) (c : PCtx), i.pu[n]? = some c ∧ (id = c.fExp ∨ id = c.tExp) ∧ o.dim (i.nCm1 + 2 * n) = some col.dim))) := by
  obtain ⟨-, ⟨hm, hn⟩ | ⟨hm, j, hj, hn⟩⟩ := layN_col hc
  · rw [hR.nodeCm] at hn
    obtain ⟨c, hb, rfl⟩ := Option.map_eq_some_iff.mp hn
    obtain ⟨g1, g2, g3, g4, g5, g6, g7⟩ := h.base hb
    obtain ⟨a, e1, e2, -, -, e5⟩ := hR.cm _ c hb
    obtain ⟨y, f1, f2, f3, -⟩ := mapSection_dims e2 (secN_mem g5 g6).1 e5
    have hi := List.idxOf_lt_length_of_mem hm
    have ht : c.tree = 3 := by rw [g3]; exact tree_im (by omega) (by omega)
    have f1' := f1
    rw [← hR.lay] at f1
    have hy : y.sectionPos = c.pos := by
      have hb' := hb
      unfold Out.base at hb'
      rw [e1, Option.bind_some, f1, Option.bind_some, f2] at hb'
      rw [show (⟨secN c.tree, 0, c.dim⟩ : PolType).section_ = secN c.tree from rfl, roundOf_secN g5 g6] at hb'
      have := Option.some.inj hb'
      rw [← this]
    refine ⟨g4, g7, rfl, a, _, y, e2, f1, (secN_mem g5 g6).1, e5, f2, hy, f3, .inl ⟨hm, ?_, e1, c, hb, rfl, rfl⟩⟩
    rw [ht]
    rfl
  · obtain ⟨a, d, y, e1, e2, e3, e4, e5, e6, e7, e8, e9, e10⟩ := hR.nodeTmp nConst hj
    rw [hn] at e10
    obtain rfl := Option.some.inj e10
    refine ⟨?_, e8, rfl, a, _, y, e2, e4, (show Sec.tmpexp_n ∈ names by decide), e3, e6, rfl, e7, .inr ⟨hm, rfl, e5, ⟨j, hj, e1⟩, e9⟩⟩
    rcases e9 with ⟨rfl, -⟩ | ⟨n, c, g1, g2, g3⟩
    · exact .inr rfl
    · exact map_dims_13 h.map h.nCm2 h.pu h.safe h.safeC g3

/-- the columns of two expressions have no common cell -/
theorem MapOk.disj (h : MapOk i fuel o) {ty ty' : NTy} {id id' : Nat} {col col' : Col} (hc : (layN i o nConst N lit).col ty id = some col)
    (hc' : (layN i o nConst N lit).col ty' id' = some col') (hne : ¬(ty = ty' ∧ id = id')) :
    col.sec ≠ col'.sec ∨ (col.width = col'.width ∧ (col.pos + col.dim ≤ col'.pos ∨ col'.pos + col'.dim ≤ col.pos)) := by
  obtain ⟨pols, hR⟩ := h.raw
  have ht := (layN_col hc).1
  have ht' := (layN_col hc').1
  obtain ⟨d1, d2, d3, a, x, y, e1, e2, e3, e4, e5, e6, e7, e8⟩ := h.col hR hc
  obtain ⟨d1', d2', d3', a', x', y', e1', e2', e3', e4', e5', e6', e7', e8'⟩ := h.col hR hc'
  by_cases hs : col.sec = col'.sec
  · refine .inr ⟨by rw [d3, d3', hs], ?_⟩
    have hid : id ≠ id' := fun he => hne ⟨by rw [ht, ht'], he⟩
    have haa : a ≠ a' := by
      rintro rfl
      rcases e8 with ⟨m1, m2, m3, -⟩ | ⟨m1, m2, -, ⟨j, m3, m4⟩, -⟩ <;> rcases e8' with ⟨n1, n2, n3, -⟩ | ⟨n1, n2, -, ⟨j', n3, n4⟩, -⟩
      · have := hR.cmInj _ _ a m3 n3
        exact hid ((List.idxOf_inj m1).mp (by omega))
      · rw [m2, n2] at hs; cases hs
      · rw [m2, n2] at hs; cases hs
      · exact hid (hR.tmpInj id id' j j' a m3 n3 m4 n4)
    rw [hR.lay] at e2 e2'
    have hap := apart_of_ne haa e1 e1' e3 e3' e4 e4' e2 e2' (by rw [e5, e5', hs])
    rw [e6, e6', e7, e7'] at hap
    have h1 := hap col.pos
    have h2 := hap col'.pos
    clear e8 e8' hap
    omega
  · exact .inl hs

/-- **C98** The placement hypothesis of C97 holds for the layout that `map` computes, if the buffers have the sizes that `map` gives them. -/
theorem map_place (h : MapOk i fuel o) {T : Nat → Nat} {m : Sec → List F3G} (hlen : ∀ t ∈ [Sec.cm3_n, Sec.tmpexp_n], N * o.lay.n t ≤ (m t).length)
    (hT : ∀ id col, (layN i o nConst N lit).col .exp id = some col → T id = col.dim) :
    PlaceOk (layN i o nConst N lit) T m := by
  obtain ⟨pols, hR⟩ := h.raw
  have hcols : ∀ id ∈ i.imList, i.zBase + i.nZ + i.imList.idxOf id < i.nCols := by
    intro id hid
    have := List.idxOf_lt_length_of_mem hid
    unfold In.nCols In.zBase In.nZ
    omega
  refine ⟨?_, ?_, ?_, ?_, ?_, hT⟩
  · intro id t k ht
    have ht' : tgtOf i.imList i.im2cm o.st.tmpexps .n id = some (t, k) := ht
    have hcol : (layN i o nConst N lit).col .exp id = nodeCol (o.info nConst) .n ({ ty := t, id := k } : Interp.Node F3G) := by
      show ((tgtOf i.imList i.im2cm o.st.tmpexps .n id).bind fun tk => nodeCol (o.info nConst) .n ({ ty := tk.1, id := tk.2 } : Interp.Node F3G)) = _
      rw [ht']
      rfl
    rw [hcol]
    unfold tgtOf at ht'
    by_cases hm : id ∈ i.imList
    · rw [if_pos hm] at ht'
      unfold In.im2cm at ht'
      rw [if_pos hm] at ht'
      cases ht'
      refine ⟨.inl rfl, ?_⟩
      obtain ⟨c, hb, -⟩ := h.base_of_lt (hcols id hm)
      rw [hR.nodeCm, hb]
      exact ⟨_, rfl⟩
    · rw [if_neg hm, if_pos rfl] at ht'
      obtain ⟨j, hj, he⟩ := Option.map_eq_some_iff.mp ht'
      cases he
      obtain ⟨a, d, y, -, -, -, -, -, -, -, -, -, e⟩ := hR.nodeTmp nConst hj
      exact ⟨.inr rfl, _, e⟩
  · exact fun ty id col hc => (h.col hR hc).1
  · intro ty id col hc
    obtain ⟨-, -, -, a, x, y, -, -, -, -, -, -, -, h8⟩ := h.col hR hc
    rcases h8 with ⟨-, h8, -⟩ | ⟨-, h8, -⟩ <;> rw [h8] <;> decide
  · intro ty id col hc
    obtain ⟨-, h2, h3, a, x, y, -, -, -, -, -, -, -, h8⟩ := h.col hR hc
    refine ⟨h2, ?_⟩
    rw [h3]
    refine hlen _ ?_
    rcases h8 with ⟨-, h8, -⟩ | ⟨-, h8, -⟩ <;> rw [h8] <;> decide
  · exact fun ty id col ty' id' col' hc hc' hne => h.disj hc hc' hne

/-- **C98** What the programs read is apart from what they write: the expressions refer to columns of the circuit (not to the columns of the intermediate
polynomials) and to existing constants. -/
theorem map_read {i : In K} (h : MapOk i fuel o) {exps : List (Expr K)} {R : Bool → Nat → Prop}
    (hcm : ∀ p id e l k, R p id → exps[id]? = some e → HasLabel l e → l.op = .cm → l.id = some k → k < i.zBase + i.nZ)
    (hconst : ∀ p id e l k, R p id → exps[id]? = some e → HasLabel l e → l.op = .const_ → l.id = some k → k < nConst) :
    ReadOk (layN i o nConst N lit) exps R := by
  obtain ⟨pols, hR⟩ := h.raw
  refine ⟨?_, ?_, hconst⟩
  · intro ty id col hc
    obtain ⟨-, -, -, a, x, y, -, -, -, -, -, -, -, h8⟩ := h.col hR hc
    rcases h8 with ⟨-, h8, -⟩ | ⟨-, h8, -⟩ <;> rw [h8] <;> decide
  · intro p id e l k col hr he hl ho hk hcol
    have hcol' : nodeCol (o.info nConst) .n ({ ty := .cm, id := k } : Interp.Node F3G) = some col := hcol
    have hlt := hcm p id e l k hr he hl ho hk
    rw [hR.nodeCm] at hcol'
    obtain ⟨c, hb, rfl⟩ := Option.map_eq_some_iff.mp hcol'
    obtain ⟨g1, g2, g3, g4, g5, g6, g7⟩ := h.base hb
    refine ⟨g4, ?_, g7, ?_⟩
    · show ¬ extSec (secN c.tree)
      have := (secN_mem g5 g6).1
      rintro (hh | hh | hh) <;> (rw [hh] at this; revert this; decide)
    · intro ty id' col' hc'
      obtain ⟨d1', d2', d3', a', x', y', e1', e2', e3', e4', e5', e6', e7', e8'⟩ := h.col hR hc'
      rcases e8' with ⟨n1, n2, n3, c', n4, n5, n6⟩ | ⟨n1, n2, -, -⟩
      · by_cases hs : secN c.tree = .cm3_n
        · have ht : c.tree = 3 := secN_inj g5 g6 (by omega) (by omega) hs
          obtain ⟨f1, f2, f3, f4, f5, f6, f7⟩ := h.base n4
          have hi := List.idxOf_lt_length_of_mem n1
          have ht' : c'.tree = 3 := by rw [f3]; exact tree_im (by omega) (by omega)
          refine .inr ⟨?_, ?_⟩
          · show o.lay.n (secN c.tree) = _
            rw [hs, d3', n2]
          · show c.pos + c.dim ≤ col'.pos ∨ col'.pos + col'.dim ≤ c.pos
            rw [← n5, ← n6]
            have hdj := map_disjoint h.map h.nCm2 (k := k) (k' := i.zBase + i.nZ + i.imList.idxOf id') (by omega) g2 f2 (by rw [ht, ht'])
            have h1 := hdj c.pos
            have h2 := hdj c'.pos
            clear hdj
            omega
        · exact .inl (by rw [n2]; exact hs)
      · refine .inl ?_
        rw [n2]
        exact (secN_mem g5 g6).2.2.2

/-! ### Dimensions -/

open Classical in
/-- the dimension of the value of an expression as the programs store it: that of its column, or 1 if `get_exp_dim` says so, or 3 -/
noncomputable def tagN (i : In K) (o : Out) (nConst N : Nat) (lit : K → F3G) (id : Nat) : Nat :=
  match (layN i o nConst N lit).col .exp id with
  | some col => col.dim
  | none => if ∃ f, o.expDim i f id = some 1 then 1 else 3

/-- only arithmetic operations have operands -/
inductive Tidy : Expr E → Prop
  | mk {l vs} : (vs ≠ [] → Arith l.op) → (∀ v ∈ vs, Tidy v) → Tidy (.node l vs)

theorem expDim_arith {exps : List (Expr E)} {D : Nat → Option Nat} {n d : Nat} {l : Label E} {vs : List (Expr E)} (ha : Arith l.op)
    (h : Stark.expDim exps D (n + 1) (.node l vs) = some d) : Stark.maxDim (Stark.expDim exps D n) vs 1 = some d := by
  rw [Stark.expDim] at h
  rcases ha with h' | h' | h' | h' | h' | h' | h' <;> (rw [h'] at h; exact h)

/-- every node below has at most the dimension of the expression -/
theorem expDim_sub {exps : List (Expr E)} {D : Nat → Option Nat} {l : Label E} {e : Expr E} (hl : HasLabel l e) : ∀ {n d : Nat}, Tidy e →
    Stark.expDim exps D n e = some d → ∃ n' vs d', d' ≤ d ∧ Stark.expDim exps D n' (.node l vs) = some d' := by
  induction hl with
  | here => exact fun {n d} _ h => ⟨n, _, d, le_refl d, h⟩
  | @child l' vs v hv _ ih =>
    intro n d ht h
    cases ht with
    | mk h1 h2 =>
      cases n with
      | zero => simp [Stark.expDim] at h
      | succ n =>
        have h3 := expDim_arith (h1 fun he => by rw [he] at hv; cases hv) h
        obtain ⟨x, hx, hle⟩ := (maxDim_ge vs 1 d h3).2 v hv
        obtain ⟨n', vs', d', g1, g2⟩ := ih (h2 v hv) hx
        exact ⟨n', vs', d', le_trans g1 hle, g2⟩

theorem expDim_eq_of {exps : List (Expr E)} {D : Nat → Option Nat} {n d : Nat} {l : Label E} {vs : List (Expr E)}
    (h : Stark.expDim exps D n (.node l vs) = some d) : (l.op = .cm → ∃ k, l.id = some k ∧ D k = some d) ∧
      (l.op = .exp → ∃ j e n', l.id = some j ∧ exps[j]? = some e ∧ Stark.expDim exps D n' e = some d) ∧
      (l.op = .challenge ∨ l.op = .eval ∨ l.op = .xDivXSubXi ∨ l.op = .xDivXSubWXi → d = 3) := by
  cases n with
  | zero => simp [Stark.expDim] at h
  | succ n =>
    rw [Stark.expDim] at h
    refine ⟨fun ho => ?_, fun ho => ?_, fun ho => ?_⟩
    · rw [ho] at h
      exact Option.bind_eq_some_iff.mp h
    · rw [ho] at h
      obtain ⟨j, h1, h⟩ := Option.bind_eq_some_iff.mp h
      obtain ⟨e, h2, h⟩ := Option.bind_eq_some_iff.mp h
      exact ⟨j, e, n, h1, h2, h⟩
    · rcases ho with ho | ho | ho | ho <;> (rw [ho] at h; exact (Option.some.inj h).symm)

/-- the labels of numbers are base field elements -/
theorem numBase_label {l : Label K} {e : Expr K} (hl : HasLabel l e) : Stark.NumBase e → (∀ v, l.value = some v → Stark.Base v) ∧ ∀ v, l.const_ = some v → Stark.Base v := by
  induction hl with
  | here => rintro ⟨h1, h2, -⟩; exact ⟨h1, h2⟩
  | child hv _ ih => rintro ⟨-, -, h3⟩; exact ih (h3 _ hv)

/-- The conditions on the expressions of a program, which `map` knows: only arithmetic operations have operands, numbers are base field elements, an expression that refers to
an argument expression depends on a challenge or is the looked-up side of the same lookup, the columns exist, no `muladd` and no reference to the quotient. -/
structure ExpsOk (i : In K) (exps : List (Expr K)) (nConst : Nat) (R : Bool → Nat → Prop) : Prop where
  pre : ∀ (id : Nat) (e : Expr K), exps[id]? = some e → i.exps[id]? = some e
  tidy : ∀ p id e, R p id → exps[id]? = some e → Tidy e
  num : ∀ p id e, R p id → exps[id]? = some e → Stark.NumBase e
  arg : ∀ p id e l j, R p id → exps[id]? = some e → HasLabel l e → l.op = .exp → l.id = some j → j ∈ i.argIds → HasChal i.exps e ∨
    ∃ (n : Nat) (c : PCtx), i.pu[n]? = some c ∧ id = c.fExp ∧ j = c.tExp
  cm : ∀ p id e l k, R p id → exps[id]? = some e → HasLabel l e → l.op = .cm → l.id = some k → k < i.zBase + i.nZ
  const_ : ∀ p id e l k, R p id → exps[id]? = some e → HasLabel l e → l.op = .const_ → l.id = some k → k < nConst

theorem MapOk.dim_le (h : MapOk i fuel o) {k d : Nat} (hd : o.dim k = some d) : d ≤ 3 := by
  rcases map_dims_13 h.map h.nCm2 h.pu h.safe h.safeC hd with rfl | rfl <;> omega

theorem mem_argIds {i : In E} {n : Nat} {c : PCtx} (h : i.pu[n]? = some c) {id : Nat} (hid : id = c.fExp ∨ id = c.tExp) : id ∈ i.argIds := by
  have := List.mem_of_getElem? h
  unfold In.argIds
  simp only [List.mem_append, List.mem_flatMap, List.mem_cons, List.not_mem_nil, or_false]
  left
  exact ⟨c, this, hid⟩

/-- only argument expressions have columns in the temporary section -/
def KInv (i : In E) (s : St) : Prop := ∀ id j, s.tmpexps.lookup id = some j → id ∈ i.argIds

theorem KInv.cm {s s' : St} {a b : Sec} {dim slot : Nat} (h : KInv i s) (hs : addCm a b dim slot s = some s') : KInv i s' := by
  intro id j hj
  rw [(addCm_dims hs).2.2.2.1] at hj
  exact h id j hj

theorem KInv.tmp {s : St} (h : KInv i s) {id : Nat} (hid : id ∈ i.argIds) (dim : Nat) : KInv i (addTmp i id dim s) := by
  intro id' j hj
  unfold addTmp at hj
  split_ifs at hj with hc
  · dsimp only at hj
    rw [lookup_cons_ite] at hj
    split_ifs at hj with he
    · rw [he]; exact hid
    · exact h id' j hj
  · exact h id' j hj

theorem columns_keys {r : St × Nat} (h : columns i fuel = some r) : KInv i r.1 := by
  unfold columns at h
  obtain ⟨s1, h1, h⟩ := Option.bind_eq_some_iff.mp h
  obtain ⟨s2, h2, h⟩ := Option.bind_eq_some_iff.mp h
  obtain ⟨s3, h3, h⟩ := Option.bind_eq_some_iff.mp h
  obtain ⟨s4, h4, h⟩ := Option.bind_eq_some_iff.mp h
  obtain ⟨qDim, h5, h⟩ := Option.bind_eq_some_iff.mp h
  obtain ⟨s5, h6, h⟩ := Option.map_eq_some_iff.mp h
  subst h
  have k1 : KInv i s1 := foldlM_inv _ _ s1 (fun x _ s s' hs hf => hs.cm hf) (fun id j hj => by cases hj) h1
  have k2 : KInv i s2 := by
    refine foldlM_inv (P := KInv i) i.pu.zipIdx s1 s2 (fun x hx s s' hs hf => ?_) k1 h2
    unfold lookup1 at hf
    dsimp only at hf
    obtain ⟨df, -, hf⟩ := Option.bind_eq_some_iff.mp hf
    obtain ⟨dt, -, hf⟩ := Option.bind_eq_some_iff.mp hf
    obtain ⟨t1, f1, hf⟩ := Option.bind_eq_some_iff.mp hf
    obtain ⟨t2, f2, hf⟩ := Option.map_eq_some_iff.mp hf
    subst hf
    obtain ⟨c, n⟩ := x
    have hx' : i.pu[n]? = some c := by simpa [List.mem_zipIdx_iff_getElem?] using hx
    exact ((((hs.cm f1).cm f2).tmp (mem_argIds hx' (.inl rfl)) _).tmp (mem_argIds hx' (.inr rfl)) _)
  have k3 : KInv i s3 := by
    refine foldlM_inv (P := KInv i) (i.pu ++ i.pe ++ i.ci).zipIdx s2 s3 (fun x hx s s' hs hf => ?_) k2 h3
    unfold product1 at hf
    obtain ⟨t1, f1, hf⟩ := Option.map_eq_some_iff.mp hf
    subst hf
    obtain ⟨c, n⟩ := x
    have hx' : (i.pu ++ i.pe ++ i.ci)[n]? = some c := by simpa [List.mem_zipIdx_iff_getElem?] using hx
    have hm := List.mem_of_getElem? hx'
    have ha : ∀ id, id = c.num ∨ id = c.den → id ∈ i.argIds := by
      intro id hid
      unfold In.argIds
      simp only [List.mem_append, List.mem_flatMap, List.mem_cons, List.not_mem_nil, or_false]
      simp only [List.mem_append] at hm
      exact .inr ⟨c, hm, hid⟩
    exact ((hs.cm f1).tmp (ha _ (.inl rfl)) _).tmp (ha _ (.inr rfl)) _
  have k4 : KInv i s4 := by
    refine foldlM_inv (P := KInv i) i.imList.zipIdx s3 s4 (fun x hx s s' hs hf => ?_) k3 h4
    unfold im1 at hf
    obtain ⟨d, -, hf⟩ := Option.bind_eq_some_iff.mp hf
    obtain ⟨t1, f1, hf⟩ := Option.map_eq_some_iff.mp hf
    subst hf
    have := hs.cm f1
    exact fun id j hj => this id j hj
  refine foldlM_inv (P := KInv i) (List.range i.qDeg) s4 s5 (fun x hx s s' hs hf => ?_) k4 h6
  exact hs.cm hf

theorem map_keys (h : map i fuel = some o) {id j : Nat} (hj : o.st.tmpexps.lookup id = some j) : id ∈ i.argIds := by
  unfold map at h
  obtain ⟨r, hr, h⟩ := Option.map_eq_some_iff.mp h
  subst h
  exact columns_keys hr id j hj

/-- a column of dimension 1 belongs to an expression of dimension 1 -/
theorem MapOk.col_one {i : In K} (h : MapOk i fuel o) {id : Nat} {col : Col} (hc : (layN i o nConst N lit).col .exp id = some col) (h1 : col.dim = 1) :
    ∃ f, o.expDim i f id = some 1 := by
  obtain ⟨pols, hR⟩ := h.raw
  obtain ⟨-, -, -, a, x, y, -, -, -, -, -, -, -, h8⟩ := h.col hR hc
  obtain ⟨m1, m2, m3, m4, m5, m6⟩ := map_dims h.map h.nCm2
  rcases h8 with ⟨g1, -, -, c, g2, g3, g4⟩ | ⟨g1, -, -, -, g2⟩
  · obtain ⟨-, g5, -⟩ := h.base g2
    obtain ⟨d, e1, e2⟩ := m4 (i.imList.idxOf id) id (by rw [List.getElem?_eq_getElem (List.idxOf_lt_length_of_mem g1)]; simp) (h.safe id g1)
    unfold Out.dim at e2
    rw [g5] at e2
    have : c.dim = d := Option.some.inj e2
    refine ⟨fuel, ?_⟩
    rw [e1, ← this, g4, h1]
  · rcases g2 with g2 | ⟨n, c, g2, g3, g4⟩
    · exact absurd g2.1 (by omega)
    · obtain ⟨p1, p2⟩ := h.pu n c g2
      obtain ⟨df, dt, e1, e2, e3, -⟩ := m2 n c g2 p1 p2
      rw [g4, h1] at e3
      have e4 : 1 = max df dt := Option.some.inj e3
      have hpos : ∀ f id d, o.expDim i f id = some d → 1 ≤ d := by
        intro f id d hd
        obtain ⟨e, -, hd⟩ := Option.bind_eq_some_iff.mp hd
        rcases expDim_13 f e d (fun k d _ hk => map_dims_13 h.map h.nCm2 h.pu h.safe h.safeC hk) hd with rfl | rfl <;> omega
      have := hpos _ _ _ e1
      have := hpos _ _ _ e2
      rcases g3 with rfl | rfl
      · exact ⟨fuel, by rw [e1]; congr 1; omega⟩
      · exact ⟨fuel, by rw [e2]; congr 1; omega⟩

theorem MapOk.tag_13 {i : In K} (h : MapOk i fuel o) (id : Nat) : tagN i o nConst N lit id = 1 ∨ tagN i o nConst N lit id = 3 := by
  obtain ⟨pols, hR⟩ := h.raw
  unfold tagN
  split
  · rename_i col hc
    exact (h.col hR hc).1
  · split_ifs
    · exact .inl rfl
    · exact .inr rfl

/-- an expression stored with dimension 1 has dimension 1 -/
theorem MapOk.tag_one {i : In K} (h : MapOk i fuel o) {id : Nat} (ht : tagN i o nConst N lit id = 1) : ∃ f, o.expDim i f id = some 1 := by
  unfold tagN at ht
  split at ht
  · rename_i col hc
    exact h.col_one hc ht
  · split_ifs at ht with hf
    · exact hf
    · omega

/-- an expression of dimension 1 that is not an argument is stored with dimension 1, and so is the table of a lookup when both sides have dimension 1 -/
theorem MapOk.tag_of {i : In K} (h : MapOk i fuel o) {id f : Nat} (hd : o.expDim i f id = some 1)
    (hna : id ∉ i.argIds ∨ ∃ (n : Nat) (c : PCtx) (f' : Nat), i.pu[n]? = some c ∧ id = c.tExp ∧ o.expDim i f' c.fExp = some 1) : tagN i o nConst N lit id = 1 := by
  obtain ⟨pols, hR⟩ := h.raw
  unfold tagN
  split
  · rename_i col hc
    obtain ⟨g0, -, -, a, x, y, -, -, -, -, -, -, -, h8⟩ := h.col hR hc
    rcases h8 with ⟨g1, -, -, c, g2, g3, g4⟩ | ⟨g1, -, g3, ⟨j, hj, -⟩, g2⟩
    · obtain ⟨-, g5, -⟩ := h.base g2
      obtain ⟨d, e1, e2⟩ := (map_dims h.map h.nCm2).2.2.2.1 (i.imList.idxOf id) id (by rw [List.getElem?_eq_getElem (List.idxOf_lt_length_of_mem g1)]; simp) (h.safe id g1)
      unfold Out.dim at e2
      rw [g5] at e2
      have e3 : c.dim = d := Option.some.inj e2
      obtain ⟨e, e4, e5⟩ := Option.bind_eq_some_iff.mp e1
      obtain ⟨e', e4', e5'⟩ := Option.bind_eq_some_iff.mp hd
      rw [e4] at e4'
      obtain rfl := Option.some.inj e4'
      rw [← g4, e3]
      exact expDim_unique e5 e5'
    · rcases hna with hna | ⟨n, c, f', q1, q2, q3⟩
      · exact absurd (map_keys h.map hj) hna
      obtain ⟨s1, s2⟩ := h.sep n c id q1 (.inr q2)
      rcases g2 with ⟨-, g2⟩ | ⟨n', c', g2, g4, g5⟩
      · exact absurd g2 s1
      obtain rfl := s2 n' c' g2 g4
      obtain ⟨p1, p2⟩ := h.pu n' c q1
      obtain ⟨df, dt, e1, e2, e3, -⟩ := (map_dims h.map h.nCm2).2.1 n' c q1 p1 p2
      rw [g5] at e3
      have uniq : ∀ {f f' id d d' : Nat}, o.expDim i f id = some d → o.expDim i f' id = some d' → d = d' := by
        intro f f' id d d' h1 h2
        obtain ⟨e, e4, e5⟩ := Option.bind_eq_some_iff.mp h1
        obtain ⟨e', e4', e5'⟩ := Option.bind_eq_some_iff.mp h2
        rw [e4] at e4'
        obtain rfl := Option.some.inj e4'
        exact expDim_unique e5 e5'
      have hdf := uniq e1 q3
      rw [← q2] at e2
      have hdt := uniq e2 hd
      rw [Option.some.inj e3, hdf, hdt]
      rfl
  · rw [if_pos ⟨f, hd⟩]

/-- **C98** The dimensions fit: no program of the trace domain writes a value of dimension 3 to a column of one cell. -/
theorem map_dimOk {i : In K} (h : MapOk i fuel o) {R : Bool → Nat → Prop} {exps : List (Expr K)} (hR : ExpsOk i exps nConst R)
    (hlit : ∀ v, WF (lit v)) (hlit1 : ∀ a : F, (lit (algebraMap F K a)).dim = 1) :
    DimOk exps R (tagN i o nConst N lit) (leafTag (o.info nConst) .n lit) := by
  obtain ⟨pols, hraw⟩ := h.raw
  have hcmTag : ∀ k, ∃ d, leafTag (o.info nConst) .n lit { ty := .cm, id := k } = d ∧ d ≤ 3 ∧ ∀ d', o.dim k = some d' → d = d' := by
    intro k
    refine ⟨_, rfl, ?_⟩
    show ((nodeCol (o.info nConst) .n ({ ty := .cm, id := k } : Interp.Node F3G)).map Col.dim).getD 1 ≤ 3 ∧ _
    rw [show leafTag (o.info nConst) .n lit { ty := .cm, id := k } = ((nodeCol (o.info nConst) .n ({ ty := .cm, id := k } : Interp.Node F3G)).map Col.dim).getD 1 from rfl,
      hraw.nodeCm]
    cases hb : o.base k with
    | none =>
      refine ⟨by simp, fun d' hd' => ?_⟩
      unfold Out.dim at hd'
      obtain ⟨c, hc, -⟩ := Option.map_eq_some_iff.mp hd'
      have hlt : k < i.nCols := by
        by_contra hn
        rw [((map_pos h.map h.nCm2).2.1 k (by omega)).1] at hc
        cases hc
      obtain ⟨c', h1, -⟩ := h.base_of_lt hlt
      rw [hb] at h1
      cases h1
    | some c =>
      obtain ⟨-, g2, -, g4, -⟩ := h.base hb
      refine ⟨by show c.dim ≤ 3; omega, fun d' hd' => ?_⟩
      unfold Out.dim at hd'
      rw [g2] at hd'
      exact Option.some.inj hd'
  have hwf : ∀ v, (lit v).dim ≤ 3 := by
    intro v
    rcases hlit v with hd | ⟨hd, -⟩ <;> omega
  intro p id e hp he
  refine ⟨by rcases h.tag_13 (nConst := nConst) (N := N) (lit := lit) id with h1 | h1 <;> omega, ?_⟩
  intro l r hl hr
  have hr3 : (if r.ty = .exp then tagN i o nConst N lit r.id else leafTag (o.info nConst) .n lit r) ≤ 3 := by
    split_ifs
    · rcases h.tag_13 (nConst := nConst) (N := N) (lit := lit) r.id with h1 | h1 <;> omega
    · unfold leafTag
      split
      · have := (hcmTag r.id).choose_spec
        obtain ⟨h1, h2, -⟩ := this
        rw [← h1] at h2
        exact h2
      · omega
      · omega
      · omega
      · cases hv : r.value with
        | none => simp
        | some v => simpa using hwf v
      · omega
  rcases h.tag_13 (nConst := nConst) (N := N) (lit := lit) id with h1 | h1
  · obtain ⟨f, hf⟩ := h.tag_one h1
    obtain ⟨e', he', hd⟩ := Option.bind_eq_some_iff.mp hf
    rw [hR.pre id e he] at he'
    obtain rfl := Option.some.inj he'
    obtain ⟨n', vs, d', g1, g2⟩ := expDim_sub hl (hR.tidy p id e hp he) hd
    obtain ⟨q1, q2, q3⟩ := expDim_eq_of g2
    rw [h1]
    have hnum := numBase_label hl (hR.num p id e hp he)
    have hbase : ∀ v, Stark.Base v → (lit v).dim ≤ 1 := by
      rintro v ⟨a, rfl⟩
      rw [hlit1]
    unfold leafOf at hr
    split at hr
    · rename_i ho
      obtain ⟨k, hk, rfl⟩ := Option.map_eq_some_iff.mp hr
      obtain ⟨k', hk', hD⟩ := q1 ho
      rw [hk] at hk'
      obtain rfl := Option.some.inj hk'
      obtain ⟨d, e1, -, e3⟩ := hcmTag k
      have e1' : leafTag (o.info nConst) .n lit { ty := .cm, id := k, prime := l.next || p } = d := e1
      rw [if_neg (by simp), e1', e3 d' hD]
      exact g1
    · obtain ⟨k, hk, rfl⟩ := Option.map_eq_some_iff.mp hr
      exact le_refl 1
    · rename_i ho
      obtain ⟨k, hk, rfl⟩ := Option.map_eq_some_iff.mp hr
      obtain ⟨j, e2, n2, e3, e4, e5⟩ := q2 ho
      rw [hk] at e3
      obtain rfl := Option.some.inj e3
      have hna : k ∉ i.argIds ∨ ∃ (n : Nat) (c : PCtx) (f' : Nat), i.pu[n]? = some c ∧ k = c.tExp ∧ o.expDim i f' c.fExp = some 1 := by
        by_cases hm : k ∈ i.argIds
        · rcases hR.arg p id e l k hp he hl ho hk hm with hc | ⟨n, c, hc1, hc2, hc3⟩
          · have := expDim_chal (fun k d hk => h.dim_le hk) hc hd
            omega
          · exact .inr ⟨n, c, f, hc1, hc3, hc2 ▸ hf⟩
        · exact .inl hm
      have hd' : d' = 1 := by
        rcases expDim_13 n2 e2 d' (fun k d _ hk => map_dims_13 h.map h.nCm2 h.pu h.safe h.safeC hk) e5 with h' | h' <;> omega
      rw [hd'] at e5
      rw [if_pos rfl, h.tag_of (f := n2) (by unfold Out.expDim; rw [e4]; exact e5) hna]
    · obtain ⟨k, hk, rfl⟩ := Option.map_eq_some_iff.mp hr
      exfalso
      rename_i ho
      cases n' with
      | zero => simp [Stark.expDim] at g2
      | succ n' => rw [Stark.expDim, ho] at g2; cases g2
    · obtain ⟨v, hv, rfl⟩ := Option.map_eq_some_iff.mp hr
      exact hbase v (hnum.1 v hv)
    · obtain ⟨k, hk, rfl⟩ := Option.map_eq_some_iff.mp hr
      exact le_refl 1
    · rename_i ho
      have := q3 (.inl ho)
      omega
    · rename_i ho
      have := q3 (.inr (.inl ho))
      omega
    · rename_i ho
      have := q3 (.inr (.inr (.inl ho)))
      omega
    · rename_i ho
      have := q3 (.inr (.inr (.inr ho)))
      omega
    · cases hr
      exact le_refl 1
    · obtain ⟨v, hv, rfl⟩ := Option.map_eq_some_iff.mp hr
      exact hbase v (hnum.2 v hv)
    · obtain ⟨v, hv, rfl⟩ := Option.map_eq_some_iff.mp hr
      exact hbase v (hnum.2 v hv)
    · cases hr
      exact hbase 0 ⟨0, (map_zero _).symm⟩
    · cases hr
  · rw [h1]
    exact hr3

/-! ### The programs of the trace domain -/

/-- `map_rows` for given values `X` of the columns. -/
theorem map_rowsX {i : In K} (h : MapOk i fuel o) {exps : List (Expr K)} {X : NTy → Nat → Nat → K} {c : Interp.Ctx F3G F} {fuelG t n tU : Nat} {reqs : List Req}
    {ctx : Codegen.Ctx K} {out : List (Interp.Instr F3G)}
    (hgen : genAll 0 exps fuelG reqs ⟨t, [], []⟩ = some ctx)
    (hfix : fixProverCode (tgtOf i.imList i.im2cm o.st.tmpexps .n) o.st.cmN.length lit ctx.tmpUsed (linearCode ctx) = some (out, tU)) (hn : tU ≤ n)
    (hreqs : ∀ r ∈ reqs, r.prime = false ∧ r.res = none ∧ r.muladd = false)
    (hops : PlainOps exps (Needed exps reqs)) (hnp : NoPoint exps (Needed exps reqs)) (hE : ExpsOk i exps nConst (Needed exps reqs))
    (hlit : ∀ v, WF (lit v) ∧ val (lit v) = v) (hlit1 : ∀ a : F, (lit (algebraMap F K a)).dim = 1)
    (hN : N = 2 ^ c.nbits) (hlen : ∀ t ∈ [Sec.cm3_n, Sec.tmpexp_n], N * o.lay.n t ≤ (c.mem t).length)
    (hcells : CellsOk c) (hfresh : Fresh (layN i o nConst N lit) X c.mem)
    (hval : ∀ k < N, ∀ r ∈ reqs, ∃ d e v, d < fuelG ∧ exps[r.id]? = some e ∧ Val (fieldOps K) exps (rowEnv (o.info nConst) .n N 1 c k) d false e v)
    (hX : ∀ p id r v, Needed exps reqs p id → r < N → ExpVal (fieldOps K) exps (rowEnv (o.info nConst) .n N 1 c r) false id v → X .exp id r = v) :
    ∃ c', Interp.calculateExps algF3 (o.info nConst) out n .n N c = some c' ∧ KeepsCols (layN i o nConst N lit) X c.mem c'.mem ∧
      Frame (layN i o nConst N lit) (withTmp c n) c' ∧
      ∀ r ∈ reqs, ∀ col, (layN i o nConst N lit).col .exp r.id = some col → ∀ k < N, Hold c'.mem col k (X .exp r.id k) := by
  refine rows_keep (L := layN i o nConst N lit) (T := tagN i o nConst N lit) hgen hfix hn hreqs hops hnp
    (map_dimOk h hE (fun v => (hlit v).1) hlit1) hlit hN rfl ?_ (map_place h hlen fun id col hc => ?_) (map_read h hE.cm hE.const_) hcells hfresh hval hX
  · show 0 < N
    rw [hN]
    positivity
  · unfold tagN
    rw [hc]

/-- **C98** A program of the trace domain on the prover's buffers: generated for the requests `reqs`, rewritten by `fix_prover_code` for the layout that `map`
computes, run by the interpreter on all rows.  If every requested expression has a value at every row of the buffers, the run succeeds; afterwards the
column of every requested expression holds the value, columns that held their value still do, and nothing else has changed (`Frame`). -/
theorem map_rows {i : In K} (h : MapOk i fuel o) {exps : List (Expr K)} {c : Interp.Ctx F3G F} {fuelG t n tU : Nat} {reqs : List Req} {ctx : Codegen.Ctx K}
    {out : List (Interp.Instr F3G)}
    (hgen : genAll 0 exps fuelG reqs ⟨t, [], []⟩ = some ctx)
    (hfix : fixProverCode (tgtOf i.imList i.im2cm o.st.tmpexps .n) o.st.cmN.length lit ctx.tmpUsed (linearCode ctx) = some (out, tU)) (hn : tU ≤ n)
    (hreqs : ∀ r ∈ reqs, r.prime = false ∧ r.res = none ∧ r.muladd = false)
    (hops : PlainOps exps (Needed exps reqs)) (hnp : NoPoint exps (Needed exps reqs)) (hE : ExpsOk i exps nConst (Needed exps reqs))
    (hlit : ∀ v, WF (lit v) ∧ val (lit v) = v) (hlit1 : ∀ a : F, (lit (algebraMap F K a)).dim = 1)
    (hN : N = 2 ^ c.nbits) (hlen : ∀ t ∈ [Sec.cm3_n, Sec.tmpexp_n], N * o.lay.n t ≤ (c.mem t).length)
    (hcells : CellsOk c) (hfresh : FreshRows (layN i o nConst N lit) exps c)
    (hval : ∀ k < N, ∀ r ∈ reqs, ∃ d e v, d < fuelG ∧ exps[r.id]? = some e ∧ Val (fieldOps K) exps (rowEnv (o.info nConst) .n N 1 c k) d false e v) :
    ∃ c', Interp.calculateExps algF3 (o.info nConst) out n .n N c = some c' ∧
      (∀ r ∈ reqs, ∀ col, (layN i o nConst N lit).col .exp r.id = some col → ∀ k < N, ∀ v,
        ExpVal (fieldOps K) exps (rowEnv (o.info nConst) .n N 1 c k) false r.id v → Hold c'.mem col k v) ∧
      (∀ id col k v, (layN i o nConst N lit).col .exp id = some col → k < N →
        ExpVal (fieldOps K) exps (rowEnv (o.info nConst) .n N 1 c k) false id v → Hold c.mem col k v → Hold c'.mem col k v) ∧
      Frame (layN i o nConst N lit) (withTmp c n) c' := by
  refine rows_spec (L := layN i o nConst N lit) (T := tagN i o nConst N lit) hgen hfix hn hreqs hops hnp
    (map_dimOk h hE (fun v => (hlit v).1) hlit1) hlit hN rfl ?_ (map_place h hlen fun id col hc => ?_) (map_read h hE.cm hE.const_) hcells hfresh hval
  · show 0 < N
    rw [hN]
    positivity
  · unfold tagN
    rw [hc]

end Verif.Map
