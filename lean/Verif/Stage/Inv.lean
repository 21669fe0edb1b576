import Verif.Stage.Facts
import Verif.Stage.Shift
import Verif.Stage.Pols
import Verif.Map.Gen

/-!
# The buffers of the prover during the second and third round

`Circ` collects what is known of the circuit and its layout, `Sync` what is known of the buffers when the committed columns below `lim` have been written,
and `stage_run` is one run of `calculate_exps_parallel` between them.
-/
namespace Verif.Stage
open Codegen Codegen.Spec Verif.Stark FFT Fri Verif.Grand
open Verif.GL (F)
open Verif.Ext3 (F3G K WF val ofF coord)
open Verif.Interp (Sec Info algF3 cleared execInfo setWidth)
open Verif.Interp.Spec (Col cell readCol polCol nodeCol rowOf)
open Verif.Map (Hold Rel Same ApartCol CellsOk extSec MapOk inOf layN Out Lay Blank Fresh Frame KeepsCols secN InCol Provided Needed NoPoint ReadOk tagN Raw)

noncomputable section

/-- A circuit with its arguments, and the layout of its columns as `map` computes it. -/
structure Circ (R : Run) (T : Trace) (S : Finset Nat) (l1 : Option Nat) (st st' : PilSt K) (a : Args) (cx : ArgCtx) (lims : List Lim) (fuel : Nat) (P : Progs)
    (q : Nat) (ce fe : Expr K) (fuelM : Nat) (o : Out) (lit : K → F3G) : Prop where
  circ : ArgCircuit R T S l1 st st' a cx lims fuel P
  map : MapOk (inOf st st' cx S q ce fe) fuelM o
  pos : R.pos = o.pos
  width : ∀ t, 1 ≤ t → t ≤ 3 → T.width t = o.widthN t
  litOk : ∀ v, WF (lit v) ∧ val (lit v) = v
  lit1 : ∀ b : F, (lit (algebraMap F K b)).dim = 1
  noX : ∀ e ∈ st.exps, Map.NoX e

variable {R : Run} {T : Trace} {S : Finset Nat} {l1 : Option Nat} {st st' : PilSt K} {a : Args} {cx : ArgCtx} {lims : List Lim} {fuel : Nat} {P : Progs}
  {q : Nat} {ce fe : Expr K} {fuelM : Nat} {o : Out} {lit : K → F3G}

/-- the column of a committed polynomial -/
theorem Circ.col (O : Circ R T S l1 st st' a cx lims fuel P q ce fe fuelM o lit) {k : Nat} (hk : k < R.nCm + S.card) :
    ∃ c, R.pos k = some c ∧ nodeCol (o.info T.nConst) .n ({ ty := .cm, id := k } : Interp.Node F3G) = some ⟨secN c.tree, c.pos, c.dim, T.width c.tree⟩ ∧
      (c.dim = 1 ∨ c.dim = 3) ∧ c.tree = (if k < st.nCm then 1 else if k < st.nCm + 2 * a.plookups.length then 2 else 3) ∧
      c.pos + c.dim ≤ T.width c.tree ∧ T.width c.tree = o.lay.n (secN c.tree) ∧ ∃ p, o.st.cmN[k]? = some p ∧ polCol (o.info T.nConst) p = some ⟨secN c.tree, c.pos, c.dim, T.width c.tree⟩ := by
  obtain ⟨c, h1, h2, h3, h4⟩ := O.circ.pos hk
  obtain ⟨pols, hR⟩ := O.map.raw
  obtain ⟨e1, e2, e3, -⟩ := genArgs_ctx O.circ.gen
  have hcnt := O.circ.count
  simp only [List.length_append] at hcnt
  have hlt : k < (inOf st st' cx S q ce fe).nCols := by
    simp only [Map.In.nCols, inOf, Finset.length_sort]
    omega
  obtain ⟨c', g1, g2, -⟩ := O.map.base_of_lt hlt
  rw [← O.pos, h1] at g2
  obtain rfl := Option.some.inj g2
  have ht : 1 ≤ c.tree ∧ c.tree ≤ 3 := by rw [h3]; split_ifs <;> omega
  have hw := O.width c.tree ht.1 ht.2
  have hn := hR.nodeCm (i := inOf st st' cx S q ce fe) T.nConst k
  rw [g1, Option.map_some, ← hw] at hn
  refine ⟨c, h1, hn, h2, h3, h4, hw, ?_⟩
  have hn' : ((o.info T.nConst).cmN[k]?).bind (polCol (o.info T.nConst)) = some ⟨secN c.tree, c.pos, c.dim, T.width c.tree⟩ := hn
  obtain ⟨p, p1, p2⟩ := Option.bind_eq_some_iff.mp hn'
  exact ⟨p, p1, p2⟩

theorem secN_three {t : Nat} (h : t = 1 ∨ t = 2 ∨ t = 3) : secN t = .cm1_n ∨ secN t = .cm2_n ∨ secN t = .cm3_n := by
  rcases h with rfl | rfl | rfl <;> simp [secN]

/-- the columns of the expressions are those of the third round and the temporary ones -/
theorem Circ.lay (O : Circ R T S l1 st st' a cx lims fuel P q ce fe fuelM o lit) {ty : NTy} {id : Nat} {col : Col} {N : Nat}
    (h : (layN (inOf st st' cx S q ce fe) o T.nConst N lit).col ty id = some col) :
    (col.sec = .cm3_n ∨ col.sec = .tmpexp_n) ∧ (col.dim = 1 ∨ col.dim = 3) ∧ col.pos + col.dim ≤ col.width ∧ col.width = setWidth (o.info T.nConst) col.sec := by
  obtain ⟨pols, hR⟩ := O.map.raw
  obtain ⟨h1, h2, h3, b, x, y, -, -, -, -, -, -, -, h4⟩ := O.map.col hR h
  have hs : col.sec = .cm3_n ∨ col.sec = .tmpexp_n := by
    rcases h4 with ⟨-, h4, -⟩ | ⟨-, h4, -⟩
    · exact .inl h4
    · exact .inr h4
  refine ⟨hs, h1, h2, ?_⟩
  rw [h3]
  rcases hs with hs | hs <;> rw [hs] <;> rfl

/-- a committed column below the intermediate polynomials has no cell in common with the columns of the expressions -/
theorem Circ.apart (O : Circ R T S l1 st st' a cx lims fuel P q ce fe fuelM o lit) {k : Nat} (hk : k < R.nCm) {col : Col} {N : Nat}
    (hc : nodeCol (o.info T.nConst) .n ({ ty := .cm, id := k } : Interp.Node F3G) = some col) {ty : NTy} {id : Nat} {col' : Col}
    (h : (layN (inOf st st' cx S q ce fe) o T.nConst N lit).col ty id = some col') : ApartCol col col' := by
  have hcnt := O.circ.count
  obtain ⟨e1, -, -, -⟩ := genArgs_ctx O.circ.gen
  simp only [List.length_append] at hcnt
  have hr := Map.map_read (nConst := T.nConst) (N := N) (lit := lit) O.map (exps := [.node { op := .cm, id := some k } []]) (R := fun _ _ => True)
    (fun p j e l k' _ he hl ho hi => by
      cases j with
      | succ j => simp at he
      | zero =>
        simp only [List.getElem?_cons_zero, Option.some.injEq] at he
        subst he
        obtain rfl := Map.hasLabel_leaf hl
        obtain rfl : k = k' := Option.some.inj hi
        simp only [Map.In.zBase, Map.In.nZ, inOf]
        omega)
    (fun p j e l k' _ he hl ho hi => by
      cases j with
      | succ j => simp at he
      | zero =>
        simp only [List.getElem?_cons_zero, Option.some.injEq] at he
        subst he
        obtain rfl := Map.hasLabel_leaf hl
        cases ho)
  exact (hr.cm false 0 _ { op := .cm, id := some k } k col trivial rfl .here rfl rfl hc).2.2.2 ty id col' h

/-- two committed columns have no cell in common -/
theorem Circ.two (O : Circ R T S l1 st st' a cx lims fuel P q ce fe fuelM o lit) {k k' : Nat} (hk : k < R.nCm + S.card) (hk' : k' < R.nCm + S.card) (hne : k ≠ k')
    {col col' : Col} (hc : nodeCol (o.info T.nConst) .n ({ ty := .cm, id := k } : Interp.Node F3G) = some col)
    (hc' : nodeCol (o.info T.nConst) .n ({ ty := .cm, id := k' } : Interp.Node F3G) = some col') : ApartCol col col' := by
  obtain ⟨c, h1, h2, h3, h4, h5, -⟩ := O.col hk
  obtain ⟨c', g1, g2, g3, g4, g5, -⟩ := O.col hk'
  obtain rfl := Option.some.inj (hc.symm.trans h2)
  obtain rfl := Option.some.inj (hc'.symm.trans g2)
  by_cases ht : c.tree = c'.tree
  · right
    refine ⟨by rw [ht], ?_⟩
    rcases Nat.lt_or_gt_of_ne hne with hlt | hlt
    · have := O.circ.layout.disj k k' c c' hlt hk' h1 g1 ht
      unfold Disj at this
      dsimp only
      omega
    · have := O.circ.layout.disj k' k c' c hlt hk g1 h1 ht.symm
      unfold Disj at this
      dsimp only
      omega
  · left
    dsimp only
    rw [h4, g4] at ht ⊢
    revert ht
    split_ifs <;> simp [secN]

/-- What is known of the buffers when the committed columns below `lim` hold the columns of the trace `TF`, and the challenges `ch` have been drawn. -/
structure Sync (R : Run) (T : Trace) (o : Out) (TF : Trace) (ch4 ch : List K) (lim : Nat) (zi : Nat → Option F3G) (c : Ctx) : Prop where
  nbits : c.nbits = R.nb
  len : ∀ t ∈ [Sec.cm1_n, .cm2_n, .cm3_n, .tmpexp_n, .const_n, .x_n], (c.mem t).length = 2 ^ R.nb * setWidth (o.info T.nConst) t
  cells : CellsOk c
  const_ : ∀ r < 2 ^ R.nb, ∀ k < T.nConst, (c.mem .const_n)[r * T.nConst + k]? = some (ofF (T.fixed (r * T.nConst + k)))
  x : ∀ r < 2 ^ R.nb, ∃ b, (c.mem .x_n)[r]? = some (ofF b) ∧ algebraMap F K b = mgK R.nb ^ r
  publics : (c.mem .publics).map val = R.publics
  chalLen : 4 ≤ (c.mem .challenge).length
  chal : ∀ (k : Nat) (v : K), ch[k]? = some v → (c.mem .challenge)[k]?.map val = some v
  Zi : c.Zi = zi
  done : ∀ k < lim, ∀ col, nodeCol (o.info T.nConst) .n ({ ty := .cm, id := k } : Interp.Node F3G) = some col → ∀ r < 2 ^ R.nb, ∀ v, trCm R TF ch4 k r = some v → Hold c.mem col r v

/-! ### One run of a program -/

variable {TF : Trace} {ch4 ch : List K} {lim : Nat} {zi : Nat → Option F3G} {c : Ctx} {N : Nat} {X : NTy → Nat → Nat → K}

theorem frame_same {L : Lay} {c0 c : Ctx} (hF : Frame L c0 c) (hpl : ∀ ty id col, L.col ty id = some col → col.pos + col.dim ≤ col.width) {col : Col} {r : Nat}
    (ht : col.sec ≠ .tmp) (hfit : col.pos + col.dim ≤ col.width) (hap : ∀ ty id col', L.col ty id = some col' → ApartCol col col') : Same c0.mem c.mem col r := by
  intro j hj
  unfold cell
  refine hF.cells _ _ ht fun ty id col' hc hs r' hr' => ?_
  have h1 := hpl ty id col' hc
  rcases hap ty id col' hc with h | ⟨hw, h⟩
  · exact absurd hs h
  · rintro ⟨g1, g2⟩
    rw [← hw] at g1 g2 h1
    obtain ⟨m, hm⟩ : ∃ m, r * col.width + (col.pos + j) = r' * col.width + m ∧ col'.pos ≤ m ∧ m < col'.pos + col'.dim :=
      ⟨r * col.width + (col.pos + j) - r' * col.width, by omega, by omega, by omega⟩
    obtain ⟨-, h3⟩ := Map.cell_row_ne (by omega) (by omega) hm.1
    omega

theorem hold_cells {m : Sec → List F3G} {col : Col} {r : Nat} {v : K} (hd : col.dim = 1 ∨ col.dim = 3) (h : Hold m col r v) :
    ∀ j < col.dim, ∃ b, cell (m col.sec) col.width r (col.pos + j) = some (ofF b) := by
  intro j hj
  rcases hd with hd | hd
  · unfold Hold at h
    rw [if_pos hd] at h
    obtain ⟨b, h1, -⟩ := h
    obtain rfl : j = 0 := by omega
    exact ⟨b, h1⟩
  · unfold Hold at h
    rw [if_neg (by omega)] at h
    obtain ⟨b, b', b'', h1, h2, h3, -⟩ := h
    obtain rfl | rfl | rfl : j = 0 ∨ j = 1 ∨ j = 2 := by omega
    · exact ⟨b, h1⟩
    · exact ⟨b', h2⟩
    · exact ⟨b'', h3⟩

/-- a run keeps the cells of the sections in the base field -/
theorem frame_cells {L : Lay} {c0 c : Ctx} (hF : Frame L c0 c) (hK : KeepsCols L X c0.mem c.mem) (hd : ∀ ty id col, L.col ty id = some col → col.dim = 1 ∨ col.dim = 3)
    (hs : ∀ t, t = .challenge ∨ t = .evals → c.mem t = c0.mem t) (h : CellsOk c0) : CellsOk c := by
  refine ⟨fun t ht w hw => ?_, fun t ht w hw => ?_⟩
  · obtain ⟨k, hk⟩ := List.getElem?_of_mem hw
    by_cases hin : ∃ ty id col, L.col ty id = some col ∧ t = col.sec ∧ ∃ r < L.N, r * col.width + col.pos ≤ k ∧ k < r * col.width + col.pos + col.dim
    · obtain ⟨ty, id, col, hc, rfl, r, hr, h1, h2⟩ := hin
      have he : r * col.width + (col.pos + (k - (r * col.width + col.pos))) = k := by omega
      rcases hK ty id col r hc hr with hsm | hh
      · have := hsm (k - (r * col.width + col.pos)) (by omega)
        unfold cell at this
        rw [he, hk] at this
        exact h.base _ ht w (List.mem_of_getElem? this.symm)
      · obtain ⟨b, hb⟩ := hold_cells (hd ty id col hc) hh (k - (r * col.width + col.pos)) (by omega)
        unfold cell at hb
        rw [he, hk] at hb
        exact ⟨b, Option.some.inj hb⟩
    · have := hF.cells t k (fun h => ht (.inl h)) fun ty id col hc hs r hr hh => hin ⟨ty, id, col, hc, hs, r, hr, hh⟩
      rw [hk] at this
      exact h.base t ht w (List.mem_of_getElem? this.symm)
  · rw [hs t ht] at hw
    exact h.ext t ht w hw

/-- the columns of the finished trace do not depend on the challenges -/
theorem Circ.trace_le (O : Circ R T S l1 st st' a cx lims fuel P q ce fe fuelM o lit) (b2 b3 : FftP.Buf F) (hch : ch <+: ch4) (hlim : lim ≤ R.nCm) (i : Nat)
    (t : NTy) (k : Nat) (p : Bool) (v : K) (h : stageStore R (withCm T b2 b3) ch lim i t k p = some v) : traceStore R (withCm T b2 b3) ch4 i t k p = some v := by
  refine stage_trace (T := withCm T b2 b3) (T' := withCm T b2 b3) (fun k hk r => ?_) rfl hch i t k p v h
  refine O.circ.same (T1 := withCm T b2 b3) (T2 := withCm T b2 b3) (ch1 := ch) (ch2 := ch4) rfl rfl (by omega) ?_ r
  split_ifs
  · rw [(withCm_sec _ _ _ _).1, (withCm_sec _ _ _ _).1]
  · rw [(withCm_sec _ _ _ _).2.1, (withCm_sec _ _ _ _).2.1]
  · rw [(withCm_sec _ _ _ _).2.2, (withCm_sec _ _ _ _).2.2]

/-- the value at the next row is the value of the next row -/
theorem trace_next (hcl : Map.Closed st'.exps Rq) (hnp : NoPoint st'.exps Rq) {id i : Nat} {v : K} (hR : Rq true id)
    (h : ExpVal (fieldOps K) st'.exps (traceStore R TF ch4 i) true id v) :
    ExpVal (fieldOps K) st'.exps (traceStore R TF ch4 ((i + 1) % 2 ^ R.nb)) false id v := by
  refine expVal_shift hcl hnp ?_ ?_ hR h
  · intro t k v ht hv
    rw [trace_rows] at hv ⊢
    rcases ht with rfl | rfl | rfl <;> simp [rowStore] at hv ⊢ <;> exact hv
  · intro t k v ht hv
    rw [trace_rows] at hv ⊢
    rcases ht with rfl | rfl | rfl <;> simp [rowStore] at hv ⊢ <;> exact hv

end

end Verif.Stage
