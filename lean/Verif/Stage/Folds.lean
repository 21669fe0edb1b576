import Verif.Stage.Steps

/-!
# The loops over the lookups and the grand products
-/
namespace Verif.Stage
open Codegen Codegen.Spec Verif.Stark FFT Fri Verif.Grand
open Verif.GL (F)
open Verif.Ext3 (F3G K WF val ofF coord)
open Verif.Interp (Sec Info algF3 cleared execInfo setWidth)
open Verif.Interp.Spec (Col cell readCol polCol nodeCol rowOf)
open Verif.Map (Hold Rel Same ApartCol CellsOk extSec MapOk inOf layN Out Lay Blank Fresh Frame KeepsCols secN InCol Provided Needed NoPoint ReadOk tagN Raw)

noncomputable section

variable {R : Run} {T : Trace} {S : Finset Nat} {l1 : Option Nat} {st st' : PilSt K} {a : Args} {cx : ArgCtx} {lims : List Lim} {fuel : Nat} {P : Progs}
  {q : Nat} {ce fe : Expr K} {fuelM : Nat} {o : Out} {lit : K → F3G}
  {TF : Trace} {ch4 ch : List K} {lim : Nat} {zi : Nat → Option F3G} {c : Ctx} {X : NTy → Nat → Nat → K} {b2 b3 : FftP.Buf F} {u dv ga be : K}

/-- `get_pol` of an expression of an argument -/
theorem getExp (O : Circ R T S l1 st st' a cx lims fuel P q ce fe fuelM o lit) (hS : Sync R T o TF ch4 ch lim zi c) {id : Nat}
    (hid : id ∈ (inOf st st' cx S q ce fe).argIds) {v : Nat → K}
    (hold : ∀ col, (layN (inOf st st' cx S q ce fe) o T.nConst (2 ^ R.nb) lit).col .exp id = some col → ∀ r < 2 ^ R.nb, Hold c.mem col r (v r)) :
    ∃ col l, (layN (inOf st st' cx S q ce fe) o T.nConst (2 ^ R.nb) lit).col .exp id = some col ∧
      (o.st.exp2pol.lookup id).bind (getPol (o.info T.nConst) c) = some l ∧ AllWF l ∧ (∀ x ∈ l, x.dim = col.dim) ∧ l.map val = rows (2 ^ R.nb) v := by
  obtain ⟨p, col, h1, h2, h3⟩ := map_argCol (N := 2 ^ R.nb) (lit := lit) (nConst := T.nConst) O.map hid
  obtain ⟨g1, g2, g3, g4⟩ := O.lay h3
  have hpol : PolAt (o.info T.nConst) c (2 ^ R.nb) p col := by
    refine ⟨h2, ?_, g2, g3, ?_⟩
    · rw [hS.nbits]
      rcases g1 with h | h <;> rw [h] <;> rfl
    · rw [hS.len _ (by rcases g1 with h | h <;> rw [h] <;> simp), g4]
  obtain ⟨l, k1, k2, k3, k4⟩ := getPol_hold hpol (hold col h3)
  exact ⟨col, l, h3, by rw [h1, Option.bind_some, k1], k2, k3, k4⟩

theorem h1h2_dims {f t A B : List F3G} {d : Nat} (hlen : f.length = t.length) (hf : ∀ x ∈ f, x.dim = d) (ht : ∀ x ∈ t, x.dim = d) (wf : AllWF f) (wt : AllWF t)
    (h : calculateH1H2 f t = some (A, B)) : AllWF A ∧ AllWF B ∧ (∀ x ∈ A, x.dim = d) ∧ ∀ x ∈ B, x.dim = d := by
  have hin : ∀ e ∈ f, e ∈ t := by
    intro e he
    by_contra hn
    have := h1h2_missing f t e he hn
    unfold calculateH1H2 at h
    rw [this] at h
    cases h
  obtain ⟨A', B', e1, e2, e3, -⟩ := h1h2_spec f t hlen hin
  obtain ⟨rfl, rfl⟩ : A' = A ∧ B' = B := Prod.mk.inj (Option.some.inj (e1.symm.trans h))
  have hmem : ∀ x, x ∈ A' ∨ x ∈ B' → x ∈ t ++ f := fun x hx =>
    (h1h2_perm _ _ _ _ hlen h).mem_iff.mp (interleave_mem (by omega) x hx)
  have hw : ∀ x ∈ t ++ f, WF x ∧ x.dim = d := fun x hx => by
    rcases List.mem_append.mp hx with hx | hx
    · exact ⟨wt x hx, ht x hx⟩
    · exact ⟨wf x hx, hf x hx⟩
  exact ⟨fun x hx => (hw x (hmem x (.inl hx))).1, fun x hx => (hw x (hmem x (.inr hx))).1, fun x hx => (hw x (hmem x (.inl hx))).2, fun x hx => (hw x (hmem x (.inr hx))).2⟩

theorem getD_rows {l : List K} {N : Nat} (h : l.length = N) : l = rows N fun r => l.getD r 0 := by
  apply List.ext_getElem?
  intro r
  unfold rows
  rw [List.getElem?_map]
  by_cases hr : r < N
  · rw [List.getElem?_range hr, Option.map_some, List.getD_eq_getElem?_getD, List.getElem?_eq_getElem (by omega)]
    rfl
  · rw [List.getElem?_eq_none (by omega), List.getElem?_eq_none (by simp; omega)]
    rfl

theorem rows_congr {N : Nat} {f g : Nat → K} (h : ∀ r < N, f r = g r) : rows N f = rows N g :=
  List.map_congr_left fun i hi => h i (List.mem_range.mp hi)

/-- one lookup -/
theorem lookup_step (O : Circ R T S l1 st st' a cx lims fuel P q ce fe fuelM o lit) (hF : Facts R (withCm T b2 b3) S st st' cx u dv ga be)
    (hX : ∀ id r v, ExpVal (fieldOps K) st'.exps (traceStore R (withCm T b2 b3) [u, dv, ga, be] r) false id v → X .exp id r = v) {n : Nat} {pc : PCtx} (hc : cx.pu[n]? = some pc)
    (side : ∀ id col, id = pc.fExp ∨ id = pc.tExp → (layN (inOf st st' cx S q ce fe) o T.nConst (2 ^ R.nb) lit).col .exp id = some col → o.dim (st.nCm + 2 * n) = some col.dim)
    (hS : Sync R T o (withCm T b2 b3) [u, dv, ga, be] ch (st.nCm + 2 * n) zi c)
    (hold : ∀ id col, id = pc.fExp ∨ id = pc.tExp → (layN (inOf st st' cx S q ce fe) o T.nConst (2 ^ R.nb) lit).col .exp id = some col →
      ∀ r < 2 ^ R.nb, Hold c.mem col r (X .exp id r)) :
    ∃ c', lookupStep (o.info T.nConst) (fun id => o.st.exp2pol.lookup id) (c, st.nCm + 2 * n) pc = some (c', st.nCm + 2 * (n + 1)) ∧
      Sync R T o (withCm T b2 b3) [u, dv, ga, be] ch (st.nCm + 2 * (n + 1)) zi c' ∧
      (∀ ty id col, (layN (inOf st st' cx S q ce fe) o T.nConst (2 ^ R.nb) lit).col ty id = some col → ∀ r, Same c.mem c'.mem col r) ∧
      c'.mem .cm1_n = c.mem .cm1_n := by
  classical
  have C := O.circ
  obtain ⟨e1, -, -, -⟩ := genArgs_ctx C.gen
  have hn : n < a.plookups.length := by have := (List.getElem?_eq_some_iff.mp hc).1; omega
  have hle := C.layout.le
  have hm := List.mem_of_getElem? hc
  obtain ⟨f, t, A, B, f1, f2, f3, f4, f5, f6⟩ := hF.lookup n pc hc
  have hXf : ∀ r, X .exp pc.fExp r = f r := fun r => hX _ _ _ (ExpVal.mono (O.trace_le b2 b3 (ch := [u, dv]) (ch4 := [u, dv, ga, be]) (lim := st.nCm) ⟨[ga, be], rfl⟩ (by omega) r) (f1 r))
  have hXt : ∀ r, X .exp pc.tExp r = t r := fun r => hX _ _ _ (ExpVal.mono (O.trace_le b2 b3 (ch := [u, dv]) (ch4 := [u, dv, ga, be]) (lim := st.nCm) ⟨[ga, be], rfl⟩ (by omega) r) (f2 r))
  have hargs : ∀ id, id = pc.fExp ∨ id = pc.tExp → id ∈ (inOf st st' cx S q ce fe).argIds := fun id hid => Map.mem_argIds (i := inOf st st' cx S q ce fe) hc hid
  obtain ⟨colF, lf, k1, k2, k3, k4, k5⟩ := getExp O hS (hargs _ (.inl rfl)) (v := f) fun col h r hr => by rw [← hXf]; exact hold _ col (.inl rfl) h r hr
  obtain ⟨colT, lt, j1, j2, j3, j4, j5⟩ := getExp O hS (hargs _ (.inr rfl)) (v := t) fun col h r hr => by rw [← hXt]; exact hold _ col (.inr rfl) h r hr
  have sF := side _ colF (.inl rfl) k1
  have sT := side _ colT (.inr rfl) j1
  have hdd : colT.dim = colF.dim := Option.some.inj (sT.symm.trans sF)
  have href := calculateH1H2_refines lf lt colF.dim k4 (fun x hx => (j4 x hx).trans hdd)
  rw [k5, j5] at href
  have f3' : Stark.h1h2 (rows (2 ^ R.nb) f) (rows (2 ^ R.nb) t) = some (A, B) := by convert f3
  rw [f3'] at href
  obtain ⟨⟨lA, lB⟩, m1, m2⟩ := Option.map_eq_some_iff.mp href
  obtain ⟨m3, m4⟩ := Prod.mk.inj m2
  dsimp only at m3 m4
  have hlens : lf.length = lt.length := by
    have h1 := congrArg List.length k5
    have h2 := congrArg List.length j5
    simp only [List.length_map, rows_length] at h1 h2
    omega
  obtain ⟨w1, w2, w3, w4⟩ := h1h2_dims hlens k4 (fun x hx => (j4 x hx).trans hdd) k3 j3 m1
  have hdim : ∀ cp, R.pos (st.nCm + 2 * n) = some cp → cp.dim = colF.dim := by
    intro cp hcp
    unfold Out.dim at sF
    rw [← O.pos, hcp] at sF
    exact Option.some.inj sF
  have hdim2 : ∀ cp, R.pos (st.nCm + 2 * n + 1) = some cp → cp.dim = colF.dim := by
    intro cp hcp
    obtain ⟨cq, hcq, -⟩ := C.pos (k := st.nCm + 2 * n) (by omega)
    have := (C.dims.pair n pc cq cp hc hcq hcp).1
    rw [← this]
    exact hdim cq hcq
  obtain ⟨-, -, -, -, -, -, -, p1, q1, -⟩ := O.col (k := st.nCm + 2 * n) (by omega)
  obtain ⟨-, -, -, -, -, -, -, p2, q2, -⟩ := O.col (k := st.nCm + 2 * n + 1) (by omega)
  obtain ⟨c1, s1, s2, s3, s4⟩ := write_sync O hS (by omega) (by omega) q1 hdim w1 (fun h x hx => (w3 x hx).trans h) (v := fun r => A.getD r 0)
    (m3.trans (getD_rows f4)) fun r hr => (f6 r hr).1
  obtain ⟨c2, t1, t2, t3, t4⟩ := write_sync O s2 (by omega) (by omega) q2 hdim2 w2 (fun h x hx => (w4 x hx).trans h) (v := fun r => B.getD r 0)
    (m4.trans (getD_rows f5)) fun r hr => (f6 r hr).2
  refine ⟨c2, ?_, ?_, fun ty id col hcol r j hj => (t3 ty id col hcol r j hj).trans (s3 ty id col hcol r j hj), t4.trans s4⟩
  · unfold lookupStep
    dsimp only
    rw [k2, Option.bind_some, j2, Option.bind_some, m1, Option.bind_some]
    dsimp only
    rw [show (o.info T.nConst).cmN = o.st.cmN from rfl, q1, Option.bind_some, s1, Option.bind_some, q2, Option.bind_some, t1, Option.map_some]
    rfl
  · exact t2

/-- one grand product -/
theorem product_step (O : Circ R T S l1 st st' a cx lims fuel P q ce fe fuelM o lit) (hF : Facts R (withCm T b2 b3) S st st' cx u dv ga be)
    (hX : ∀ id r v, ExpVal (fieldOps K) st'.exps (traceStore R (withCm T b2 b3) [u, dv, ga, be] r) false id v → X .exp id r = v) {n : Nat} {pc : PCtx}
    (hc : (cx.pu ++ cx.pe ++ cx.ci)[n]? = some pc)
    (hS : Sync R T o (withCm T b2 b3) [u, dv, ga, be] ch (st.nCm + 2 * cx.pu.length + n) zi c)
    (hold : ∀ id col, id = pc.num ∨ id = pc.den → (layN (inOf st st' cx S q ce fe) o T.nConst (2 ^ R.nb) lit).col .exp id = some col →
      ∀ r < 2 ^ R.nb, Hold c.mem col r (X .exp id r)) :
    ∃ c', productStep (o.info T.nConst) (fun id => o.st.exp2pol.lookup id) (c, st.nCm + 2 * cx.pu.length + n) pc = some (c', st.nCm + 2 * cx.pu.length + (n + 1)) ∧
      Sync R T o (withCm T b2 b3) [u, dv, ga, be] ch (st.nCm + 2 * cx.pu.length + (n + 1)) zi c' ∧
      (∀ ty id col, (layN (inOf st st' cx S q ce fe) o T.nConst (2 ^ R.nb) lit).col ty id = some col → ∀ r, Same c.mem c'.mem col r) ∧
      c'.mem .cm1_n = c.mem .cm1_n := by
  classical
  have C := O.circ
  obtain ⟨e1, -, -, -⟩ := genArgs_ctx C.gen
  have hn := (List.getElem?_eq_some_iff.mp hc).1
  have hcnt := C.count
  have hm := List.mem_of_getElem? hc
  obtain ⟨f, t, A, f1, f2, f3, f4, f6⟩ := hF.product n pc hc
  have hXf : ∀ r, X .exp pc.num r = f r := fun r => hX _ _ _ (ExpVal.mono (O.trace_le b2 b3 (ch := [u, dv, ga, be]) (ch4 := [u, dv, ga, be]) (lim := st.nCm + 2 * cx.pu.length) (List.prefix_refl _) (by omega) r) (f1 r))
  have hXt : ∀ r, X .exp pc.den r = t r := fun r => hX _ _ _ (ExpVal.mono (O.trace_le b2 b3 (ch := [u, dv, ga, be]) (ch4 := [u, dv, ga, be]) (lim := st.nCm + 2 * cx.pu.length) (List.prefix_refl _) (by omega) r) (f2 r))
  have hargs : ∀ id, id = pc.num ∨ id = pc.den → id ∈ (inOf st st' cx S q ce fe).argIds := fun id hid => by
    unfold Map.In.argIds
    refine List.mem_append.mpr (.inr (List.mem_flatMap.mpr ⟨pc, hm, ?_⟩))
    simpa using hid
  obtain ⟨colF, lf, k1, k2, k3, k4, k5⟩ := getExp O hS (hargs _ (.inl rfl)) (v := f) fun col h r hr => by rw [← hXf]; exact hold _ col (.inl rfl) h r hr
  obtain ⟨colT, lt, j1, j2, j3, j4, j5⟩ := getExp O hS (hargs _ (.inr rfl)) (v := t) fun col h r hr => by rw [← hXt]; exact hold _ col (.inr rfl) h r hr
  obtain ⟨href, hwf⟩ := calculateZ_refines lf lt k3 j3
  rw [k5, j5] at href
  have f3' : Stark.calculateZ (rows (2 ^ R.nb) f) (rows (2 ^ R.nb) t) = some A := by convert f3
  rw [f3'] at href
  obtain ⟨lA, m1, m3⟩ := Option.map_eq_some_iff.mp href
  have hdim : ∀ cp, R.pos (st.nCm + 2 * cx.pu.length + n) = some cp → cp.dim = 3 := by
    intro cp hcp
    obtain ⟨cq, g1, -, g3⟩ := C.layout.third (st.nCm + 2 * cx.pu.length + n) (by omega) (by omega)
    obtain rfl := Option.some.inj (g1.symm.trans hcp)
    exact g3
  obtain ⟨-, -, -, -, -, -, -, p1, q1, -⟩ := O.col (k := st.nCm + 2 * cx.pu.length + n) (by omega)
  obtain ⟨c1, s1, s2, s3, s4⟩ := write_sync O hS (by omega) (by omega) q1 hdim (hwf _ m1) (fun h => by omega) (v := fun r => A.getD r 0)
    (m3.trans (getD_rows f4)) f6
  refine ⟨c1, ?_, s2, s3, s4⟩
  unfold productStep
  dsimp only
  rw [k2, Option.bind_some, j2, Option.bind_some, m1, Option.bind_some,
    show (o.info T.nConst).cmN = o.st.cmN from rfl, q1, Option.bind_some, s1, Option.map_some]
  rfl

/-- a loop -/
theorem foldlM_steps {α β : Type} {f : β → α → Option β} {I : Nat → β → Prop} {l : List α} (h : ∀ n x s, l[n]? = some x → I n s → ∃ s', f s x = some s' ∧ I (n + 1) s') {s : β}
    (hs : I 0 s) : ∃ s', l.foldlM f s = some s' ∧ I l.length s' := by
  have key : ∀ (m : List α) (k : Nat) (s : β), (∀ n x s, m[n]? = some x → I (k + n) s → ∃ s', f s x = some s' ∧ I (k + n + 1) s') → I k s →
      ∃ s', m.foldlM f s = some s' ∧ I (k + m.length) s' := by
    intro m
    induction m with
    | nil => exact fun k s _ hs => ⟨s, rfl, hs⟩
    | cons x m ih =>
      intro k s h hs
      obtain ⟨s1, h1, h2⟩ := h 0 x s rfl hs
      obtain ⟨s2, h3, h4⟩ := ih (k + 1) s1 (fun n y s hn hI => by
        obtain ⟨s', g1, g2⟩ := h (n + 1) y s (by simpa using hn) (by rw [show k + (n + 1) = k + 1 + n by omega]; exact hI)
        exact ⟨s', g1, by rw [show k + 1 + n + 1 = k + (n + 1) + 1 by omega]; exact g2⟩) h2
      refine ⟨s2, by rw [List.foldlM_cons, h1]; exact h3, ?_⟩
      rw [List.length_cons, show k + (m.length + 1) = k + 1 + m.length by omega]
      exact h4
  obtain ⟨s', h1, h2⟩ := key l 0 s (fun n x s hn hI => by
    rw [Nat.zero_add] at hI ⊢
    exact h n x s hn hI) hs
  exact ⟨s', h1, by rw [Nat.zero_add] at h2; exact h2⟩

/-- all lookups -/
theorem lookups_fold (O : Circ R T S l1 st st' a cx lims fuel P q ce fe fuelM o lit) (hF : Facts R (withCm T b2 b3) S st st' cx u dv ga be)
    (hX : ∀ id r v, ExpVal (fieldOps K) st'.exps (traceStore R (withCm T b2 b3) [u, dv, ga, be] r) false id v → X .exp id r = v)
    (side : ∀ n pc id col, cx.pu[n]? = some pc → id = pc.fExp ∨ id = pc.tExp → (layN (inOf st st' cx S q ce fe) o T.nConst (2 ^ R.nb) lit).col .exp id = some col →
      o.dim (st.nCm + 2 * n) = some col.dim)
    (hS : Sync R T o (withCm T b2 b3) [u, dv, ga, be] ch st.nCm zi c)
    (hold : ∀ pc ∈ cx.pu, ∀ id col, id = pc.fExp ∨ id = pc.tExp → (layN (inOf st st' cx S q ce fe) o T.nConst (2 ^ R.nb) lit).col .exp id = some col →
      ∀ r < 2 ^ R.nb, Hold c.mem col r (X .exp id r)) :
    ∃ c', cx.pu.foldlM (lookupStep (o.info T.nConst) fun id => o.st.exp2pol.lookup id) (c, st.nCm) = some (c', st.nCm + 2 * cx.pu.length) ∧
      Sync R T o (withCm T b2 b3) [u, dv, ga, be] ch (st.nCm + 2 * cx.pu.length) zi c' ∧
      (∀ ty id col, (layN (inOf st st' cx S q ce fe) o T.nConst (2 ^ R.nb) lit).col ty id = some col → ∀ r, Same c.mem c'.mem col r) ∧
      c'.mem .cm1_n = c.mem .cm1_n := by
  obtain ⟨⟨c', k⟩, h1, h2, h3, h4, h5⟩ := foldlM_steps (l := cx.pu) (f := lookupStep (o.info T.nConst) fun id => o.st.exp2pol.lookup id)
    (I := fun n s => s.2 = st.nCm + 2 * n ∧ Sync R T o (withCm T b2 b3) [u, dv, ga, be] ch (st.nCm + 2 * n) zi s.1 ∧
      (∀ ty id col, (layN (inOf st st' cx S q ce fe) o T.nConst (2 ^ R.nb) lit).col ty id = some col → ∀ r, Same c.mem s.1.mem col r) ∧ s.1.mem .cm1_n = c.mem .cm1_n)
    (fun n pc s hn => by
      rintro ⟨i1, i2, i3, i4⟩
      obtain ⟨c1, k⟩ := s
      dsimp only at i1 i2 i3 i4
      subst i1
      obtain ⟨c2, g1, g2, g3, g4⟩ := lookup_step O hF hX hn (side n pc · · hn) i2 fun id col hid hcol r hr =>
        Hold.congr (O.lay hcol).2.1 (i3 _ id col hcol r) (hold pc (List.mem_of_getElem? hn) id col hid hcol r hr)
      exact ⟨_, g1, rfl, g2, fun ty id col hcol r j hj => (g3 ty id col hcol r j hj).trans (i3 ty id col hcol r j hj), g4.trans i4⟩)
    (s := (c, st.nCm)) ⟨rfl, hS, fun _ _ _ _ _ _ _ => rfl, rfl⟩
  dsimp only at h2 h3 h4 h5
  subst h2
  exact ⟨c', h1, h3, h4, h5⟩

/-- all grand products -/
theorem products_fold (O : Circ R T S l1 st st' a cx lims fuel P q ce fe fuelM o lit) (hF : Facts R (withCm T b2 b3) S st st' cx u dv ga be)
    (hX : ∀ id r v, ExpVal (fieldOps K) st'.exps (traceStore R (withCm T b2 b3) [u, dv, ga, be] r) false id v → X .exp id r = v)
    (hS : Sync R T o (withCm T b2 b3) [u, dv, ga, be] ch (st.nCm + 2 * cx.pu.length) zi c)
    (hold : ∀ pc ∈ cx.pu ++ cx.pe ++ cx.ci, ∀ id col, id = pc.num ∨ id = pc.den → (layN (inOf st st' cx S q ce fe) o T.nConst (2 ^ R.nb) lit).col .exp id = some col →
      ∀ r < 2 ^ R.nb, Hold c.mem col r (X .exp id r)) :
    ∃ c', (cx.pu ++ cx.pe ++ cx.ci).foldlM (productStep (o.info T.nConst) fun id => o.st.exp2pol.lookup id) (c, st.nCm + 2 * cx.pu.length) = some (c', R.nCm) ∧
      Sync R T o (withCm T b2 b3) [u, dv, ga, be] ch R.nCm zi c' ∧
      (∀ ty id col, (layN (inOf st st' cx S q ce fe) o T.nConst (2 ^ R.nb) lit).col ty id = some col → ∀ r, Same c.mem c'.mem col r) ∧
      c'.mem .cm1_n = c.mem .cm1_n := by
  have hcnt := O.circ.count
  obtain ⟨e1, -, -, -⟩ := genArgs_ctx O.circ.gen
  obtain ⟨⟨c', k⟩, h1, h2, h3, h4, h5⟩ := foldlM_steps (l := cx.pu ++ cx.pe ++ cx.ci) (f := productStep (o.info T.nConst) fun id => o.st.exp2pol.lookup id)
    (I := fun n s => s.2 = st.nCm + 2 * cx.pu.length + n ∧ Sync R T o (withCm T b2 b3) [u, dv, ga, be] ch (st.nCm + 2 * cx.pu.length + n) zi s.1 ∧
      (∀ ty id col, (layN (inOf st st' cx S q ce fe) o T.nConst (2 ^ R.nb) lit).col ty id = some col → ∀ r, Same c.mem s.1.mem col r) ∧ s.1.mem .cm1_n = c.mem .cm1_n)
    (fun n pc s hn => by
      rintro ⟨i1, i2, i3, i4⟩
      obtain ⟨c1, k⟩ := s
      dsimp only at i1 i2 i3 i4
      subst i1
      obtain ⟨c2, g1, g2, g3, g4⟩ := product_step O hF hX hn i2 fun id col hid hcol r hr =>
        Hold.congr (O.lay hcol).2.1 (i3 _ id col hcol r) (hold pc (List.mem_of_getElem? hn) id col hid hcol r hr)
      exact ⟨_, g1, rfl, g2, fun ty id col hcol r j hj => (g3 ty id col hcol r j hj).trans (i3 ty id col hcol r j hj), g4.trans i4⟩)
    (s := (c, st.nCm + 2 * cx.pu.length)) ⟨rfl, hS, fun _ _ _ _ _ _ _ => rfl, rfl⟩
  dsimp only at h2 h3 h4 h5
  have hk : st.nCm + 2 * cx.pu.length + (cx.pu ++ cx.pe ++ cx.ci).length = R.nCm := by omega
  rw [hk] at h2 h3
  subst h2
  exact ⟨c', h1, h3, h4, h5⟩

end

end Verif.Stage
