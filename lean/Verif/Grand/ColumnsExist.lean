import Verif.Grand.ColumnsProps
import Verif.Grand.CompleteProps

/-!
# The prover computes the columns

When the arguments of the PIL are fulfilled, the computation of the columns of the second and third round succeeds unless a challenge falls into a
small set.
-/
set_option linter.unusedSectionVars false

namespace Verif.Grand
open Codegen Codegen.Spec Stark ImPols ImPols.Spec FFT Fri
open Verif.GL (F)
open Verif.Ext3 (K coord)

variable {R : Run} {T : Trace} {S : Finset Nat} {l1 : Option Nat} {st st' : PilSt K} {a : Args} {cx : ArgCtx} {lims : List Lim} {fuel : Nat} {P : Progs}

/-! ### Members of the lookup columns -/

theorem interleave_mem {E : Type} : ∀ {a b : List E}, a.length = b.length → ∀ x, x ∈ a ∨ x ∈ b → x ∈ interleave a b
  | [], [], _, x, h => by simp at h
  | [], _ :: _, h, _, _ => by simp at h
  | _ :: _, [], h, _, _ => by simp at h
  | p :: a, q :: b, h, x, hx => by
    simp only [interleave, List.mem_cons]
    rcases hx with hx | hx
    · rcases List.mem_cons.mp hx with rfl | hx
      · exact .inl rfl
      · exact .inr (.inr (interleave_mem (by simpa using h) x (.inl hx)))
    · rcases List.mem_cons.mp hx with rfl | hx
      · exact .inr (.inl rfl)
      · exact .inr (.inr (interleave_mem (by simpa using h) x (.inr hx)))

theorem flatten_pairs {α : Type} {Q : Nat → α → Prop} : ∀ (ws : List (List α)) (o : Nat),
    (∀ (n : Nat) (w : List α), ws[n]? = some w → ∃ x y, w = [x, y] ∧ Q (o + 2 * n) x ∧ Q (o + 2 * n + 1) y) →
    ∀ (j : Nat) (x : α), ws.flatten[j]? = some x → Q (o + j) x
  | [], o, _, j, x, hx => by simp at hx
  | w :: ws, o, h, j, x, hx => by
    obtain ⟨p, q, rfl, h1, h2⟩ := h 0 w rfl
    match j with
    | 0 =>
      simp at hx
      subst hx
      simpa using h1
    | 1 =>
      simp at hx
      subst hx
      simpa using h2
    | j + 2 =>
      have := flatten_pairs ws (o + 2) (fun n w hw => by
        obtain ⟨x, y, g1, g2, g3⟩ := h (n + 1) w (by simpa using hw)
        exact ⟨x, y, g1, by rw [show o + 2 + 2 * n = o + 2 * (n + 1) by omega]; exact g2,
          by rw [show o + 2 + 2 * n + 1 = o + 2 * (n + 1) + 1 by omega]; exact g3⟩) j x (by simpa using hx)
      rw [show o + (j + 2) = o + 2 + j by omega]
      exact this

theorem mapM_exists {α β : Type} {f : α → Option β} : ∀ {l : List α}, (∀ a ∈ l, ∃ b, f a = some b) → ∃ ws, l.mapM f = some ws
  | [], _ => ⟨[], rfl⟩
  | x :: l, h => by
    obtain ⟨b, hb⟩ := h x (by simp)
    obtain ⟨ws, hw⟩ := mapM_exists (l := l) fun a ha => h a (by simp [ha])
    exact ⟨b :: ws, by rw [List.mapM_cons, hb, hw]; rfl⟩

/-- the lookup columns are computed and read back -/
theorem cm2_exist (C : ArgCircuit R T S l1 st st' a cx lims fuel P) (init2 : FftP.Buf F) {u dv : K} {f t : Nat → Nat → K} {A B : Nat → List K}
    (hf : ∀ n c, cx.pu[n]? = some c → ∀ i < 2 ^ R.nb, ExpVal (fieldOps K) st'.exps (stageStore R T [u, dv] st.nCm i) false c.fExp (f n i))
    (ht : ∀ n c, cx.pu[n]? = some c → ∀ i < 2 ^ R.nb, ExpVal (fieldOps K) st'.exps (stageStore R T [u, dv] st.nCm i) false c.tExp (t n i))
    (hh : ∀ n < a.plookups.length, h1h2 (rows (2 ^ R.nb) (f n)) (rows (2 ^ R.nb) (t n)) = some (A n, B n) ∧ (A n).length = 2 ^ R.nb ∧ (B n).length = 2 ^ R.nb)
    (hsub : ∀ n < a.plookups.length, ∀ x, x ∈ A n ∨ x ∈ B n → ∃ i < 2 ^ R.nb, x = f n i ∨ x = t n i) :
    ∃ b2, cm2Of R T st.nCm P cx init2 u dv = some b2 ∧ ∀ n < a.plookups.length, ∀ p1 p2, R.pos (st.nCm + 2 * n) = some p1 →
      R.pos (st.nCm + 2 * n + 1) = some p2 → ∀ r < 2 ^ R.nb, colB b2 p1 (T.width 2) r = (A n).getD r 0 ∧ colB b2 p2 (T.width 2) r = (B n).getD r 0 := by
  obtain ⟨more, hsc, hall, hlk, -⟩ := genArgs_scoped C.gen C.sc (fun l hl => (C.l1c l hl).1) C.args C.bounds
  obtain ⟨c2, c3, ci, hg2, -, -, hP⟩ := genProgs_split C.progs
  obtain ⟨e1, -, -, -⟩ := genArgs_ctx C.gen
  have hle := C.layout.le
  have hcov : ∀ i, Covers T.nConst R.publics.length (stageStore R T [u, dv] st.nCm i) ⟨st.nCm, 2, false⟩ :=
    fun i => covers_stage (fun k hk r => C.has (T' := T) rfl [u, dv] (by omega) r) (le_refl 2) i
  have hb2 : ∀ r ∈ reqs2 cx, Bnd (lims ++ more) r.id st.nCm 2 false := by
    intro r hr
    obtain ⟨-, c, hc, h | h⟩ := reqs2_mem hr
    · rw [h]; exact (hlk c hc).1
    · rw [h]
      obtain ⟨m, h1, h2, h3, -⟩ := (hlk c hc).2
      exact ⟨m, h1, h2, h3, by simp⟩
  obtain ⟨σs, hrun, hread⟩ := run_spec hsc hcov (fun r hr => (reqs2_mem hr).1) hb2 C.fuel hg2
  have hpos : ∀ n < a.plookups.length, ∃ p1 p2, R.pos (st.nCm + 2 * n) = some p1 ∧ R.pos (st.nCm + 2 * n + 1) = some p2 ∧ p1.tree = 2 ∧ p2.tree = 2 := by
    intro n hn
    obtain ⟨p1, g1, g2⟩ := C.layout.second (st.nCm + 2 * n) (by omega) (by omega)
    obtain ⟨p2, g3, g4⟩ := C.layout.second (st.nCm + 2 * n + 1) (by omega) (by omega)
    exact ⟨p1, p2, g1, g3, g2, g4⟩
  have hbase : ∀ n c p1 p2, cx.pu[n]? = some c → R.pos (st.nCm + 2 * n) = some p1 → R.pos (st.nCm + 2 * n + 1) = some p2 → p1.dim = 1 →
      ∀ i < 2 ^ R.nb, Base (f n i) ∧ Base (t n i) := by
    intro n c p1 p2 hc h1 h2 hd i hi
    obtain ⟨-, h3⟩ := C.dims.pair n c p1 p2 hc h1 h2
    obtain ⟨h4, h5⟩ := h3 hd
    exact ⟨trace_base C.dims.num C.dims.publics (fun k c hk => (C.fit k c hk).1) (hf n c hc i hi) h4,
      trace_base C.dims.num C.dims.publics (fun k c hk => (C.fit k c hk).1) (ht n c hc i hi) h5⟩
  have hcols : ∀ n c, cx.pu[n]? = some c → ∃ p1 p2, R.pos (st.nCm + 2 * n) = some p1 ∧ R.pos (st.nCm + 2 * n + 1) = some p2 ∧
      h1h2Cols R st.nCm σs c n = some [(p1, A n), (p2, B n)] := by
    intro n c hc
    have hn : n < a.plookups.length := by have := (List.getElem?_eq_some_iff.mp hc).1; omega
    obtain ⟨p1, p2, g1, g2, -, -⟩ := hpos n hn
    refine ⟨p1, p2, g1, g2, ?_⟩
    have hm := List.mem_of_getElem? hc
    have rf := readExp_rows (hread { id := c.fExp } (by unfold reqs2; exact List.mem_flatMap.mpr ⟨c, hm, by simp⟩) (f n) (hf n c hc)) p1.dim
    have rt := readExp_rows (hread { id := c.tExp } (by unfold reqs2; exact List.mem_flatMap.mpr ⟨c, hm, by simp⟩) (t n) (ht n c hc)) p1.dim
    dsimp only at rf rt
    have ef : (rows (2 ^ R.nb) fun i => stored p1.dim (f n i)) = rows (2 ^ R.nb) (f n) :=
      List.map_congr_left fun i hi => stored_base fun hd => (hbase n c p1 p2 hc g1 g2 hd i (List.mem_range.mp hi)).1
    have et : (rows (2 ^ R.nb) fun i => stored p1.dim (t n i)) = rows (2 ^ R.nb) (t n) :=
      List.map_congr_left fun i hi => stored_base fun hd => (hbase n c p1 p2 hc g1 g2 hd i (List.mem_range.mp hi)).2
    unfold h1h2Cols
    rw [g1, Option.bind_some, g2, Option.bind_some, rf, Option.bind_some, rt, Option.bind_some, ef, et, (hh n hn).1]
    rfl
  obtain ⟨ws, hws⟩ : ∃ ws, (cx.pu.zipIdx.mapM fun cn => h1h2Cols R st.nCm σs cn.1 cn.2) = some ws := mapM_exists fun x hx => by
    obtain ⟨j, hj⟩ := List.getElem?_of_mem hx
    obtain ⟨g1, g2⟩ := idxBack hj
    rw [g2]
    obtain ⟨p1, p2, -, -, h⟩ := hcols j x.1 g1
    exact ⟨_, h⟩
  have hw : ∀ (n : Nat) (w : List (ColPos × List K)), ws[n]? = some w → n < a.plookups.length ∧ ∃ p1 p2, R.pos (st.nCm + 2 * n) = some p1 ∧
      R.pos (st.nCm + 2 * n + 1) = some p2 ∧ w = [(p1, A n), (p2, B n)] := by
    intro n w hn
    obtain ⟨x, h1, h2⟩ := mapM_back hws hn
    obtain ⟨g1, g2⟩ := idxBack h1
    rw [g2] at h2
    obtain ⟨p1, p2, g3, g4, h⟩ := hcols n x.1 g1
    rw [h] at h2
    exact ⟨by have := (List.getElem?_eq_some_iff.mp g1).1; omega, p1, p2, g3, g4, (Option.some.inj h2).symm⟩
  have hflat : ∀ (j : Nat) (x : ColPos × List K), ws.flatten[j]? = some x → st.nCm + j < st.nCm + 2 * a.plookups.length ∧
      R.pos (st.nCm + j) = some x.1 ∧ x.2.length = 2 ^ R.nb :=
    flatten_pairs (Q := fun k x => k < st.nCm + 2 * a.plookups.length ∧ R.pos k = some x.1 ∧ x.2.length = 2 ^ R.nb) ws st.nCm fun n w hn => by
      obtain ⟨h0, p1, p2, g1, g2, rfl⟩ := hw n w hn
      exact ⟨_, _, rfl, ⟨by omega, g1, (hh n h0).2.1⟩, by omega, g2, (hh n h0).2.2⟩
  have hfit : ∀ x ∈ ws.flatten, x.1.pos + x.1.dim ≤ T.width 2 := by
    intro x hx
    obtain ⟨j, hj⟩ := List.getElem?_of_mem hx
    obtain ⟨g1, g2, -⟩ := hflat j x hj
    obtain ⟨p, q1, q2⟩ := C.layout.second (st.nCm + j) (by omega) (by omega)
    obtain rfl : x.1 = p := Option.some.inj (g2.symm.trans q1)
    rw [← q2]
    exact (C.fit _ _ q1).2 (by omega)
  have hdis : (ws.flatten.map Prod.fst).Pairwise Disj := by
    refine pairwise_of_get fun i j x y hij hx hy => ?_
    rw [List.getElem?_map] at hx hy
    obtain ⟨x', hx', rfl⟩ := Option.map_eq_some_iff.mp hx
    obtain ⟨y', hy', rfl⟩ := Option.map_eq_some_iff.mp hy
    obtain ⟨g1, g2, -⟩ := hflat i x' hx'
    obtain ⟨g3, g4, -⟩ := hflat j y' hy'
    obtain ⟨p, q1, q2⟩ := C.layout.second (st.nCm + i) (by omega) (by omega)
    obtain ⟨p', q1', q2'⟩ := C.layout.second (st.nCm + j) (by omega) (by omega)
    obtain rfl : x'.1 = p := Option.some.inj (g2.symm.trans q1)
    obtain rfl : y'.1 = p' := Option.some.inj (g4.symm.trans q1')
    exact C.layout.disj _ _ _ _ (by omega) (by omega) q1 q1' (by omega)
  obtain ⟨b2, hset⟩ := setPols_total (N := 2 ^ R.nb) (w := T.width 2) ws.flatten init2 fun x hx => by
    obtain ⟨j, hj⟩ := List.getElem?_of_mem hx
    obtain ⟨g1, g2, g3⟩ := hflat j x hj
    exact ⟨(C.fit _ _ g2).1, g3.ge⟩
  refine ⟨b2, ?_, fun n hn p1 p2 g1 g2 r hr => ?_⟩
  · unfold cm2Of
    rw [hP]
    dsimp only
    rw [hrun, Option.bind_some, hws, Option.bind_some]
    exact hset
  · have hc : cx.pu[n]? = some cx.pu[n] := List.getElem?_eq_getElem (by omega)
    obtain ⟨-, hget⟩ := mapM_get hws
    obtain ⟨w, hw1, hw2⟩ := hget n (cx.pu[n], n) (idxGet hc)
    obtain ⟨-, q1, q2, h1, h2, rfl⟩ := hw n w hw2
    obtain rfl : p1 = q1 := Option.some.inj (g1.symm.trans h1)
    obtain rfl : p2 = q2 := Option.some.inj (g2.symm.trans h2)
    have hwm := List.mem_of_getElem? hw2
    have hB : p1.dim = 1 → ∀ x, x ∈ A n ∨ x ∈ B n → Base x := by
      intro hd x hx
      obtain ⟨i, hi, rfl | rfl⟩ := hsub n hn x hx
      · exact (hbase n _ p1 p2 hc g1 g2 hd i hi).1
      · exact (hbase n _ p1 p2 hc g1 g2 hd i hi).2
    have hd12 := (C.dims.pair n _ p1 p2 hc g1 g2).1
    have la := (hh n hn).2.1
    have lb := (hh n hn).2.2
    have key : ∀ (l : List K), l.length = 2 ^ R.nb → l.getD r 0 ∈ l := by
      intro l hl
      rw [List.getD_eq_getElem?_getD, List.getElem?_eq_getElem (by omega)]
      exact List.getElem_mem _
    exact ⟨setPols_same ws.flatten _ _ hset hfit hdis (p1, A n) (List.mem_flatten.mpr ⟨_, hwm, by simp⟩) r hr fun hd => hB hd _ (.inl (key _ la)),
      setPols_same ws.flatten _ _ hset hfit hdis (p2, B n) (List.mem_flatten.mpr ⟨_, hwm, by simp⟩) r hr fun hd =>
        hB (by rw [hd12]; exact hd) _ (.inr (key _ lb))⟩


/-- the grand products are computed -/
theorem zs_exist (C : ArgCircuit R T S l1 st st' a cx lims fuel P) (b2 init3 : FftP.Buf F) {u dv ga be : K}
    (hv : ∀ (n : Nat) (c : PCtx), (cx.pu ++ cx.pe ++ cx.ci)[n]? = some c → ∃ (num den : Nat → K) (z : List K),
      (∀ i < 2 ^ R.nb, ExpVal (fieldOps K) st'.exps (stageStore R (withCm T b2 init3) [u, dv, ga, be] (st.nCm + 2 * a.plookups.length) i) false c.num (num i)) ∧
      (∀ i < 2 ^ R.nb, ExpVal (fieldOps K) st'.exps (stageStore R (withCm T b2 init3) [u, dv, ga, be] (st.nCm + 2 * a.plookups.length) i) false c.den (den i)) ∧
      calculateZ (rows (2 ^ R.nb) num) (rows (2 ^ R.nb) den) = some z ∧ z.length = 2 ^ R.nb) :
    ∃ z3, cm3Zs R (withCm T b2 init3) st.nCm P cx init3 u dv ga be = some z3 := by
  obtain ⟨more, hsc, hall, -, hfr⟩ := genArgs_scoped C.gen C.sc (fun l hl => (C.l1c l hl).1) C.args C.bounds
  obtain ⟨c2, c3, ci, -, hg3, -, hP⟩ := genProgs_split C.progs
  obtain ⟨e1, -, -, -⟩ := genArgs_ctx C.gen
  have hle := C.layout.le
  have hcnt := C.count
  have hsc' : Scoped (withCm T b2 init3).nConst R.publics.length st'.exps (lims ++ more) := hsc
  have hcov : ∀ i, Covers (withCm T b2 init3).nConst R.publics.length
      (stageStore R (withCm T b2 init3) [u, dv, ga, be] (st.nCm + 2 * a.plookups.length) i) ⟨st.nCm + 2 * a.plookups.length, 4, false⟩ :=
    fun i => covers_stage (fun k hk r => C.has (T' := withCm T b2 init3) rfl [u, dv, ga, be] (by omega) r) (le_refl 4) i
  have hb3 : ∀ r ∈ reqs3 cx, Bnd (lims ++ more) r.id (st.nCm + 2 * a.plookups.length) 4 false := by
    intro r hr
    obtain ⟨-, c, hc, h | h⟩ := reqs3_mem hr
    · rw [h]; exact (hfr c hc).1
    · rw [h]; exact (hfr c hc).2.1
  obtain ⟨σs, hrun, hread⟩ := run_spec hsc' hcov (fun r hr => (reqs3_mem hr).1) hb3 C.fuel hg3
  have hcols : ∀ (n : Nat) (c : PCtx), (cx.pu ++ cx.pe ++ cx.ci)[n]? = some c → ∃ (p : ColPos) (z : List K), p.dim = 3 ∧ z.length = 2 ^ R.nb ∧
      zCols R σs c (st.nCm + 2 * a.plookups.length + n) = some (p, z) := by
    intro n c hc
    obtain ⟨num, den, z, hn, hd, hz, hl⟩ := hv n c hc
    have hlt := (List.getElem?_eq_some_iff.mp hc).1
    obtain ⟨p, q1, q2, q3⟩ := C.layout.third (st.nCm + 2 * a.plookups.length + n) (by omega) (by omega)
    have hmem := List.mem_of_getElem? hc
    have rn := readExp_rows (hread { id := c.num } (by unfold reqs3; exact List.mem_flatMap.mpr ⟨c, hmem, by simp⟩) num hn) 3
    have rd := readExp_rows (hread { id := c.den } (by unfold reqs3; exact List.mem_flatMap.mpr ⟨c, hmem, by simp⟩) den hd) 3
    dsimp only at rn rd
    refine ⟨p, z, q3, hl, ?_⟩
    unfold zCols
    rw [q1, Option.bind_some, rn, rd, Option.bind_some, Option.bind_some, stored_three_rows, stored_three_rows, hz]
    rfl
  obtain ⟨ws, hws⟩ : ∃ ws, ((cx.pu ++ cx.pe ++ cx.ci).zipIdx.mapM fun cn => zCols R σs cn.1 (st.nCm + 2 * a.plookups.length + cn.2)) = some ws :=
    mapM_exists fun x hx => by
      obtain ⟨j, hj⟩ := List.getElem?_of_mem hx
      obtain ⟨g1, g2⟩ := idxBack hj
      rw [g2]
      obtain ⟨p, z, -, -, h⟩ := hcols j x.1 g1
      exact ⟨_, h⟩
  obtain ⟨z3, hset⟩ := setPols_total (N := 2 ^ R.nb) (w := T.width 3) ws init3 fun x hx => by
    obtain ⟨j, hj⟩ := List.getElem?_of_mem hx
    obtain ⟨y, h1, h2⟩ := mapM_back hws hj
    obtain ⟨g1, g2⟩ := idxBack h1
    rw [g2] at h2
    obtain ⟨p, z, k1, k2, h⟩ := hcols j y.1 g1
    rw [h] at h2
    obtain rfl := Option.some.inj h2
    exact ⟨.inr k1, k2.ge⟩
  refine ⟨z3, ?_⟩
  unfold cm3Zs
  rw [e1, hP]
  dsimp only
  rw [hrun, Option.bind_some, hws, Option.bind_some]
  exact hset

/-- step 3 always succeeds -/
theorem ims_exist (C : ArgCircuit R T S l1 st st' a cx lims fuel P) (b2 z3 : FftP.Buf F) (u dv ga be : K) :
    ∃ b3, cm3Of R (withCm T b2 z3) P S z3 u dv ga be = some b3 := by
  obtain ⟨more, hsc, hall, -, -⟩ := genArgs_scoped C.gen C.sc (fun l hl => (C.l1c l hl).1) C.args C.bounds
  obtain ⟨c2, c3, ci, -, -, hgi, hP⟩ := genProgs_split C.progs
  have hle := C.layout.le
  have hsc' : Scoped (withCm T b2 z3).nConst R.publics.length st'.exps (lims ++ more) := hsc
  have hcov : ∀ i, Covers (withCm T b2 z3).nConst R.publics.length (stageStore R (withCm T b2 z3) [u, dv, ga, be] R.nCm i) ⟨R.nCm, 4, false⟩ :=
    fun i => covers_stage (fun k hk r => C.has (T' := withCm T b2 z3) rfl [u, dv, ga, be] (by omega) r) (le_refl 4) i
  have hbk : ∀ k ∈ S, Bnd (lims ++ more) k R.nCm 4 false := by
    intro k hk
    have hlt : k < (lims ++ more).length := by rw [hsc.length]; exact C.ims k hk
    obtain ⟨h1, h2⟩ := hall _ (List.getElem_mem hlt)
    exact ⟨_, List.getElem?_eq_getElem hlt, by rw [C.nCm]; exact h1, h2, by simp⟩
  obtain ⟨σs, hrun, hread⟩ := run_spec hsc' hcov (fun r hr => (reqsIm_mem hr).1) (fun r hr => hbk r.id (reqsIm_mem hr).2) C.fuel hgi
  have hlen : (S.sort (· ≤ ·)).length = S.card := Finset.length_sort _
  have hcols : ∀ (n k : Nat), (S.sort (· ≤ ·))[n]? = some k → ∃ (p : ColPos) (z : List K), (p.dim = 1 ∨ p.dim = 3) ∧ z.length = 2 ^ R.nb ∧
      imCols R σs k (R.nCm + n) = some (p, z) := by
    intro n k hk
    have hkS : k ∈ S := by simpa using List.mem_of_getElem? hk
    obtain ⟨v, hv⟩ := bnd_choose hsc' hcov (hbk k hkS)
    have hlt := (List.getElem?_eq_some_iff.mp hk).1
    obtain ⟨p, q1, q2⟩ := C.layout.im (R.nCm + n) (by omega) (by omega)
    have rn := hread { id := k } (by unfold reqsIm; exact List.mem_map.mpr ⟨k, by simpa using hkS, rfl⟩) v fun i _ => hv i
    dsimp only at rn
    refine ⟨p, rows (2 ^ R.nb) v, (C.fit _ _ q1).1, rows_length _ _, ?_⟩
    unfold imCols
    rw [q1, Option.bind_some, rn]
    rfl
  obtain ⟨ws, hws⟩ : ∃ ws, ((S.sort (· ≤ ·)).zipIdx.mapM fun kn => imCols R σs kn.1 (R.nCm + kn.2)) = some ws :=
    mapM_exists fun x hx => by
      obtain ⟨j, hj⟩ := List.getElem?_of_mem hx
      obtain ⟨g1, g2⟩ := idxBack hj
      rw [g2]
      obtain ⟨p, z, -, -, h⟩ := hcols j x.1 g1
      exact ⟨_, h⟩
  obtain ⟨b3, hset⟩ := setPols_total (N := 2 ^ R.nb) (w := T.width 3) ws z3 fun x hx => by
    obtain ⟨j, hj⟩ := List.getElem?_of_mem hx
    obtain ⟨y, h1, h2⟩ := mapM_back hws hj
    obtain ⟨g1, g2⟩ := idxBack h1
    rw [g2] at h2
    obtain ⟨p, z, k1, k2, h⟩ := hcols j y.1 g1
    rw [h] at h2
    obtain rfl := Option.some.inj h2
    exact ⟨k1, k2.ge⟩
  refine ⟨b3, ?_⟩
  unfold cm3Of
  rw [hP]
  dsimp only
  rw [hrun, Option.bind_some, hws, Option.bind_some]
  exact hset

/-! ### Values -/

/-- the columns that a stage can read, by section -/
theorem stage_sections (C : ArgCircuit R T S l1 st st' a cx lims fuel P) {T' : Trace} (hw : T'.width = T.width) (h1 : T'.cm1 = T.cm1) (ch : List K)
    {lim : Nat} (hlim : st.nCm ≤ lim) : stageCm R T' ch lim = sections st.nCm lim (trCm R T []) (trCm R T' ch) fun _ _ => none := by
  have hle := C.layout.le
  funext k r
  unfold stageCm sections
  by_cases g : k < st.nCm
  · rw [if_neg (by omega), if_pos g]
    exact C.same hw rfl (by omega) (by rw [if_pos g]; exact h1) r
  · rw [if_neg g]
    by_cases g' : k < lim
    · rw [if_neg (by omega), if_pos g']
    · rw [if_pos (by omega), if_neg g']

theorem expVal_of {exps : List (Expr K)} {σ : Store K} {d id : Nat} {v : K} (h : Val (fieldOps K) exps σ d false (eExp id) v) :
    ExpVal (fieldOps K) exps σ false id v := by
  obtain ⟨d', e, rfl, -, he, hv⟩ := i_exp h
  exact ⟨d', e, he, by simpa using hv⟩

section
variable {exps : List (Expr K)} {N : Nat} {cm fx : Nat → Nat → Option K} {pub chal : List K} {x : Nat → K}

theorem lookup_num {u dv γ β : K} (h0 : chal[0]? = some u) (h1 : chal[1]? = some dv) (h2 : chal[2]? = some γ)
    (h3 : chal[3]? = some β) {d : Nat} {pi : LookupId} {fv tv : List (Nat → K)} {sF sT : Nat → K}
    (hs : Sides exps N (rowStore N cm fx pub chal x) d pi fv tv sF sT) (hnx : NextRow exps N (rowStore N cm fx pub chal x) d pi tv sT)
    {c : PCtx} (g1 : exps[c.tExp]? = some (select (lcT pi.t) eDef pi.selT))
    (g2 : exps[c.fExp]? = some (select (lcF pi.f) (eExp c.tExp) pi.selF)) 
    (g4 : exps[c.num]? = some (lookupNum c.fExp c.tExp)) {i : Nat} (hi : i < N) :
    ExpVal (fieldOps K) exps (rowStore N cm fx pub chal x i) false c.num
      (plookupNum β γ (fVal u dv fv tv sF sT i) (tVal u dv tv sT i) (tVal u dv tv sT (nxt N i))) := by
  have hf := v_fSideP h0 h1 hs hi g1 g2
  have ht : Val (fieldOps K) exps (rowStore N cm fx pub chal x i) (d + 2) false (eExp c.tExp) (tVal u dv tv sT i) :=
    Stark.val_depth (v_tSide h0 h1 hs hi g1) (by omega)
  have ht' : Val (fieldOps K) exps (rowStore N cm fx pub chal x i) (d + 2) false (eExp c.tExp true) (tVal u dv tv sT (nxt N i)) :=
    Stark.val_depth (v_tSideNext h0 h1 hs hnx hi g1) (by omega)
  have hg : rowStore N cm fx pub chal x i .challenge 2 false = some γ := h2
  have hbe : rowStore N cm fx pub chal x i .challenge 3 false = some β := h3
  exact ⟨_, _, g4, v_mul (v_mul (v_add hf (v_chal hg)) (v_add (v_add ht (v_mul ht' (v_chal hbe)))
    (v_mul (v_chal hg) (v_add (v_num 1) (v_chal hbe))))) (v_add (v_num 1) (v_chal hbe))⟩

theorem lookup_den (hN : 0 < N) {γ β : K} (h2 : chal[2]? = some γ) (h3 : chal[3]? = some β) {c : PCtx}
    (g5 : exps[c.den]? = some (lookupDen c.h1 c.h2)) {a b : Nat → K} (ha : ∀ i < N, cm c.h1 i = some (a i))
    (hb : ∀ i < N, cm c.h2 i = some (b i)) {i : Nat} (hi : i < N) :
    ExpVal (fieldOps K) exps (rowStore N cm fx pub chal x i) false c.den (plookupDen β γ (a i) (b i) (a (nxt N i))) := by
  have hg : rowStore N cm fx pub chal x i .challenge 2 false = some γ := h2
  have hbe : rowStore N cm fx pub chal x i .challenge 3 false = some β := h3
  have e1 : rowStore N cm fx pub chal x i .cm c.h1 false = some (a i) := by
    simp only [rowStore, Bool.false_eq_true, if_false, Nat.add_zero, Nat.mod_eq_of_lt hi]; exact ha i hi
  have e2 : rowStore N cm fx pub chal x i .cm c.h2 false = some (b i) := by
    simp only [rowStore, Bool.false_eq_true, if_false, Nat.add_zero, Nat.mod_eq_of_lt hi]; exact hb i hi
  have e3 : rowStore N cm fx pub chal x i .cm c.h1 true = some (a (nxt N i)) := by
    simp only [rowStore, if_true]; exact ha _ (nxt_lt hN)
  exact ⟨0, _, g5, v_mul (v_add (v_add (v_cm rfl e1) (v_mul (v_cm rfl e2) (v_chal hbe))) (v_mul (v_chal hg) (v_add (v_num 1) (v_chal hbe))))
    (v_add (v_add (v_cm rfl e2) (v_mul (v_cm rfl e3) (v_chal hbe))) (v_mul (v_chal hg) (v_add (v_num 1) (v_chal hbe))))⟩

theorem perm_numden {u dv β : K} (h0 : chal[0]? = some u) (h1 : chal[1]? = some dv) (h3 : chal[3]? = some β)
    {d : Nat} {pi : LookupId} {fv tv : List (Nat → K)} {sF sT : Nat → K}
    (hs : Sides exps N (rowStore N cm fx pub chal x) d pi fv tv sF sT)
    {c : PCtx} (g1 : exps[c.tExp]? = some (select (lcT pi.t) eDef pi.selT))
    (g2 : exps[c.fExp]? = some (select (lcF pi.f) eDef pi.selF))
    (g4 : exps[c.num]? = some (eAdd (eExp c.fExp) eBeta)) (g5 : exps[c.den]? = some (eAdd (eExp c.tExp) eBeta)) {i : Nat} (hi : i < N) :
    ExpVal (fieldOps K) exps (rowStore N cm fx pub chal x i) false c.num (tVal u dv fv sF i + β) ∧
      ExpVal (fieldOps K) exps (rowStore N cm fx pub chal x i) false c.den (tVal u dv tv sT i + β) := by
  have hbe : rowStore N cm fx pub chal x i .challenge 3 false = some β := h3
  exact ⟨⟨_, _, g4, v_add (v_fSide h0 h1 hs hi g2) (v_chal hbe)⟩, ⟨_, _, g5, v_add (v_tSide h0 h1 hs hi g1) (v_chal hbe)⟩⟩

end

theorem z_length {N : Nat} (hN : 0 < N) {num den : Nat → K} {z : List K} (hz : calculateZ (rows N num) (rows N den) = some z) : z.length = N := by
  have hne : rows N num ≠ [] := by
    intro h
    have := congrArg List.length h
    simp [rows_length] at this
    omega
  have hnz : ∀ v ∈ rows N den, v ≠ 0 := by
    rintro v hv rfl
    rw [calculateZ_zero_den _ _ hv] at hz
    simp at hz
  obtain ⟨hlen, -, -⟩ := (calculateZ_spec _ _ (by simp [rows_length]) hne hnz).2 z hz
  rw [hlen, rows_length]

/-- the members of the lookup columns are members of the two sides -/
theorem h1h2_mem {N : Nat} {f t : Nat → K} {A B : List K} (h : h1h2 (rows N f) (rows N t) = some (A, B)) (hA : A.length = N) (hB : B.length = N) :
    ∀ x, x ∈ A ∨ x ∈ B → ∃ i < N, x = f i ∨ x = t i := by
  intro x hx
  have := (h1h2_perm _ _ _ _ (by simp [rows_length]) h).mem_iff.mp (interleave_mem (by omega) x hx)
  rcases List.mem_append.mp this with h | h
  · obtain ⟨i, hi, rfl⟩ := List.mem_map.mp h
    exact ⟨i, List.mem_range.mp hi, .inr rfl⟩
  · obtain ⟨i, hi, rfl⟩ := List.mem_map.mp h
    exact ⟨i, List.mem_range.mp hi, .inl rfl⟩

end Verif.Grand
