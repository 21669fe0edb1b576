import Verif.Grand.ColumnsExist

/-!
# What the successful computation of the columns says, in terms of the finished trace

From `columns R T … = some (b2, b3)`: the values of the expressions of every argument at every row, the results of `calculate_H1H2` and `calculate_Z`,
and the values of the intermediate polynomials, all as columns of the trace `withCm T b2 b3`.
-/
set_option linter.unusedSectionVars false

namespace Verif.Stage
open Codegen Codegen.Spec Verif.Stark ImPols ImPols.Spec FFT Fri Verif.Grand
open Verif.GL (F)
open Verif.Ext3 (K coord)

variable {R : Run} {T : Trace} {S : Finset Nat} {l1 : Option Nat} {st st' : PilSt K} {a : Args} {cx : ArgCtx} {lims : List Lim} {fuel : Nat} {P : Progs}

theorem h1h2_lengths {N : Nat} {f t : Nat → K} {A B : List K} (h : h1h2 (rows N f) (rows N t) = some (A, B)) : A.length = N ∧ B.length = N := by
  by_cases hin : ∀ e ∈ rows N f, e ∈ rows N t
  · obtain ⟨a, b, e1, e2, e3, -⟩ := h1h2_spec (rows N f) (rows N t) (by simp [rows]) hin
    rw [h] at e1
    obtain ⟨rfl, rfl⟩ := Prod.mk.inj (Option.some.inj e1)
    simp only [rows, List.length_map, List.length_range] at e2 e3
    exact ⟨e2, e3⟩
  · push Not at hin
    obtain ⟨e, he, hn⟩ := hin
    rw [h1h2_missing _ _ e he hn] at h
    cases h

/-- the columns of the lookups -/
theorem cm2_spec (C : ArgCircuit R T S l1 st st' a cx lims fuel P) {init2 b2 : FftP.Buf F} {u dv : K}
    (h : cm2Of R T st.nCm P cx init2 u dv = some b2) {n : Nat} {c : PCtx} (hc : cx.pu[n]? = some c) :
    ∃ (f t : Nat → K) (A B : List K) (p1 p2 : ColPos),
      (∀ i, ExpVal (fieldOps K) st'.exps (stageStore R T [u, dv] st.nCm i) false c.fExp (f i)) ∧
      (∀ i, ExpVal (fieldOps K) st'.exps (stageStore R T [u, dv] st.nCm i) false c.tExp (t i)) ∧
      h1h2 (rows (2 ^ R.nb) f) (rows (2 ^ R.nb) t) = some (A, B) ∧ A.length = 2 ^ R.nb ∧ B.length = 2 ^ R.nb ∧
      R.pos (st.nCm + 2 * n) = some p1 ∧ R.pos (st.nCm + 2 * n + 1) = some p2 ∧
      ∀ r < 2 ^ R.nb, colB b2 p1 (T.width 2) r = A.getD r 0 ∧ colB b2 p2 (T.width 2) r = B.getD r 0 := by
  obtain ⟨more, hsc, hall, hlk, -⟩ := genArgs_scoped C.gen C.sc (fun l hl => (C.l1c l hl).1) C.args C.bounds
  obtain ⟨c2, c3, ci, hg2, -, -, hP⟩ := genProgs_split C.progs
  obtain ⟨e1, -, -, -⟩ := genArgs_ctx C.gen
  have hle := C.layout.le
  have hcov : ∀ i, Covers T.nConst R.publics.length (stageStore R T [u, dv] st.nCm i) ⟨st.nCm, 2, false⟩ :=
    fun i => covers_stage (fun k hk r => C.has (T' := T) rfl [u, dv] (by omega) r) (le_refl 2) i
  have hbt : ∀ c ∈ cx.pu, Bnd (lims ++ more) c.tExp st.nCm 2 false := fun c hc => by
    obtain ⟨m, h1, h2, h3, -⟩ := (hlk c hc).2
    exact ⟨m, h1, h2, h3, by simp⟩
  have hb2 : ∀ r ∈ reqs2 cx, Bnd (lims ++ more) r.id st.nCm 2 false := by
    intro r hr
    obtain ⟨-, c, hc, h | h⟩ := reqs2_mem hr
    · rw [h]; exact (hlk c hc).1
    · rw [h]; exact hbt c hc
  obtain ⟨σs, hrun, hread⟩ := run_spec hsc hcov (fun r hr => (reqs2_mem hr).1) hb2 C.fuel hg2
  have hvals : ∀ n : Nat, ∃ (f t : Nat → K) (AB : List K × List K), ∀ c, cx.pu[n]? = some c →
      (∀ i, ExpVal (fieldOps K) st'.exps (stageStore R T [u, dv] st.nCm i) false c.fExp (f i)) ∧
      (∀ i, ExpVal (fieldOps K) st'.exps (stageStore R T [u, dv] st.nCm i) false c.tExp (t i)) ∧
      h1h2 (rows (2 ^ R.nb) f) (rows (2 ^ R.nb) t) = some AB := by
    intro n
    by_cases hn : n < cx.pu.length
    · have hc : cx.pu[n]? = some cx.pu[n] := List.getElem?_eq_getElem hn
      have hm := List.mem_of_getElem? hc
      obtain ⟨f, hf⟩ := bnd_choose hsc hcov (hlk _ hm).1
      obtain ⟨t, ht⟩ := bnd_choose hsc hcov (hbt _ hm)
      have h' := h
      unfold cm2Of at h'
      rw [hP] at h'
      dsimp only at h'
      rw [hrun, Option.bind_some] at h'
      obtain ⟨ws, hws, -⟩ := Option.bind_eq_some_iff.mp h'
      obtain ⟨-, hget⟩ := mapM_get hws
      obtain ⟨w, hw, -⟩ := hget n (cx.pu[n], n) (idxGet hc)
      dsimp only at hw
      unfold h1h2Cols at hw
      obtain ⟨p1, g1, hw⟩ := Option.bind_eq_some_iff.mp hw
      obtain ⟨p2, g2, hw⟩ := Option.bind_eq_some_iff.mp hw
      have rf := readExp_rows (hread { id := cx.pu[n].fExp } (by unfold reqs2; exact List.mem_flatMap.mpr ⟨_, hm, by simp⟩) f fun i _ => hf i) p1.dim
      have rt := readExp_rows (hread { id := cx.pu[n].tExp } (by unfold reqs2; exact List.mem_flatMap.mpr ⟨_, hm, by simp⟩) t fun i _ => ht i) p1.dim
      dsimp only at rf rt
      have hbase : p1.dim = 1 → ∀ i, Base (f i) ∧ Base (t i) := by
        intro hd i
        obtain ⟨-, h3⟩ := C.dims.pair n _ p1 p2 hc g1 g2
        obtain ⟨h4, h5⟩ := h3 hd
        exact ⟨trace_base C.dims.num C.dims.publics (fun k c hk => (C.fit k c hk).1) (hf i) h4,
          trace_base C.dims.num C.dims.publics (fun k c hk => (C.fit k c hk).1) (ht i) h5⟩
      have ef : (rows (2 ^ R.nb) fun i => stored p1.dim (f i)) = rows (2 ^ R.nb) f :=
        List.map_congr_left fun i _ => stored_base fun hd => (hbase hd i).1
      have et : (rows (2 ^ R.nb) fun i => stored p1.dim (t i)) = rows (2 ^ R.nb) t :=
        List.map_congr_left fun i _ => stored_base fun hd => (hbase hd i).2
      rw [rf, Option.bind_some, rt, Option.bind_some, ef, et] at hw
      obtain ⟨AB, hAB, -⟩ := Option.map_eq_some_iff.mp hw
      refine ⟨f, t, AB, fun c hc' => ?_⟩
      obtain rfl := Option.some.inj (hc.symm.trans hc')
      exact ⟨hf, ht, hAB⟩
    · exact ⟨fun _ => 0, fun _ => 0, ([], []), fun c hc => absurd (List.getElem?_eq_some_iff.mp hc).1 hn⟩
  choose f t AB hv using hvals
  have hh : ∀ n < a.plookups.length, h1h2 (rows (2 ^ R.nb) (f n)) (rows (2 ^ R.nb) (t n)) = some ((AB n).1, (AB n).2) ∧ (AB n).1.length = 2 ^ R.nb ∧
      (AB n).2.length = 2 ^ R.nb := by
    intro n hn
    have hc : cx.pu[n]? = some cx.pu[n] := List.getElem?_eq_getElem (by omega)
    have := (hv n _ hc).2.2
    exact ⟨this, h1h2_lengths this⟩
  obtain ⟨b2', hb, hcol⟩ := cm2_exist C init2 (f := f) (t := t) (A := fun n => (AB n).1) (B := fun n => (AB n).2) (fun n c hc i _ => (hv n c hc).1 i)
    (fun n c hc i _ => (hv n c hc).2.1 i) hh fun n hn x hx => h1h2_mem (hh n hn).1 (hh n hn).2.1 (hh n hn).2.2 x hx
  obtain rfl : b2' = b2 := Option.some.inj (hb.symm.trans h)
  have hn : n < a.plookups.length := by have := (List.getElem?_eq_some_iff.mp hc).1; omega
  obtain ⟨p1, g1, -⟩ := C.layout.second (st.nCm + 2 * n) (by omega) (by omega)
  obtain ⟨p2, g2, -⟩ := C.layout.second (st.nCm + 2 * n + 1) (by omega) (by omega)
  exact ⟨f n, t n, (AB n).1, (AB n).2, p1, p2, (hv n c hc).1, (hv n c hc).2.1, (hh n hn).1, (hh n hn).2.1, (hh n hn).2.2, g1, g2, fun r hr => hcol n hn p1 p2 g1 g2 r hr⟩

/-- Specification: the trace `TF` with the challenges `u, dv, ga, be` holds the columns of the second and third round. -/
structure Facts (R : Run) (TF : Trace) (S : Finset Nat) (st st' : PilSt K) (cx : ArgCtx) (u dv ga be : K) : Prop where
  lookup : ∀ (n : Nat) (c : PCtx), cx.pu[n]? = some c → ∃ (f t : Nat → K) (A B : List K),
    (∀ i, ExpVal (fieldOps K) st'.exps (stageStore R TF [u, dv] st.nCm i) false c.fExp (f i)) ∧
    (∀ i, ExpVal (fieldOps K) st'.exps (stageStore R TF [u, dv] st.nCm i) false c.tExp (t i)) ∧
    h1h2 (rows (2 ^ R.nb) f) (rows (2 ^ R.nb) t) = some (A, B) ∧ A.length = 2 ^ R.nb ∧ B.length = 2 ^ R.nb ∧
    ∀ r < 2 ^ R.nb, trCm R TF [u, dv, ga, be] (st.nCm + 2 * n) r = some (A.getD r 0) ∧ trCm R TF [u, dv, ga, be] (st.nCm + 2 * n + 1) r = some (B.getD r 0)
  product : ∀ (n : Nat) (c : PCtx), (cx.pu ++ cx.pe ++ cx.ci)[n]? = some c → ∃ (num den : Nat → K) (z : List K),
    (∀ i, ExpVal (fieldOps K) st'.exps (stageStore R TF [u, dv, ga, be] (st.nCm + 2 * cx.pu.length) i) false c.num (num i)) ∧
    (∀ i, ExpVal (fieldOps K) st'.exps (stageStore R TF [u, dv, ga, be] (st.nCm + 2 * cx.pu.length) i) false c.den (den i)) ∧
    calculateZ (rows (2 ^ R.nb) num) (rows (2 ^ R.nb) den) = some z ∧ z.length = 2 ^ R.nb ∧
    ∀ r < 2 ^ R.nb, trCm R TF [u, dv, ga, be] (st.nCm + 2 * cx.pu.length + n) r = some (z.getD r 0)
  im : ∀ (n k : Nat), (S.sort (· ≤ ·))[n]? = some k → ∃ v : Nat → K,
    (∀ i, ExpVal (fieldOps K) st'.exps (stageStore R TF [u, dv, ga, be] R.nCm i) false k (v i)) ∧
    ∀ r < 2 ^ R.nb, trCm R TF [u, dv, ga, be] (R.nCm + n) r = some (v r)

theorem columns_facts (C : ArgCircuit R T S l1 st st' a cx lims fuel P) {init2 init3 b2 b3 : FftP.Buf F} {u dv ga be : K}
    (h : columns R T st.nCm P cx S init2 init3 u dv ga be = some (b2, b3)) : Facts R (withCm T b2 b3) S st st' cx u dv ga be := by
  obtain ⟨h2, z3, hz3, hb3⟩ := columns_split h
  have hle := C.layout.le
  have hN : 0 < 2 ^ R.nb := by positivity
  obtain ⟨e1, -, -, -⟩ := genArgs_ctx C.gen
  have hcnt := C.count
  have hfxs : ∀ T' : Trace, T'.nConst = T.nConst → T'.fixed = T.fixed → trFx R T' = trFx R (withCm T b2 b3) := by
    intro T' g1 g2
    funext k r
    simp only [trFx, traceStore, g1, g2]
    rfl
  obtain ⟨i1, i2⟩ := ims_spec C hb3
  have le1 : ∀ i t k p v, stageStore R T [u, dv] st.nCm i t k p = some v → stageStore R (withCm T b2 b3) [u, dv] st.nCm i t k p = some v := fun i =>
    stage_le (le_refl _) (fun k hk r => C.same (T2 := withCm T b2 b3) rfl rfl (by omega) (by rw [if_pos hk, (withCm_sec _ _ _ _).1]; rfl) r) (hfxs T rfl rfl) (List.prefix_refl _) i
  have le2 : ∀ i t k p v, stageStore R (withCm T b2 init3) [u, dv, ga, be] (st.nCm + 2 * a.plookups.length) i t k p = some v →
      stageStore R (withCm T b2 b3) [u, dv, ga, be] (st.nCm + 2 * a.plookups.length) i t k p = some v := fun i =>
    stage_le (le_refl _) (fun k hk r => C.same (T1 := withCm T b2 init3) (T2 := withCm T b2 b3) rfl rfl (by omega) (by
      rw [if_pos hk]
      by_cases g : k < st.nCm
      · rw [if_pos g, (withCm_sec _ _ _ _).1, (withCm_sec _ _ _ _).1]
      · rw [if_neg g, (withCm_sec _ _ _ _).2.1, (withCm_sec _ _ _ _).2.1]) r) (hfxs (withCm T b2 init3) rfl rfl) (List.prefix_refl _) i
  have le3 : ∀ i t k p v, stageStore R (withCm T b2 z3) [u, dv, ga, be] R.nCm i t k p = some v →
      stageStore R (withCm T b2 b3) [u, dv, ga, be] R.nCm i t k p = some v := fun i =>
    stage_le (le_refl _) (fun k hk r => by
      by_cases g : k < st.nCm + 2 * a.plookups.length
      · refine C.same (T1 := withCm T b2 z3) (T2 := withCm T b2 b3) rfl rfl (by omega) ?_ r
        rw [if_pos g]
        by_cases g1 : k < st.nCm
        · rw [if_pos g1, (withCm_sec _ _ _ _).1, (withCm_sec _ _ _ _).1]
        · rw [if_neg g1, (withCm_sec _ _ _ _).2.1, (withCm_sec _ _ _ _).2.1]
      · obtain ⟨c, g1, -⟩ := C.pos (k := k) (by omega)
        rw [C.col (T' := withCm T b2 z3) rfl _ (by omega) g1, C.col (T' := withCm T b2 b3) rfl _ (by omega) g1, if_neg (by omega), if_neg g,
          (withCm_sec _ _ _ _).2.2, (withCm_sec _ _ _ _).2.2]
        exact congrArg some (i2 k c (by omega) hk g1 _).symm) (hfxs (withCm T b2 z3) rfl rfl) (List.prefix_refl _) i
  refine ⟨fun n c hc => ?_, fun n c hc => ?_, fun n k hk => ?_⟩
  · obtain ⟨f, t, A, B, p1, p2, g1, g2, g3, g4, g5, g6, g7, g8⟩ := cm2_spec C h2 hc
    have hn : n < a.plookups.length := by have := (List.getElem?_eq_some_iff.mp hc).1; omega
    refine ⟨f, t, A, B, fun i => ExpVal.mono (le1 i) (g1 i), fun i => ExpVal.mono (le1 i) (g2 i), g3, g4, g5, fun r hr => ?_⟩
    rw [C.col (T' := withCm T b2 b3) rfl _ (by omega) g6, C.col (T' := withCm T b2 b3) rfl _ (by omega) g7, if_neg (by omega), if_pos (by omega), if_neg (by omega), if_pos (by omega),
      (withCm_sec _ _ _ _).2.1, Nat.mod_eq_of_lt hr]
    exact ⟨congrArg some (g8 r hr).1, congrArg some (g8 r hr).2⟩
  · obtain ⟨num, den, z, p, g1, g2, g3, g4, g5, g6⟩ := zs_spec C hz3 hc
    have hn := (List.getElem?_eq_some_iff.mp hc).1
    rw [e1]
    refine ⟨num, den, z, fun i => ExpVal.mono (le2 i) (g1 i), fun i => ExpVal.mono (le2 i) (g2 i), g3, z_length hN g3, fun r hr => ?_⟩
    rw [C.col (T' := withCm T b2 b3) rfl _ (by omega) g5, if_neg (by omega), if_neg (by omega), (withCm_sec _ _ _ _).2.2, Nat.mod_eq_of_lt hr]
    rw [i2 _ p (by omega) (by omega) g5 r]
    exact congrArg some (g6 r hr)
  · obtain ⟨v, p, g1, g2, g3⟩ := i1 n k hk
    have hn : n < S.card := by have := (List.getElem?_eq_some_iff.mp hk).1; rw [Finset.length_sort] at this; exact this
    refine ⟨v, fun i => ExpVal.mono (le3 i) (g1 i), fun r hr => ?_⟩
    rw [C.col (T' := withCm T b2 b3) rfl _ (by omega) g2, if_neg (by omega), if_neg (by omega), (withCm_sec _ _ _ _).2.2, Nat.mod_eq_of_lt hr]
    exact congrArg some (g3 r hr)

end Verif.Stage
