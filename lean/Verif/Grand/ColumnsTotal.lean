import Verif.Grand.ColumnsExist

/-!
# The computation of the columns succeeds
-/
set_option linter.unusedSectionVars false

namespace Verif.Grand
open Codegen Codegen.Spec Stark ImPols ImPols.Spec FFT Fri
open Verif.GL (F)
open Verif.Ext3 (K coord)

variable {R : Run} {T : Trace} {S : Finset Nat} {l1 : Option Nat} {st st' : PilSt K} {a : Args} {cx : ArgCtx} {lims : List Lim} {fuel : Nat} {P : Progs}

/-- Given the values of the two sides of every lookup and permutation and of the columns of every connection, and the lookup columns, the computation
succeeds when no denominator vanishes. -/
theorem columns_some (C : ArgCircuit R T S l1 st st' a cx lims fuel P) {N : Nat} (hNe : N = 2 ^ R.nb) {x : Nat → K} (hx : x = fun i => mgK R.nb ^ i)
    {c1 fx : Nat → Nat → Option K} (hc1 : c1 = trCm R T []) (hfx : fx = trFx R T) (init2 init3 : FftP.Buf F) {u dv β γ : K}
    {ld pd : LookupId → Nat} {cd : ConnId → Nat} {lf lt pf pt : LookupId → List (Nat → K)} {lsF lsT psF psT : LookupId → Nat → K}
    {cf cs : ConnId → List (Nat → K)} {h1 h2 : LookupId → List K}
    (hlk : ∀ pi ∈ a.plookups,
      Sides st.exps N (rowStore N (sections st.nCm st.nCm c1 (fun _ _ => none) fun _ _ => none) fx R.publics [] x) (ld pi) pi (lf pi) (lt pi) (lsF pi) (lsT pi) ∧
      NextRow st.exps N (rowStore N (sections st.nCm st.nCm c1 (fun _ _ => none) fun _ _ => none) fx R.publics [] x) (ld pi) pi (lt pi) (lsT pi) ∧
      Contained N (lf pi) (lt pi) (lsF pi) (lsT pi))
    (hpm : ∀ pi ∈ a.permutations,
      Sides st.exps N (rowStore N (sections st.nCm st.nCm c1 (fun _ _ => none) fun _ _ => none) fx R.publics [] x) (pd pi) pi (pf pi) (pt pi) (psF pi) (psT pi) ∧
      selected N (pf pi) (psF pi) = selected N (pt pi) (psT pi))
    (hcn : ∀ ci ∈ a.connections,
      List.Forall₂ (Col st.exps N (rowStore N (sections st.nCm st.nCm c1 (fun _ _ => none) fun _ _ => none) fx R.publics [] x) (cd ci)) ci.pols (cf ci) ∧
      List.Forall₂ (Col st.exps N (rowStore N (sections st.nCm st.nCm c1 (fun _ _ => none) fun _ _ => none) fx R.publics [] x) (cd ci)) ci.conns (cs ci) ∧
      Connected N (algebraMap F K) x (cf ci) (cs ci))
    (hh : ∀ pi ∈ a.plookups, h1h2 (rows N (fVal u dv (lf pi) (lt pi) (lsF pi) (lsT pi))) (rows N (tVal u dv (lt pi) (lsT pi))) = some (h1 pi, h2 pi) ∧
      (h1 pi).length = N ∧ (h2 pi).length = N)
    (hB : ∀ pi ∈ a.permutations, ∀ i < N, tVal u dv (pt pi) (psT pi) i + β ≠ 0)
    (hG1 : ∀ pi ∈ a.plookups, ∀ i < N, plookupDen β γ ((h1 pi).getD i 0) ((h2 pi).getD i 0) ((h1 pi).getD (nxt N i) 0) ≠ 0)
    (hG2 : ∀ ci ∈ a.connections, ∀ i < N,
      ((List.range (cf ci).length).map fun j => (tuple (cf ci) i).getD j 0 + β * (tuple (cs ci) i).getD j 0 + γ).prod ≠ 0) :
    ∃ b2 b3, columns R T st.nCm P cx S init2 init3 u dv γ β = some (b2, b3) := by
  classical
  have hN : 0 < N := by rw [hNe]; positivity
  obtain ⟨more, hmore⟩ := (genArgs_ext C.gen).1.1
  obtain ⟨n1, n2, n3, -⟩ := genArgs_ctx C.gen
  obtain ⟨LK, hLK⟩ : ∃ LK : Nat → LookupId, LK = fun n => if h : n < a.plookups.length then a.plookups[n] else ⟨[], [], none, none⟩ := ⟨_, rfl⟩
  have hLKg : ∀ n < a.plookups.length, a.plookups[n]? = some (LK n) ∧ LK n ∈ a.plookups := by
    intro n hn
    rw [hLK]
    dsimp only
    rw [dif_pos hn]
    exact ⟨List.getElem?_eq_getElem hn, List.getElem_mem hn⟩
  -- the lookup columns
  have st2 : ∀ i, stageStore R T [u, dv] st.nCm i = rowStore N (sections st.nCm st.nCm c1 (trCm R T [u, dv]) fun _ _ => none) fx R.publics [u, dv] x i := by
    intro i
    rw [stage_rows, stage_sections C rfl rfl [u, dv] (le_refl _), hNe, hx, hc1, hfx]
  have hside : ∀ n c, cx.pu[n]? = some c → ∀ i < N,
      ExpVal (fieldOps K) st'.exps (stageStore R T [u, dv] st.nCm i) false c.fExp (fVal u dv (lf (LK n)) (lt (LK n)) (lsF (LK n)) (lsT (LK n)) i) ∧
      ExpVal (fieldOps K) st'.exps (stageStore R T [u, dv] st.nCm i) false c.tExp (tVal u dv (lt (LK n)) (lsT (LK n)) i) := by
    intro n c hc i hi
    have hn : n < a.plookups.length := by have := (List.getElem?_eq_some_iff.mp hc).1; omega
    obtain ⟨hpi, hm⟩ := hLKg n hn
    obtain ⟨l, c', g0, gc, gh1, gh2, gz, g1, g2, g3, g4, g5, g6, -, -⟩ := genArgs_plookup C.gen hpi
    rw [hc] at gc
    obtain rfl := Option.some.inj gc
    obtain ⟨k1, k2, k3⟩ := hlk _ hm
    have ks : Sides st'.exps N (rowStore N (sections st.nCm st.nCm c1 (trCm R T [u, dv]) fun _ _ => none) fx R.publics [u, dv] x) (ld (LK n)) (LK n)
      (lf (LK n)) (lt (LK n)) (lsF (LK n)) (lsT (LK n)) := by rw [← hmore]; exact k1.up
    rw [st2]
    exact ⟨expVal_of (v_fSideP (chal := [u, dv]) rfl rfl ks hi g1 g2), expVal_of (v_tSide (chal := [u, dv]) rfl rfl ks hi g1)⟩
  obtain ⟨b2, hb2, hcol2⟩ := cm2_exist C init2 (u := u) (dv := dv) (f := fun n => fVal u dv (lf (LK n)) (lt (LK n)) (lsF (LK n)) (lsT (LK n)))
    (t := fun n => tVal u dv (lt (LK n)) (lsT (LK n))) (A := fun n => h1 (LK n)) (B := fun n => h2 (LK n))
    (fun n c hc i hi => (hside n c hc i (by omega)).1) (fun n c hc i hi => (hside n c hc i (by omega)).2)
    (fun n hn => by rw [← hNe]; exact hh _ (hLKg n hn).2)
    (fun n hn => by rw [← hNe]; exact h1h2_mem (hh _ (hLKg n hn).2).1 (hh _ (hLKg n hn).2).2.1 (hh _ (hLKg n hn).2).2.2)
  rw [← hNe] at hcol2
  -- the grand products
  obtain ⟨c2, hc2⟩ : ∃ c2, c2 = trCm R (withCm T b2 init3) [u, dv, γ, β] := ⟨_, rfl⟩
  have hfx3 : trFx R (withCm T b2 init3) = fx := by rw [hfx]; rfl
  have st3 : ∀ i, stageStore R (withCm T b2 init3) [u, dv, γ, β] (st.nCm + 2 * a.plookups.length) i =
      rowStore N (sections st.nCm (st.nCm + 2 * a.plookups.length) c1 c2 fun _ _ => none) fx R.publics [u, dv, γ, β] x i := by
    intro i
    rw [stage_rows, stage_sections C (T' := withCm T b2 init3) rfl rfl [u, dv, γ, β] (by omega), hNe, hx, hc1, hfx3, hc2]
  have hle := C.layout.le
  have hc2v : ∀ n < a.plookups.length, ∀ i < N, c2 (st.nCm + 2 * n) i = some ((h1 (LK n)).getD i 0) ∧ c2 (st.nCm + 2 * n + 1) i = some ((h2 (LK n)).getD i 0) := by
    intro n hn i hi
    obtain ⟨p1, g1, -⟩ := C.layout.second (st.nCm + 2 * n) (by omega) (by omega)
    obtain ⟨p2, g2, -⟩ := C.layout.second (st.nCm + 2 * n + 1) (by omega) (by omega)
    obtain ⟨q1, q2⟩ := hcol2 n hn p1 p2 g1 g2 i hi
    have him : i % 2 ^ R.nb = i := Nat.mod_eq_of_lt (by omega)
    rw [hc2, C.col (T' := withCm T b2 init3) rfl [u, dv, γ, β] (by omega) g1, C.col (T' := withCm T b2 init3) rfl [u, dv, γ, β] (by omega) g2,
      if_neg (by omega), if_pos (by omega), if_neg (by omega), if_pos (by omega), (withCm_sec _ _ _ _).2.1, him]
    exact ⟨congrArg some q1, congrArg some q2⟩
  obtain ⟨z3, hz3⟩ := zs_exist C b2 init3 (u := u) (dv := dv) (ga := γ) (be := β) (fun n c hc => by
    simp only [st3, ← hNe]
    by_cases hn1 : n < cx.pu.length
    · rw [List.append_assoc, List.getElem?_append_left hn1] at hc
      have hn : n < a.plookups.length := by omega
      obtain ⟨hpi, hm⟩ := hLKg n hn
      obtain ⟨l, c', g0, gc, gh1, gh2, gz, g1, g2, g3, g4, g5, g6, -, -⟩ := genArgs_plookup C.gen hpi
      rw [hc] at gc
      obtain rfl := Option.some.inj gc
      obtain ⟨k1, k2, k3⟩ := hlk _ hm
      obtain ⟨m1, m2, m3⟩ := hh _ hm
      obtain ⟨z, hz⟩ := z_exists hN (lookup_products hN m1 β γ) (hG1 _ hm)
      refine ⟨_, _, z, fun i hi => lookup_num (chal := [u, dv, γ, β]) (u := u) (dv := dv) (γ := γ) (β := β) rfl rfl rfl rfl (d := ld (LK n)) (by rw [← hmore]; exact k1.up)
        (by rw [← hmore]; exact k2.up) g1 g2 g4 hi, fun i hi => lookup_den (chal := [u, dv, γ, β]) (γ := γ) (β := β) (a := fun i => (h1 (LK n)).getD i 0) (b := fun i => (h2 (LK n)).getD i 0) hN rfl rfl g5 ?_ ?_ hi, hz, z_length hN hz⟩
      · intro i hi
        unfold sections
        rw [if_neg (by omega), if_pos (by omega), gh1]
        exact (hc2v n hn i hi).1
      · intro i hi
        unfold sections
        rw [if_neg (by omega), if_pos (by omega), gh2]
        exact (hc2v n hn i hi).2
    · rw [List.append_assoc, List.getElem?_append_right (by omega)] at hc
      by_cases hn2 : n - cx.pu.length < cx.pe.length
      · rw [List.getElem?_append_left hn2] at hc
        have hlt : n - cx.pu.length < a.permutations.length := by omega
        have hpi := List.getElem?_eq_getElem hlt
        obtain ⟨pi, hpi'⟩ : ∃ pi, pi = a.permutations[n - cx.pu.length] := ⟨_, rfl⟩
        rw [← hpi'] at hpi
        have hm : pi ∈ a.permutations := List.mem_of_getElem? hpi
        obtain ⟨l, c', g0, gc, gz, g1, g2, g3, g4, g5, g6, -, -⟩ := genArgs_perm C.gen hpi
        rw [hc] at gc
        obtain rfl := Option.some.inj gc
        obtain ⟨k1, k2⟩ := hpm pi hm
        obtain ⟨z, hz⟩ := z_exists hN (perm_products k1.boolF k1.boolT k2 u dv β) (hB pi hm)
        have ks : Sides st'.exps N (rowStore N (sections st.nCm (st.nCm + 2 * a.plookups.length) c1 c2 fun _ _ => none) fx R.publics [u, dv, γ, β] x) (pd pi) pi
          (pf pi) (pt pi) (psF pi) (psT pi) := by rw [← hmore]; exact k1.up
        have key := fun i (hi : i < N) => perm_numden (chal := [u, dv, γ, β]) (u := u) (dv := dv) (β := β) rfl rfl rfl ks g1 g2 g4 g5 hi
        exact ⟨_, _, z, fun i hi => (key i hi).1, fun i hi => (key i hi).2, hz, z_length hN hz⟩
      · rw [List.getElem?_append_right (by omega)] at hc
        have hlt : n - cx.pu.length - cx.pe.length < a.connections.length := by
          have := (List.getElem?_eq_some_iff.mp hc).1
          omega
        have hpi := List.getElem?_eq_getElem hlt
        obtain ⟨ci, hpi'⟩ : ∃ ci, ci = a.connections[n - cx.pu.length - cx.pe.length] := ⟨_, rfl⟩
        rw [← hpi'] at hpi
        have hm : ci ∈ a.connections := List.mem_of_getElem? hpi
        obtain ⟨k1, k2, π, hπ⟩ := hcn ci hm
        have hf' : List.Forall₂ (Col st'.exps N (rowStore N (sections st.nCm (st.nCm + 2 * a.plookups.length) c1 c2 fun _ _ => none) fx R.publics (u :: dv :: γ :: β :: []) x) (cd ci)) ci.pols (cf ci) := by
          rw [← hmore]; exact k1.imp fun _ _ => col_up
        have hs' : List.Forall₂ (Col st'.exps N (rowStore N (sections st.nCm (st.nCm + 2 * a.plookups.length) c1 c2 fun _ _ => none) fx R.publics (u :: dv :: γ :: β :: []) x) (cd ci)) ci.conns (cs ci) := by
          rw [← hmore]; exact k2.imp fun _ _ => col_up
        obtain ⟨l, c', g0, gc, gz, g1, g2, -, -, -, -, hv⟩ := conn_values (map_one _) C.gen hpi hf' hs'
        rw [hc] at gc
        obtain rfl := Option.some.inj gc
        obtain ⟨z, hz⟩ := z_exists hN (conn_products (N := N) (m := (cf ci).length) (f := fun i j => (tuple (cf ci) i).getD j 0)
          (s := fun i j => (tuple (cs ci) i).getD j 0) (lab := fun i j => label (algebraMap F K) x j i) π (fun c => (hπ c).1) (fun c => (hπ c).2) β γ)
          (hG2 ci hm)
        exact ⟨_, _, z, fun i hi => expVal_of (hv i hi).1, fun i hi => expVal_of (hv i hi).2, hz, z_length hN hz⟩)
  obtain ⟨b3, hb3⟩ := ims_exist C b2 z3 u dv γ β
  refine ⟨b2, b3, ?_⟩
  unfold columns
  rw [hb2, Option.bind_some, hz3, Option.bind_some, hb3]
  rfl

/-- **The prover computes the columns.**  If the table fulfils the relations of the PIL then, for all `u` and `defVal`, for all `β`, `γ` outside small
sets the computation of the columns of the second and third round does not panic. -/
theorem columns_exist (C : ArgCircuit R T S l1 st st' a cx lims fuel P)
    (h : Fulfils (algebraMap F K) st a (2 ^ R.nb) (trCm R T []) (trFx R T) R.publics fun i => mgK R.nb ^ i) (init2 init3 : FftP.Buf F) (u dv : K) :
    ∃ B : Finset K, B.card ≤ 2 ^ R.nb * a.permutations.length + 1 ∧ ∀ β ∉ B,
      ∃ G : Finset K, G.card ≤ 2 * 2 ^ R.nb * a.plookups.length + 2 ^ R.nb * (a.connections.map fun c => c.pols.length).sum ∧ ∀ γ ∉ G,
      ∃ b2 b3, columns R T st.nCm P cx S init2 init3 u dv γ β = some (b2, b3) := by
  classical
  obtain ⟨N, hNe⟩ : ∃ N, N = 2 ^ R.nb := ⟨_, rfl⟩
  have hN : 0 < N := by rw [hNe]; positivity
  obtain ⟨x, hx⟩ : ∃ x : Nat → K, x = fun i => mgK R.nb ^ i := ⟨_, rfl⟩
  rw [← hNe, ← hx] at h
  obtain ⟨c1, hc1⟩ : ∃ c1, c1 = trCm R T [] := ⟨_, rfl⟩
  obtain ⟨fx, hfx⟩ : ∃ fx, fx = trFx R T := ⟨_, rfl⟩
  rw [← hc1, ← hfx] at h
  have hlk : ∀ pi, ∃ d fv tv sF sT, pi ∈ a.plookups →
      (Sides st.exps N (rowStore N (sections st.nCm st.nCm c1 (fun _ _ => none) fun _ _ => none) fx R.publics [] x) d pi fv tv sF sT ∧
      NextRow st.exps N (rowStore N (sections st.nCm st.nCm c1 (fun _ _ => none) fun _ _ => none) fx R.publics [] x) d pi tv sT ∧
      Contained N fv tv sF sT) := by
    intro pi
    by_cases hp : pi ∈ a.plookups
    · obtain ⟨d, fv, tv, sF, sT, h⟩ := h.lookup pi hp
      exact ⟨d, fv, tv, sF, sT, fun _ => h⟩
    · exact ⟨0, [], [], fun _ => 0, fun _ => 0, fun h => absurd h hp⟩
  choose ld lf lt lsF lsT hlk using hlk
  have hpm : ∀ pi, ∃ d fv tv sF sT, pi ∈ a.permutations →
      (Sides st.exps N (rowStore N (sections st.nCm st.nCm c1 (fun _ _ => none) fun _ _ => none) fx R.publics [] x) d pi fv tv sF sT ∧
      selected N fv sF = selected N tv sT) := by
    intro pi
    by_cases hp : pi ∈ a.permutations
    · obtain ⟨d, fv, tv, sF, sT, h⟩ := h.perm pi hp
      exact ⟨d, fv, tv, sF, sT, fun _ => h⟩
    · exact ⟨0, [], [], fun _ => 0, fun _ => 0, fun h => absurd h hp⟩
  choose pd pf pt psF psT hpm using hpm
  have hcn : ∀ ci, ∃ d fv sv, ci ∈ a.connections →
      (List.Forall₂ (Col st.exps N (rowStore N (sections st.nCm st.nCm c1 (fun _ _ => none) fun _ _ => none) fx R.publics [] x) d) ci.pols fv ∧
      List.Forall₂ (Col st.exps N (rowStore N (sections st.nCm st.nCm c1 (fun _ _ => none) fun _ _ => none) fx R.publics [] x) d) ci.conns sv ∧
      Connected N (algebraMap F K) x fv sv) := by
    intro ci
    by_cases hp : ci ∈ a.connections
    · obtain ⟨d, fv, sv, h⟩ := h.conn ci hp
      exact ⟨d, fv, sv, fun _ => h⟩
    · exact ⟨0, [], [], fun h => absurd h hp⟩
  choose cd cf cs hcn using hcn
  have hh : ∀ pi, ∃ p q : List K, pi ∈ a.plookups →
      (h1h2 (rows N (fVal u dv (lf pi) (lt pi) (lsF pi) (lsT pi))) (rows N (tVal u dv (lt pi) (lsT pi))) = some (p, q) ∧ p.length = N ∧ q.length = N) := by
    intro pi
    by_cases hp : pi ∈ a.plookups
    · obtain ⟨p, q, e⟩ := lookup_h1h2 (hlk pi hp).1.boolF (hlk pi hp).2.2 u dv
      exact ⟨p, q, fun _ => e⟩
    · exact ⟨[], [], fun h => absurd h hp⟩
  choose h1 h2 hh using hh
  rw [← hNe]
  -- the exceptional challenges
  obtain ⟨B, hBc, hB⟩ := union_bad (fun pi β => ∀ i < N, tVal u dv (pt pi) (psT pi) i + β * 1 ≠ 0) (fun _ => N) a.permutations
    fun pi _ => bad_linear N 1 one_ne_zero _
  refine ⟨insert (-1) B, (Finset.card_insert_le _ _).trans ?_, fun β hβ => ?_⟩
  · have : (a.permutations.map fun _ => N).sum = N * a.permutations.length := by simp [mul_comm]
    omega
  rw [Finset.mem_insert, not_or] at hβ
  have hβ1 : 1 + β ≠ 0 := fun h => hβ.1 (by linear_combination h)
  obtain ⟨G1, hG1c, hG1⟩ := union_bad (fun pi γ => ∀ i < N, plookupDen β γ ((h1 pi).getD i 0) ((h2 pi).getD i 0) ((h1 pi).getD (nxt N i) 0) ≠ 0)
    (fun _ => 2 * N) a.plookups fun pi _ => bad_lookup N hβ1 (fun i => (h1 pi).getD i 0) (fun i => (h2 pi).getD i 0)
  obtain ⟨G2, hG2c, hG2⟩ := union_bad (fun ci γ => ∀ i < N,
      ((List.range (cf ci).length).map fun j => (tuple (cf ci) i).getD j 0 + β * (tuple (cs ci) i).getD j 0 + γ).prod ≠ 0)
    (fun ci => N * ci.pols.length) a.connections fun ci hci => by
      have e := (hcn ci hci).1.length_eq
      rw [e]
      exact bad_conn N _ fun i j => (tuple (cf ci) i).getD j 0 + β * (tuple (cs ci) i).getD j 0
  refine ⟨G1 ∪ G2, (Finset.card_union_le _ _).trans ?_, fun γ hγ => ?_⟩
  · have e1 : (a.plookups.map fun _ => 2 * N).sum = 2 * N * a.plookups.length := by simp [mul_comm]
    have e2 : (a.connections.map fun ci => N * ci.pols.length).sum = N * (a.connections.map fun c => c.pols.length).sum := by
      rw [← List.sum_map_mul_left]
    omega
  rw [Finset.mem_union, not_or] at hγ
  exact columns_some C hNe hx hc1 hfx init2 init3 hlk hpm hcn hh (fun pi hm i hi => by simpa using hB pi hm β hβ.2 i hi)
    (fun pi hm => hG1 pi hm γ hγ.1) (fun ci hm => hG2 ci hm γ hγ.2)

end Verif.Grand
