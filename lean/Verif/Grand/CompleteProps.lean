import Verif.Grand.Complete

/-!
# Completeness: the prover's columns exist and satisfy all identities
-/
set_option linter.unusedSectionVars false

namespace Verif.Grand
open Codegen Codegen.Spec Stark

variable {A : Type} [Field A] [DecidableEq A]

/-! ### Specification -/

/-- every selected tuple of the looked-up side occurs among the selected tuples of the table -/
def Contained (N : Nat) (fv tv : List (Nat → A)) (sF sT : Nat → A) : Prop :=
  ∀ i < N, sF i = 1 → ∃ j < N, sT j = 1 ∧ tuple fv i = tuple tv j

/-- the connection columns hold the labels of a rearrangement of the cells under which the values do not change -/
def Connected (N : Nat) (emb : GL.F → A) (x : Nat → A) (fv sv : List (Nat → A)) : Prop :=
  ∃ π : Equiv.Perm (Fin N × Fin fv.length), ∀ c : Fin N × Fin fv.length,
    (tuple sv c.1).getD c.2 0 = label emb x (π c).2 (π c).1 ∧ (tuple fv c.1).getD c.2 0 = (tuple fv (π c).1).getD (π c).2 0

/-- The table, with the columns of the first round, fulfils the relations of the PIL: the identities, the lookups, the permutations and the
connections.  (The table columns of a lookup can be read at the next row.) -/
structure Fulfils (emb : GL.F → A) (st : PilSt A) (a : Args) (N : Nat) (c1 fx : Nat → Nat → Option A) (pub : List A) (x : Nat → A) : Prop where
  ids : Holds st N (sections st.nCm st.nCm c1 (fun _ _ => none) fun _ _ => none) fx pub [] x
  lookup : ∀ pi ∈ a.plookups, ∃ d fv tv sF sT,
    Sides st.exps N (rowStore N (sections st.nCm st.nCm c1 (fun _ _ => none) fun _ _ => none) fx pub [] x) d pi fv tv sF sT ∧
    NextRow st.exps N (rowStore N (sections st.nCm st.nCm c1 (fun _ _ => none) fun _ _ => none) fx pub [] x) d pi tv sT ∧
    Contained N fv tv sF sT
  perm : ∀ pi ∈ a.permutations, ∃ d fv tv sF sT,
    Sides st.exps N (rowStore N (sections st.nCm st.nCm c1 (fun _ _ => none) fun _ _ => none) fx pub [] x) d pi fv tv sF sT ∧
    selected N fv sF = selected N tv sT
  conn : ∀ ci ∈ a.connections, ∃ d fv sv,
    List.Forall₂ (Col st.exps N (rowStore N (sections st.nCm st.nCm c1 (fun _ _ => none) fun _ _ => none) fx pub [] x) d) ci.pols fv ∧
    List.Forall₂ (Col st.exps N (rowStore N (sections st.nCm st.nCm c1 (fun _ _ => none) fun _ _ => none) fx pub [] x) d) ci.conns sv ∧
    Connected N emb x fv sv

/-! ### Challenges for which a denominator vanishes -/

theorem union_bad {X : Type} (P : X → A → Prop) (k : X → Nat) : ∀ l : List X, (∀ y ∈ l, ∃ S : Finset A, S.card ≤ k y ∧ ∀ b ∉ S, P y b) →
    ∃ S : Finset A, S.card ≤ (l.map k).sum ∧ ∀ y ∈ l, ∀ b ∉ S, P y b
  | [], _ => ⟨∅, by simp, by simp⟩
  | y :: l, h => by
    obtain ⟨S1, c1, h1⟩ := h y (by simp)
    obtain ⟨S2, c2, h2⟩ := union_bad P k l fun z hz => h z (by simp [hz])
    refine ⟨S1 ∪ S2, (Finset.card_union_le _ _).trans (by simp; omega), ?_⟩
    intro z hz b hb
    rw [Finset.mem_union, not_or] at hb
    rcases List.mem_cons.mp hz with rfl | hz
    · exact h1 b hb.1
    · exact h2 z hz b hb.2

theorem bad_linear (N : Nat) (c : A) (hc : c ≠ 0) (v : Nat → A) : ∃ S : Finset A, S.card ≤ N ∧ ∀ b ∉ S, ∀ i < N, v i + b * c ≠ 0 := by
  refine ⟨(Finset.range N).image fun i => -(v i) / c, Finset.card_image_le.trans (by simp), fun b hb i hi h => hb ?_⟩
  refine Finset.mem_image.mpr ⟨i, Finset.mem_range.mpr hi, ?_⟩
  field_simp
  linear_combination -h

theorem bad_lookup (N : Nat) {β : A} (hβ : 1 + β ≠ 0) (a b : Nat → A) :
    ∃ S : Finset A, S.card ≤ 2 * N ∧ ∀ γ ∉ S, ∀ i < N, plookupDen β γ (a i) (b i) (a (nxt N i)) ≠ 0 := by
  obtain ⟨S1, c1, h1⟩ := bad_linear N (1 + β) hβ fun i => a i + b i * β
  obtain ⟨S2, c2, h2⟩ := bad_linear N (1 + β) hβ fun i => b i + a (nxt N i) * β
  refine ⟨S1 ∪ S2, (Finset.card_union_le _ _).trans (by omega), fun γ hγ i hi => ?_⟩
  rw [Finset.mem_union, not_or] at hγ
  exact mul_ne_zero (h1 γ hγ.1 i hi) (h2 γ hγ.2 i hi)

theorem bad_conn (N m : Nat) (v : Nat → Nat → A) :
    ∃ S : Finset A, S.card ≤ N * m ∧ ∀ γ ∉ S, ∀ i < N, ((List.range m).map fun j => v i j + γ).prod ≠ 0 := by
  refine ⟨(Finset.range N ×ˢ Finset.range m).image fun p => -(v p.1 p.2), Finset.card_image_le.trans (by simp), fun γ hγ i hi h => hγ ?_⟩
  obtain ⟨j, hj, h⟩ := List.mem_map.mp (List.prod_eq_zero_iff.mp h)
  refine Finset.mem_image.mpr ⟨(i, j), by simpa [hi] using hj, ?_⟩
  linear_combination -h

theorem NextRow.up {exps more : List (Expr A)} {n1 n2 : Nat} {c1 c2 c3 : Nat → Nat → Option A} {N : Nat} {fx : Nat → Nat → Option A}
    {pub chal : List A} {x : Nat → A} {d : Nat} {pi : LookupId} {tv : List (Nat → A)} {sT : Nat → A}
    (h : NextRow exps N (rowStore N (sections n1 n1 c1 (fun _ _ => none) fun _ _ => none) fx pub [] x) d pi tv sT) :
    NextRow (exps ++ more) N (rowStore N (sections n1 n2 c1 c2 c3) fx pub chal x) d pi tv sT :=
  ⟨h.t.imp fun _ _ h i hi => v_up (h i hi), fun k hk i hi => v_up (h.sel k hk i hi)⟩

/-- `calculate_H1H2` succeeds on a contained lookup -/
theorem lookup_h1h2 {N : Nat} {fv tv : List (Nat → A)} {sF sT : Nat → A} (hb : ∀ i < N, sF i = 0 ∨ sF i = 1) (h : Contained N fv tv sF sT) (u dv : A) :
    ∃ a b, h1h2 (rows N (fVal u dv fv tv sF sT)) (rows N (tVal u dv tv sT)) = some (a, b) ∧ a.length = N ∧ b.length = N := by
  obtain ⟨a, b, e1, e2, e3, -⟩ := h1h2_spec (rows N (fVal u dv fv tv sF sT)) (rows N (tVal u dv tv sT)) (by simp [rows_length]) (by
    intro e he
    obtain ⟨i, hi, rfl⟩ := List.mem_map.mp he
    rw [List.mem_range] at hi
    rcases hb i hi with h0 | h1
    · exact List.mem_map.mpr ⟨i, List.mem_range.mpr hi, by simp [fVal, h0]⟩
    · obtain ⟨j, hj, hs, ht⟩ := h i hi h1
      exact List.mem_map.mpr ⟨j, List.mem_range.mpr hj, by simp [fVal, h1, tVal, hs, ht]⟩)
  rw [rows_length] at e2 e3
  exact ⟨a, b, e1, e2, e3⟩

/-- **Completeness of the added identities.**  If the table fulfils the relations of the PIL then, for all `u` and `defVal`, there are columns of
the second round (those of `calculate_H1H2`) such that for all `β`, `γ` outside small sets there are columns of the third round (those of
`calculate_Z`) with which all identities of the extended system hold on all rows. -/
theorem args_complete {emb : GL.F → A} (hemb : emb 1 = 1) {l1 : Option Nat} {st st' : PilSt A} {a : Args} {cx : ArgCtx}
    (hgen : genArgs emb l1 st a = some (st', cx)) {N : Nat} (hN : 0 < N) {c1 fx : Nat → Nat → Option A} {pub : List A} {x : Nat → A}
    (hl : ∀ l, l1 = some l → ∀ i < N, fx l i = some (if i = 0 then 1 else 0)) (h : Fulfils emb st a N c1 fx pub x) (u dv : A) :
    ∃ c2 : Nat → Nat → Option A, ∃ B : Finset A, B.card ≤ N * a.permutations.length + 1 ∧ ∀ β ∉ B,
      ∃ G : Finset A, G.card ≤ 2 * N * a.plookups.length + N * (a.connections.map fun c => c.pols.length).sum ∧ ∀ γ ∉ G,
      ∃ c3 : Nat → Nat → Option A, ∀ rest : List A,
        Holds st' N (sections st.nCm (st.nCm + 2 * a.plookups.length) c1 c2 c3) fx pub (u :: dv :: γ :: β :: rest) x := by
  classical
  have hlk : ∀ pi, ∃ d fv tv sF sT, pi ∈ a.plookups →
      (Sides st.exps N (rowStore N (sections st.nCm st.nCm c1 (fun _ _ => none) fun _ _ => none) fx pub [] x) d pi fv tv sF sT ∧
      NextRow st.exps N (rowStore N (sections st.nCm st.nCm c1 (fun _ _ => none) fun _ _ => none) fx pub [] x) d pi tv sT ∧
      Contained N fv tv sF sT) := by
    intro pi
    by_cases hp : pi ∈ a.plookups
    · obtain ⟨d, fv, tv, sF, sT, h⟩ := h.lookup pi hp
      exact ⟨d, fv, tv, sF, sT, fun _ => h⟩
    · exact ⟨0, [], [], fun _ => 0, fun _ => 0, fun h => absurd h hp⟩
  choose ld lf lt lsF lsT hlk using hlk
  have hpm : ∀ pi, ∃ d fv tv sF sT, pi ∈ a.permutations →
      (Sides st.exps N (rowStore N (sections st.nCm st.nCm c1 (fun _ _ => none) fun _ _ => none) fx pub [] x) d pi fv tv sF sT ∧
      selected N fv sF = selected N tv sT) := by
    intro pi
    by_cases hp : pi ∈ a.permutations
    · obtain ⟨d, fv, tv, sF, sT, h⟩ := h.perm pi hp
      exact ⟨d, fv, tv, sF, sT, fun _ => h⟩
    · exact ⟨0, [], [], fun _ => 0, fun _ => 0, fun h => absurd h hp⟩
  choose pd pf pt psF psT hpm using hpm
  have hcn : ∀ ci, ∃ d fv sv, ci ∈ a.connections →
      (List.Forall₂ (Col st.exps N (rowStore N (sections st.nCm st.nCm c1 (fun _ _ => none) fun _ _ => none) fx pub [] x) d) ci.pols fv ∧
      List.Forall₂ (Col st.exps N (rowStore N (sections st.nCm st.nCm c1 (fun _ _ => none) fun _ _ => none) fx pub [] x) d) ci.conns sv ∧
      Connected N emb x fv sv) := by
    intro ci
    by_cases hp : ci ∈ a.connections
    · obtain ⟨d, fv, sv, h⟩ := h.conn ci hp
      exact ⟨d, fv, sv, fun _ => h⟩
    · exact ⟨0, [], [], fun h => absurd h hp⟩
  choose cd cf cs hcn using hcn
  have hh : ∀ pi, ∃ p q : List A, pi ∈ a.plookups →
      (h1h2 (rows N (fVal u dv (lf pi) (lt pi) (lsF pi) (lsT pi))) (rows N (tVal u dv (lt pi) (lsT pi))) = some (p, q) ∧ p.length = N ∧ q.length = N) := by
    intro pi
    by_cases hp : pi ∈ a.plookups
    · obtain ⟨p, q, e⟩ := lookup_h1h2 (hlk pi hp).1.boolF (hlk pi hp).2.2 u dv
      exact ⟨p, q, fun _ => e⟩
    · exact ⟨[], [], fun h => absurd h hp⟩
  choose h1 h2 hh using hh
  refine ⟨fun k i => (a.plookups[(k - st.nCm) / 2]?).bind fun pi => if (k - st.nCm) % 2 = 0 then (h1 pi)[i]? else (h2 pi)[i]?, ?_⟩
  obtain ⟨c2, hc2⟩ : ∃ c2 : Nat → Nat → Option A, c2 = fun k i => (a.plookups[(k - st.nCm) / 2]?).bind fun pi =>
    if (k - st.nCm) % 2 = 0 then (h1 pi)[i]? else (h2 pi)[i]? := ⟨_, rfl⟩
  rw [← hc2]
  obtain ⟨B, hBc, hB⟩ := union_bad (fun pi β => ∀ i < N, tVal u dv (pt pi) (psT pi) i + β * 1 ≠ 0) (fun _ => N) a.permutations
    fun pi _ => bad_linear N 1 one_ne_zero _
  refine ⟨insert (-1) B, (Finset.card_insert_le _ _).trans ?_, fun β hβ => ?_⟩
  · have : (a.permutations.map fun _ => N).sum = N * a.permutations.length := by simp [mul_comm]
    omega
  rw [Finset.mem_insert, not_or] at hβ
  have hβ1 : 1 + β ≠ 0 := fun h => hβ.1 (by linear_combination h)
  obtain ⟨G1, hG1c, hG1⟩ := union_bad (fun pi γ => ∀ i < N, plookupDen β γ ((h1 pi).getD i 0) ((h2 pi).getD i 0) ((h1 pi).getD (nxt N i) 0) ≠ 0)
    (fun _ => 2 * N) a.plookups fun pi _ => bad_lookup N hβ1 (fun i => (h1 pi).getD i 0) (fun i => (h2 pi).getD i 0)
  obtain ⟨G2, hG2c, hG2⟩ := union_bad (fun ci γ => ∀ i < N,
      ((List.range (cf ci).length).map fun j => (tuple (cf ci) i).getD j 0 + β * (tuple (cs ci) i).getD j 0 + γ).prod ≠ 0)
    (fun ci => N * ci.pols.length) a.connections fun ci hci => by
      have e := (hcn ci hci).1.length_eq
      rw [e]
      exact bad_conn N _ fun i j => (tuple (cf ci) i).getD j 0 + β * (tuple (cs ci) i).getD j 0
  refine ⟨G1 ∪ G2, (Finset.card_union_le _ _).trans ?_, fun γ hγ => ?_⟩
  · have e1 : (a.plookups.map fun _ => 2 * N).sum = 2 * N * a.plookups.length := by simp [mul_comm]
    have e2 : (a.connections.map fun ci => N * ci.pols.length).sum = N * (a.connections.map fun c => c.pols.length).sum := by
      rw [← List.sum_map_mul_left]
    omega
  rw [Finset.mem_union, not_or] at hγ
  obtain ⟨Z, hZ⟩ : ∃ Z : Nat → Option (List A), Z = fun j =>
      if j < a.plookups.length then (a.plookups[j]?).bind fun pi =>
        calculateZ (rows N fun i => plookupNum β γ (fVal u dv (lf pi) (lt pi) (lsF pi) (lsT pi) i) (tVal u dv (lt pi) (lsT pi) i)
          (tVal u dv (lt pi) (lsT pi) (nxt N i)))
          (rows N fun i => plookupDen β γ ((h1 pi).getD i 0) ((h2 pi).getD i 0) ((h1 pi).getD (nxt N i) 0))
      else if j < a.plookups.length + a.permutations.length then (a.permutations[j - a.plookups.length]?).bind fun pi =>
        calculateZ (rows N fun i => tVal u dv (pf pi) (psF pi) i + β) (rows N fun i => tVal u dv (pt pi) (psT pi) i + β)
      else (a.connections[j - a.plookups.length - a.permutations.length]?).bind fun ci =>
        calculateZ (rows N fun i => ((List.range (cf ci).length).map fun j => (tuple (cf ci) i).getD j 0 + β * label emb x j i + γ).prod)
          (rows N fun i => ((List.range (cf ci).length).map fun j => (tuple (cf ci) i).getD j 0 + β * (tuple (cs ci) i).getD j 0 + γ).prod) := ⟨_, rfl⟩
  refine ⟨fun k i => (Z (k - (st.nCm + 2 * a.plookups.length))).bind fun z => z[i]?, fun rest => ?_⟩
  obtain ⟨c3, hc3⟩ : ∃ c3 : Nat → Nat → Option A, c3 = fun k i => (Z (k - (st.nCm + 2 * a.plookups.length))).bind fun z => z[i]? := ⟨_, rfl⟩
  rw [← hc3]
  obtain ⟨more, hmore⟩ := (genArgs_ext hgen).1.1
  have s3 : ∀ k z, st.nCm + 2 * a.plookups.length ≤ k → Z (k - (st.nCm + 2 * a.plookups.length)) = some z → ∀ i,
      sections st.nCm (st.nCm + 2 * a.plookups.length) c1 c2 c3 k i = z[i]? := by
    intro k z hk hz i
    unfold sections
    rw [if_neg (by omega), if_neg (by omega), hc3]
    simp [hz]
  intro i hi id hid
  rw [genArgs_ids hgen, List.mem_append] at hid
  rcases hid with hid | hid
  · obtain ⟨d, hv⟩ := h.ids i hi id hid
    exact ⟨d, by rw [← hmore]; exact v_up hv⟩
  obtain ⟨c, hc, hid⟩ := List.mem_flatMap.mp hid
  have fin : ∀ {d : Nat}, (Val (fieldOps A) st'.exps (rowStore N (sections st.nCm (st.nCm + 2 * a.plookups.length) c1 c2 c3) fx pub (u :: dv :: γ :: β :: rest) x i) d false (ImPols.expE c.c1) 0 ∧
      Val (fieldOps A) st'.exps (rowStore N (sections st.nCm (st.nCm + 2 * a.plookups.length) c1 c2 c3) fx pub (u :: dv :: γ :: β :: rest) x i) d false (ImPols.expE c.c2) 0) →
      ∃ d, Val (fieldOps A) st'.exps (rowStore N (sections st.nCm (st.nCm + 2 * a.plookups.length) c1 c2 c3) fx pub (u :: dv :: γ :: β :: rest) x i) d false (ImPols.expE id) 0 := by
    intro d hd
    simp only [List.mem_cons, List.not_mem_nil, or_false] at hid
    rcases hid with rfl | rfl
    · exact ⟨d, hd.1⟩
    · exact ⟨d, hd.2⟩
  obtain ⟨s2, pu, sl, pe, sp, se, r1, r2, r3, r4, r5⟩ := genArgs_split hgen
  have l1' := (runAll_spec step2One_ext a.plookups st s2 pu r1).2.2.1
  have l2' := (runAll_spec permLCOne_ext a.permutations s2 sl pe r2).2.2.1
  have l3' := (runAll_spec (plookupZOne_ext l1) pu sl sp cx.pu r3).2.2.1
  have l4' := (runAll_spec (permZOne_ext l1) pe sp se cx.pe r4).2.2.1
  have l5' := (runAll_spec (connZOne_ext emb l1) a.connections se st' cx.ci r5).2.2.1
  rcases List.mem_append.mp hc with hc | hc
  · rcases List.mem_append.mp hc with hc | hc
    · -- plookup
      obtain ⟨n, hn⟩ := List.getElem?_of_mem hc
      have hlt : n < a.plookups.length := by have := (List.getElem?_eq_some_iff.mp hn).1; omega
      have hpi := List.getElem?_eq_getElem hlt
      obtain ⟨pi, hpi'⟩ : ∃ pi, pi = a.plookups[n] := ⟨_, rfl⟩
      rw [← hpi'] at hpi
      have hm : pi ∈ a.plookups := List.mem_of_getElem? hpi
      obtain ⟨l, c', g0, gc, gh1, gh2, gz, g1, g2, g3, g4, g5, g6, -, -⟩ := genArgs_plookup hgen hpi
      rw [hn] at gc
      obtain rfl := Option.some.inj gc
      obtain ⟨k1, k2, k3⟩ := hlk pi hm
      obtain ⟨m1, m2, m3⟩ := hh pi hm
      obtain ⟨z, hz⟩ := z_exists hN (lookup_products hN m1 β γ) (hG1 pi hm γ hγ.1)
      have hZn : Z n = some z := by
        rw [hZ]
        dsimp only
        rw [if_pos hlt, hpi]
        exact hz
      have ea : ∀ i < N, sections st.nCm (st.nCm + 2 * a.plookups.length) c1 c2 c3 c.h1 i = some ((h1 pi).getD i 0) := by
        intro i hi
        unfold sections
        rw [if_neg (by omega), if_pos (by omega), hc2, gh1]
        have e1 : (st.nCm + 2 * n - st.nCm) / 2 = n := by omega
        have e2 : (st.nCm + 2 * n - st.nCm) % 2 = 0 := by omega
        simp only [e1, e2, hpi, Option.bind_some, if_true]
        rw [List.getD_eq_getElem?_getD, List.getElem?_eq_getElem (by omega)]
        rfl
      have eb : ∀ i < N, sections st.nCm (st.nCm + 2 * a.plookups.length) c1 c2 c3 c.h2 i = some ((h2 pi).getD i 0) := by
        intro i hi
        unfold sections
        rw [if_neg (by omega), if_pos (by omega), hc2, gh2]
        have e1 : (st.nCm + 2 * n + 1 - st.nCm) / 2 = n := by omega
        have e2 : ¬ (st.nCm + 2 * n + 1 - st.nCm) % 2 = 0 := by omega
        simp only [e1, e2, hpi, Option.bind_some, if_false]
        rw [List.getD_eq_getElem?_getD, List.getElem?_eq_getElem (by omega)]
        rfl
      refine fin (plookup_identities (u := u) (dv := dv) (γ := γ) (β := β) hN rfl rfl rfl rfl (d := ld pi) (by rw [← hmore]; exact k1.up)
        (by rw [← hmore]; exact k2.up) g1 g2 g3 g4 g5 g6 ea eb hz ?_ (hl l g0) i hi)
      intro i hi
      refine s3 _ _ (by omega) ?_ i
      have : c.z - (st.nCm + 2 * a.plookups.length) = n := by omega
      rw [this, hZn]
    · -- permutation
      obtain ⟨n, hn⟩ := List.getElem?_of_mem hc
      have hlt : n < a.permutations.length := by have := (List.getElem?_eq_some_iff.mp hn).1; omega
      have hpi := List.getElem?_eq_getElem hlt
      obtain ⟨pi, hpi'⟩ : ∃ pi, pi = a.permutations[n] := ⟨_, rfl⟩
      rw [← hpi'] at hpi
      have hm : pi ∈ a.permutations := List.mem_of_getElem? hpi
      obtain ⟨l, c', g0, gc, gz, g1, g2, g3, g4, g5, g6, -, -⟩ := genArgs_perm hgen hpi
      rw [hn] at gc
      obtain rfl := Option.some.inj gc
      obtain ⟨k1, k2⟩ := hpm pi hm
      obtain ⟨z, hz⟩ := z_exists hN (perm_products k1.boolF k1.boolT k2 u dv β) (fun i hi => by simpa using hB pi hm β hβ.2 i hi)
      have hZn : Z (a.plookups.length + n) = some z := by
        rw [hZ]
        dsimp only
        rw [if_neg (by omega), if_pos (by omega), Nat.add_sub_cancel_left, hpi]
        exact hz
      refine fin (perm_identities (u := u) (dv := dv) (β := β) hN rfl rfl rfl (d := pd pi) (by rw [← hmore]; exact k1.up) g1 g2 g3 g4 g5 g6 hz ?_ (hl l g0) i hi)
      intro i hi
      refine s3 _ _ (by omega) ?_ i
      have : c.z - (st.nCm + 2 * a.plookups.length) = a.plookups.length + n := by omega
      rw [this, hZn]
  · -- connection
    obtain ⟨n, hn⟩ := List.getElem?_of_mem hc
    have hlt : n < a.connections.length := by have := (List.getElem?_eq_some_iff.mp hn).1; omega
    have hpi := List.getElem?_eq_getElem hlt
    obtain ⟨ci, hpi'⟩ : ∃ ci, ci = a.connections[n] := ⟨_, rfl⟩
    rw [← hpi'] at hpi
    have hm : ci ∈ a.connections := List.mem_of_getElem? hpi
    obtain ⟨k1, k2, π, hπ⟩ := hcn ci hm
    have hf' : List.Forall₂ (Col st'.exps N (rowStore N (sections st.nCm (st.nCm + 2 * a.plookups.length) c1 c2 c3) fx pub (u :: dv :: γ :: β :: rest) x) (cd ci)) ci.pols (cf ci) := by
      rw [← hmore]; exact k1.imp fun _ _ => col_up
    have hs' : List.Forall₂ (Col st'.exps N (rowStore N (sections st.nCm (st.nCm + 2 * a.plookups.length) c1 c2 c3) fx pub (u :: dv :: γ :: β :: rest) x) (cd ci)) ci.conns (cs ci) := by
      rw [← hmore]; exact k2.imp fun _ _ => col_up
    obtain ⟨l, c', g0, gc, gz, g1, g2, -, -, -, -, hv⟩ := conn_values hemb hgen hpi hf' hs'
    rw [hn] at gc
    obtain rfl := Option.some.inj gc
    obtain ⟨z, hz⟩ := z_exists hN (conn_products (N := N) (m := (cf ci).length) (f := fun i j => (tuple (cf ci) i).getD j 0)
      (s := fun i j => (tuple (cs ci) i).getD j 0) (lab := fun i j => label emb x j i) π (fun c => (hπ c).1) (fun c => (hπ c).2) β γ)
      (fun i hi => hG2 ci hm γ hγ.2 i hi)
    have hZn : Z (a.plookups.length + a.permutations.length + n) = some z := by
      rw [hZ]
      dsimp only
      have e : a.plookups.length + a.permutations.length + n - a.plookups.length - a.permutations.length = n := by omega
      rw [if_neg (by omega), if_neg (by omega), e, hpi]
      exact hz
    refine fin (z_complete hN hz ?_ (hl l g0) g1 g2 (fun i hi => (hv i hi).1) (fun i hi => (hv i hi).2) i hi)
    intro i hi
    refine s3 _ _ (by omega) ?_ i
    have : c.z - (st.nCm + 2 * a.plookups.length) = a.plookups.length + a.permutations.length + n := by omega
    rw [this, hZn]

end Verif.Grand
