import Verif.Grand.Sound

/-!
# Soundness theorems
-/
set_option linter.unusedSectionVars false

namespace Verif.Grand
open Codegen Codegen.Spec Stark

variable {A : Type} [Field A] [DecidableEq A]

/-- the rows of one side that are not the default value are the selected ones -/
theorem filter_side {N : Nat} {cols : List (Nat → A)} {s : Nat → A} {u dv : A} (hb : ∀ i < N, s i = 0 ∨ s i = 1)
    (hd : ∀ i < N, horner u (tuple cols i) ≠ dv) :
    ((Multiset.range N).map fun i => (horner u (tuple cols i) - dv) * s i + dv).filter (· ≠ dv) = (selected N cols s).map (horner u) := by
  rw [Multiset.filter_map, selected, Multiset.map_map]
  have : Multiset.filter ((fun x => x ≠ dv) ∘ fun i => (horner u (tuple cols i) - dv) * s i + dv) (Multiset.range N) =
      Multiset.filter (fun i => s i = 1) (Multiset.range N) := by
    refine Multiset.filter_congr fun i hi => ?_
    have hi := Multiset.mem_range.mp hi
    rcases hb i hi with h | h
    · simp [h]
    · simp [h, hd i hi]
  rw [this]
  refine Multiset.map_congr rfl fun i hi => ?_
  rw [(Multiset.mem_filter.mp hi).2]
  simp

theorem selected_card {N : Nat} {cols : List (Nat → A)} {s : Nat → A} : Multiset.card (selected N cols s) ≤ N := by
  rw [selected, Multiset.card_map]
  exact (Multiset.card_le_card (Multiset.filter_le _ _)).trans (by simp)

theorem mem_selected {N : Nat} {cols : List (Nat → A)} {s : Nat → A} {l : List A} (h : l ∈ selected N cols s) : l.length = cols.length := by
  obtain ⟨i, _, rfl⟩ := Multiset.mem_map.mp h
  simp [tuple]

/-- the values of all rows of two lists of columns -/
theorem exists_values (N : Nat) (u : A) (fv tv : List (Nat → A)) : ∃ D : Finset A, D.card ≤ 2 * N ∧
    ∀ dv ∉ D, ∀ i < N, horner u (tuple fv i) ≠ dv ∧ horner u (tuple tv i) ≠ dv := by
  refine ⟨(Finset.range N).image (fun i => horner u (tuple fv i)) ∪ (Finset.range N).image (fun i => horner u (tuple tv i)), ?_, ?_⟩
  · refine (Finset.card_union_le _ _).trans ?_
    have h1 := Finset.card_image_le (s := Finset.range N) (f := fun i => horner u (tuple fv i))
    have h2 := Finset.card_image_le (s := Finset.range N) (f := fun i => horner u (tuple tv i))
    rw [Finset.card_range] at h1 h2
    omega
  · intro dv hdv i hi
    constructor <;> intro h <;> apply hdv <;> rw [Finset.mem_union, Finset.mem_image, Finset.mem_image]
    · exact .inl ⟨i, Finset.mem_range.mpr hi, h⟩
    · exact .inr ⟨i, Finset.mem_range.mpr hi, h⟩

/-- Different multisets of selected tuples: outside few `u` and few default values, the two combined columns are different multisets. -/
theorem perm_sides {N : Nat} {fv tv : List (Nat → A)} {sF sT : Nat → A} (hbF : ∀ i < N, sF i = 0 ∨ sF i = 1) (hbT : ∀ i < N, sT i = 0 ∨ sT i = 1)
    (hlen : fv.length = tv.length) (hne : selected N fv sF ≠ selected N tv sT) :
    ∃ U : Finset A, U.card ≤ (2 * N) ^ 2 * (fv.length - 1) ∧ ∀ u ∉ U, ∃ D : Finset A, D.card ≤ 2 * N ∧ ∀ dv ∉ D,
      ((Multiset.range N).map fun i => (horner u (tuple fv i) - dv) * sF i + dv) ≠
        (Multiset.range N).map fun i => (horner u (tuple tv i) - dv) * sT i + dv := by
  obtain ⟨U, hU, hinj⟩ := collisions (g := fun (u : A) (l : List A) => horner u l) (fun l => l.length = fv.length) (k := fv.length - 1)
    (fun p q hp hq h => tuple_challenge p q hp hq h) (s := selected N fv sF) (t := selected N tv sT) selected_card selected_card
    (fun l hl => by rcases Multiset.mem_add.mp hl with h | h; exacts [mem_selected h, (mem_selected h).trans hlen.symm])
  refine ⟨U, hU, fun u hu => ?_⟩
  obtain ⟨D, hD, hdv⟩ := exists_values N u fv tv
  refine ⟨D, hD, fun dv hd heq => map_ne (hinj u hu) hne ?_⟩
  rw [← filter_side hbF (fun i hi => (hdv dv hd i hi).1), ← filter_side hbT (fun i hi => (hdv dv hd i hi).2), heq]

/-- **Permutation identities are sound.**  If the multisets of the selected tuples of the two sides differ, then for all `u`, `defVal`, `β` outside
small sets (each fixed before the next challenge is drawn) no choice of the columns of the later rounds satisfies all identities. -/
theorem permutation_sound {emb : GL.F → A} {l1 : Option Nat} {st st' : PilSt A} {a : Args} {cx : ArgCtx} (hgen : genArgs emb l1 st a = some (st', cx))
    {pi : LookupId} (hpi : pi ∈ a.permutations) {N : Nat} (hN : 0 < N) {c1 fx : Nat → Nat → Option A} {pub : List A} {x : Nat → A}
    {d : Nat} {fv tv : List (Nat → A)} {sF sT : Nat → A}
    (hs : Sides st.exps N (rowStore N (sections st.nCm st.nCm c1 (fun _ _ => none) fun _ _ => none) fx pub [] x) d pi fv tv sF sT)
    (hl : ∀ l, l1 = some l → ∃ v, v ≠ 0 ∧ fx l 0 = some v) (hne : selected N fv sF ≠ selected N tv sT) :
    ∃ U : Finset A, U.card ≤ (2 * N) ^ 2 * (pi.f.length - 1) ∧ ∀ u ∉ U, ∃ D : Finset A, D.card ≤ 2 * N ∧ ∀ dv ∉ D, ∃ B : Finset A, B.card ≤ N ∧
      ∀ β ∉ B, ∀ (γ : A) (rest : List A) (n2 : Nat) (c2 c3 : Nat → Nat → Option A),
        ¬ Holds st' N (sections st.nCm n2 c1 c2 c3) fx pub (u :: dv :: γ :: β :: rest) x := by
  have hlf : fv.length = pi.f.length := hs.f.length_eq.symm
  have hlt : tv.length = pi.t.length := hs.t.length_eq.symm
  obtain ⟨U, hU, h⟩ := perm_sides hs.boolF hs.boolT (by rw [hlf, hlt, hs.len]) hne
  refine ⟨U, by rwa [hlf] at hU, fun u hu => ?_⟩
  obtain ⟨D, hD, h⟩ := h u hu
  refine ⟨D, hD, fun dv hdv => ?_⟩
  obtain ⟨B, hB, h⟩ := multiset_challenge (n := N) (by simp) (by simp) (h dv hdv)
  refine ⟨B, hB, fun β hβ γ rest n2 c2 c3 hol => hβ (h β ?_)⟩
  obtain ⟨n, hn⟩ := List.getElem?_of_mem hpi
  obtain ⟨l, c, g1, _, _, g2, g3, g4, g5, g6, g7, g8, g9⟩ := genArgs_perm hgen hn
  obtain ⟨more, hmore⟩ := (genArgs_ext hgen).1.1
  have hs' : Sides st'.exps N (rowStore N (sections st.nCm n2 c1 c2 c3) fx pub (u :: dv :: γ :: β :: rest) x) d pi fv tv sF sT := by
    rw [← hmore]; exact hs.up
  have hb : ∀ i, rowStore N (sections st.nCm n2 c1 c2 c3) fx pub (u :: dv :: γ :: β :: rest) x i .challenge 3 false = some β := fun i => rfl
  have := args_product hN (hl l g1) g4 g7 (fun i hi => hol i hi _ g8) (fun i hi => hol i hi _ g9)
    (num := fun i => (horner u (tuple fv i) - dv) * sF i + dv + β) (den := fun i => (horner u (tuple tv i) - dv) * sT i + dv + β)
    (fun i hi v d' hv => val_unique hv (v_exp rfl g5 (v_add (v_fSide rfl rfl hs' hi g3) (v_chal (hb i)))))
    (fun i hi v d' hv => val_unique hv (v_exp rfl g6 (v_add (v_tSide rfl rfl hs' hi g2) (v_chal (hb i)))))
  rw [Multiset.map_map, Multiset.map_map]
  exact this

/-- **Plookup identities are sound.**  If the tuple of some selected row of `f` is not the tuple of a selected row of `t`, then for all `u`,
`defVal`, `β`, `γ` outside small sets (each fixed before the challenge is drawn; the columns `h1`, `h2` before `β` and `γ`) no choice of the columns of
the third round satisfies all identities. -/
theorem plookup_sound {emb : GL.F → A} {l1 : Option Nat} {st st' : PilSt A} {a : Args} {cx : ArgCtx} (hgen : genArgs emb l1 st a = some (st', cx))
    (hpl : ∀ e ∈ st.exps, Plain st.exps.length e)
    {pi : LookupId} (hpi : pi ∈ a.plookups) {N : Nat} (hN : 0 < N) {c1 fx : Nat → Nat → Option A} {pub : List A} {x : Nat → A}
    {d : Nat} {fv tv : List (Nat → A)} {sF sT : Nat → A}
    (hs : Sides st.exps N (rowStore N (sections st.nCm st.nCm c1 (fun _ _ => none) fun _ _ => none) fx pub [] x) d pi fv tv sF sT)
    (hl : ∀ l, l1 = some l → ∃ v, v ≠ 0 ∧ fx l 0 = some v)
    (hno : ∃ i < N, sF i = 1 ∧ ∀ j < N, sT j = 1 → tuple fv i ≠ tuple tv j) :
    ∃ U : Finset A, U.card ≤ (2 * N) ^ 2 * (pi.f.length - 1) ∧ ∀ u ∉ U, ∃ D : Finset A, D.card ≤ 2 * N ∧ ∀ dv ∉ D,
      ∀ c2 : Nat → Nat → Option A, ∃ B : Finset A, B.card ≤ (4 * N) ^ 2 + 1 ∧ ∀ β ∉ B, ∃ G : Finset A, G.card ≤ 2 * N ∧ ∀ γ ∉ G,
      ∀ (rest : List A) (c3 : Nat → Nat → Option A),
        ¬ Holds st' N (sections st.nCm (st.nCm + 2 * a.plookups.length) c1 c2 c3) fx pub (u :: dv :: γ :: β :: rest) x := by
  have hlf : fv.length = pi.f.length := hs.f.length_eq.symm
  have hlt : tv.length = pi.t.length := hs.t.length_eq.symm
  obtain ⟨i0, hi0, hsel, hmiss⟩ := hno
  obtain ⟨U, hU, hinj⟩ := collisions (g := fun (u : A) (l : List A) => horner u l) (fun l => l.length = fv.length) (k := fv.length - 1)
    (fun p q hp hq h => tuple_challenge p q hp hq h) (s := (Multiset.range N).map (tuple fv)) (t := (Multiset.range N).map (tuple tv)) (n := N)
    (by simp) (by simp) (fun l hl => by
      rcases Multiset.mem_add.mp hl with h | h <;> obtain ⟨i, _, rfl⟩ := Multiset.mem_map.mp h <;> simp [tuple, hlf, hlt, hs.len])
  refine ⟨U, by rwa [hlf] at hU, fun u hu => ?_⟩
  obtain ⟨D, hD, hdv⟩ := exists_values N u fv tv
  refine ⟨D, hD, fun dv hd c2 => ?_⟩
  obtain ⟨n, hn⟩ := List.getElem?_of_mem hpi
  obtain ⟨l, c, g1, _, gh1, gh2, _, g2, g3, g4, g5, g6, g7, g8, g9⟩ := genArgs_plookup hgen hn
  have hnlt : n < a.plookups.length := (List.getElem?_eq_some_iff.mp hn).1
  -- the combined columns
  obtain ⟨T, hT⟩ : ∃ T : Nat → A, ∀ i, T i = (horner u (tuple tv i) - dv) * sT i + dv := ⟨_, fun _ => rfl⟩
  obtain ⟨Fv, hF⟩ : ∃ Fv : Nat → A, ∀ i, Fv i = (horner u (tuple fv i) - T i) * sF i + T i := ⟨_, fun _ => rfl⟩
  have hmissC : ∃ i < N, ∀ j < N, Fv i ≠ T j := by
    refine ⟨i0, hi0, fun j hj => ?_⟩
    rw [hF, hsel, hT j]
    rcases hs.boolT j hj with h | h
    · rw [h]
      simpa using (hdv dv hd i0 hi0).1
    · rw [h]
      simp only [mul_one, sub_add_cancel]
      intro he
      exact hmiss j hj h (hinj u hu _ (Multiset.mem_add.mpr (.inl (Multiset.mem_map_of_mem _ (Multiset.mem_range.mpr hi0)))) _
        (Multiset.mem_add.mpr (.inr (Multiset.mem_map_of_mem _ (Multiset.mem_range.mpr hj)))) he)
  obtain ⟨B, hB, h⟩ := plookup_challenge hN Fv T (fun i => (c2 c.h1 i).getD 0) (fun i => (c2 c.h2 i).getD 0) hmissC
  refine ⟨B, hB, fun β hβ => ?_⟩
  obtain ⟨G, hG, h⟩ := h β hβ
  refine ⟨G, hG, fun γ hγ rest c3 hol => hγ (h γ ?_)⟩
  obtain ⟨more, hmore⟩ := (genArgs_ext hgen).1.1
  obtain ⟨σ, hσ⟩ : ∃ σ, σ = rowStore N (sections st.nCm (st.nCm + 2 * a.plookups.length) c1 c2 c3) fx pub (u :: dv :: γ :: β :: rest) x := ⟨_, rfl⟩
  have hs' : Sides st'.exps N σ d pi fv tv sF sT := by rw [← hmore, hσ]; exact hs.up
  rw [hσ] at hs'
  have hb : ∀ i, rowStore N (sections st.nCm (st.nCm + 2 * a.plookups.length) c1 c2 c3) fx pub (u :: dv :: γ :: β :: rest) x i .challenge 3 false =
    some β := fun i => rfl
  have hga : ∀ i, rowStore N (sections st.nCm (st.nCm + 2 * a.plookups.length) c1 c2 c3) fx pub (u :: dv :: γ :: β :: rest) x i .challenge 2 false =
    some γ := fun i => rfl
  have hcol : ∀ i, sections st.nCm (st.nCm + 2 * a.plookups.length) c1 c2 c3 c.h1 i = c2 c.h1 i ∧
      sections st.nCm (st.nCm + 2 * a.plookups.length) c1 c2 c3 c.h2 i = c2 c.h2 i := by
    intro i
    unfold sections
    rw [if_neg (by omega), if_pos (by omega), if_neg (by omega), if_pos (by omega)]
    exact ⟨rfl, rfl⟩
  have hTv : ∀ i < N, ∀ w d', Val (fieldOps A) st'.exps
      (rowStore N (sections st.nCm (st.nCm + 2 * a.plookups.length) c1 c2 c3) fx pub (u :: dv :: γ :: β :: rest) x i) d' false (eExp c.tExp) w → w = T i := by
    intro i hi w d' hw
    rw [hT]
    exact val_unique hw (v_tSide rfl rfl hs' hi g2)
  -- the expression of the table side, primed
  have hTn : ∀ i < N, ∀ w d', Val (fieldOps A) st'.exps
      (rowStore N (sections st.nCm (st.nCm + 2 * a.plookups.length) c1 c2 c3) fx pub (u :: dv :: γ :: β :: rest) x i) d' false (eExp c.tExp true) w →
      w = T (nxt N i) := by
    intro i hi w d' hw
    obtain ⟨d2, e, rfl, _, he, hv⟩ := i_exp hw
    rw [g2] at he
    obtain rfl := Option.some.inj he
    have hplain : Plain st.exps.length (select (lcT pi.t) eDef pi.selT : Expr A) := by
      have hexp : ∀ k, k < st.exps.length → Plain st.exps.length (eExp k : Expr A) := fun k hk =>
        ⟨by simp, fun i _ h => by simp at h; omega, by simp⟩
      have hch : ∀ k, Plain st.exps.length (eChallenge k : Expr A) := fun k => ⟨by simp, fun i h => by simp at h, by simp⟩
      have h2 : ∀ (o : Op) (a b : Expr A), o ≠ .x → o ≠ .exp → Plain st.exps.length a → Plain st.exps.length b →
          Plain st.exps.length (.node { op := o } [a, b] : Expr A) := fun o a b h1 h2 ha hb =>
        ⟨h1, fun i h => absurd h h2, by simp [ha, hb]⟩
      have hlt : ∀ {id v}, Col st.exps N (rowStore N (sections st.nCm st.nCm c1 (fun _ _ => none) fun _ _ => none) fx pub [] x) d id v →
          id < st.exps.length := by
        intro id v hc
        obtain ⟨_, _, _, _, he, _⟩ := i_exp (hc 0 hN)
        exact (List.getElem?_eq_some_iff.mp he).1
      have hlc : ∀ (ts : List Nat) (tv : List (Nat → A)), List.Forall₂
          (Col st.exps N (rowStore N (sections st.nCm st.nCm c1 (fun _ _ => none) fun _ _ => none) fx pub [] x) d) ts tv →
          Plain st.exps.length (lcT ts : Expr A) := by
        intro ts
        induction ts using List.reverseRecOn with
        | nil => intro tv _; exact ⟨by simp, fun i h => by simp at h, by simp⟩
        | append_singleton l j ih =>
          intro tv h
          obtain ⟨vs1, v, rfl, h1, hv⟩ := forall₂_snoc h
          by_cases hl : l = []
          · subst hl; exact hexp j (hlt hv)
          · rw [lcT_append l j hl]
            exact h2 _ _ _ (by simp) (by simp) (h2 _ _ _ (by simp) (by simp) (hch 0) (ih _ h1)) (hexp j (hlt hv))
      cases hsel : pi.selT with
      | none => exact hlc _ _ hs.t
      | some k => exact h2 _ _ _ (by simp) (by simp) (h2 _ _ _ (by simp) (by simp) (h2 _ _ _ (by simp) (by simp) (hlc _ _ hs.t) (hch 1))
          (hexp k (hlt (hs.selT k hsel)))) (hch 1)
    rw [← hmore] at hv
    have := v_next hpl hv (by simp) hplain
    rw [hmore] at this
    exact hTv _ (nxt_lt hN) _ _ (v_exp rfl g2 this)
  refine args_product hN (hl l g1) g4 g7 (fun i hi => hol i hi _ g8) (fun i hi => hol i hi _ g9) (fun i hi v d' hv => ?_) (fun i hi v d' hv => ?_)
  · obtain ⟨d2, e, rfl, _, he, hv⟩ := i_exp hv
    rw [g5] at he
    obtain rfl := Option.some.inj he
    obtain ⟨y1, y2, hv1, hv2, rfl⟩ := i_mul hv
    obtain ⟨y3, y4, hv3, hv4, rfl⟩ := i_mul hv1
    obtain ⟨y5, y6, hv5, hv6, rfl⟩ := i_add hv3
    obtain ⟨y7, y8, hv7, hv8, rfl⟩ := i_add hv4
    obtain ⟨y9, y10, hv9, hv10, rfl⟩ := i_add hv7
    obtain ⟨y11, y12, hv11, hv12, rfl⟩ := i_mul hv10
    obtain ⟨y13, y14, hv13, hv14, rfl⟩ := i_mul hv8
    obtain ⟨y15, y16, hv15, hv16, rfl⟩ := i_add hv14
    obtain ⟨y17, y18, hv17, hv18, rfl⟩ := i_add hv2
    rw [i_num hv15, i_num hv17, hTn i hi _ _ hv11, hTv i hi _ _ hv9, Option.some.inj ((hb i).symm.trans (i_chal hv12)).symm,
      Option.some.inj ((hb i).symm.trans (i_chal hv16)).symm, Option.some.inj ((hb i).symm.trans (i_chal hv18)).symm,
      Option.some.inj ((hga i).symm.trans (i_chal hv13)).symm, Option.some.inj ((hga i).symm.trans (i_chal hv6)).symm,
      val_unique hv5 (v_fSideP rfl rfl hs' hi g2 g3), ← hT, ← hF]
  · obtain ⟨d2, e, rfl, _, he, hv⟩ := i_exp hv
    rw [g6] at he
    obtain rfl := Option.some.inj he
    obtain ⟨y1, y2, hv1, hv2, rfl⟩ := i_mul hv
    obtain ⟨y3, y4, hv3, hv4, rfl⟩ := i_add hv1
    obtain ⟨y5, y6, hv5, hv6, rfl⟩ := i_add hv3
    obtain ⟨y7, y8, hv7, hv8, rfl⟩ := i_mul hv6
    obtain ⟨y9, y10, hv9, hv10, rfl⟩ := i_mul hv4
    obtain ⟨y11, y12, hv11, hv12, rfl⟩ := i_add hv10
    obtain ⟨y13, y14, hv13, hv14, rfl⟩ := i_add hv2
    obtain ⟨y15, y16, hv15, hv16, rfl⟩ := i_add hv13
    obtain ⟨y17, y18, hv17, hv18, rfl⟩ := i_mul hv16
    obtain ⟨y19, y20, hv19, hv20, rfl⟩ := i_mul hv14
    obtain ⟨y21, y22, hv21, hv22, rfl⟩ := i_add hv20
    have k1 := (i_cm hv5).2
    have k2 := (i_cm hv7).2
    have k3 := (i_cm hv15).2
    have k4 := (i_cm hv17).2
    simp only [rowStore, Bool.true_or, if_true, Bool.false_eq_true, if_false, Nat.add_zero, Bool.or_self, Nat.mod_eq_of_lt hi, (hcol _).1, (hcol _).2]
      at k1 k2 k3 k4
    rw [i_num hv11, i_num hv21, Option.some.inj ((hb i).symm.trans (i_chal hv8)).symm,
      Option.some.inj ((hb i).symm.trans (i_chal hv12)).symm, Option.some.inj ((hb i).symm.trans (i_chal hv18)).symm,
      Option.some.inj ((hb i).symm.trans (i_chal hv22)).symm,
      Option.some.inj ((hga i).symm.trans (i_chal hv9)).symm, Option.some.inj ((hga i).symm.trans (i_chal hv19)).symm]
    have e : (i + 1) % N = nxt N i := rfl
    rw [e] at k4
    rw [k1, k2, k4]
    rw [k2] at k3
    rw [← Option.some.inj k3]
    rfl

end Verif.Grand
