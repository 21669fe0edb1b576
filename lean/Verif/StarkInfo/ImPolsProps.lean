import Verif.StarkInfo.ImPolsLemmas
import Mathlib.Algebra.Polynomial.Monic

namespace Verif.ImPols
open Verif.Codegen Spec Polynomial

section degree
variable {R : Type} [CommRing R] {exps : List (Expr R)} {absMax : Nat}

/-- the bound is a bound on degrees of polynomials -/
theorem degLe_natDegree {S : Finset Nat} {env : Env R} {B : Nat} (hB : env.Bounded B) {p : Bool} {e : Expr R} {f : R[X]}
    (hf : PolyOf exps S env p e f) {d : Int} (hd : DegLe exps absMax S e d) : (f.natDegree : Int) ≤ d * B := by
  have one : ∀ {d : Int} {g : R[X]}, 1 ≤ d → g.natDegree ≤ B → (g.natDegree : Int) ≤ d * B := by
    intro d g h1 h2
    have : (B : Int) ≤ d * B := le_mul_of_one_le_left (by omega) h1
    omega
  have zero : ∀ {d : Int} {c : R}, 0 ≤ d → ((C c).natDegree : Int) ≤ d * B := by
    intro d c h
    rw [natDegree_C]
    exact mul_nonneg h (by omega)
  induction hf generalizing d with
  | add h0 _ _ ih1 ih2 =>
    cases hd with
    | lin _ _ h =>
      have := ih1 (h _ (by simp))
      have := ih2 (h _ (by simp))
      refine le_trans (Int.ofNat_le.mpr (natDegree_add_le _ _)) ?_
      rcases max_choice (natDegree (_ : R[X])) (natDegree (_ : R[X])) with h' | h' <;> rw [h'] <;> assumption
    | _ => simp_all [constOp, varOp]
  | sub h0 _ _ ih1 ih2 =>
    cases hd with
    | lin _ _ h =>
      have := ih1 (h _ (by simp))
      have := ih2 (h _ (by simp))
      refine le_trans (Int.ofNat_le.mpr (natDegree_sub_le _ _)) ?_
      rcases max_choice (natDegree (_ : R[X])) (natDegree (_ : R[X])) with h' | h' <;> rw [h'] <;> assumption
    | _ => simp_all [constOp, varOp]
  | mul h0 _ _ ih1 ih2 =>
    cases hd with
    | mul _ ha hb h1 h2 h3 =>
      simp only [List.getElem?_cons_zero, Option.some.injEq, List.getElem?_cons_succ] at ha hb
      subst ha hb
      have a1 := ih1 h1
      have a2 := ih2 h2
      refine le_trans (Int.ofNat_le.mpr natDegree_mul_le) ?_
      have := mul_le_mul_of_nonneg_right h3 (by omega : (0 : Int) ≤ B)
      rw [add_mul] at this
      push_cast
      omega
    | _ => simp_all [constOp, varOp, linOp]
  | addc h0 _ _ ih =>
    cases hd with
    | lin _ _ h =>
      have := ih (h _ (by simp))
      rwa [natDegree_add_C]
    | _ => simp_all [constOp, varOp]
  | mulc h0 _ _ ih =>
    cases hd with
    | lin _ _ h =>
      have := ih (h _ (by simp))
      exact le_trans (Int.ofNat_le.mpr (natDegree_mul_C_le _ _)) this
    | _ => simp_all [constOp, varOp]
  | neg h0 _ ih =>
    cases hd with
    | lin _ _ h =>
      have := ih (h _ (by simp))
      rwa [natDegree_neg]
    | _ => simp_all [constOp, varOp]
  | number h0 _ => exact zero hd.nonneg
  | pub h0 _ => exact zero hd.nonneg
  | chal h0 _ => exact zero hd.nonneg
  | cm h0 _ =>
    cases hd with
    | var _ h => exact one h (hB.cm _ _)
    | _ => simp_all [constOp, varOp, linOp]
  | fixed h0 _ =>
    cases hd with
    | var _ h => exact one h (hB.fixed _ _)
    | _ => simp_all [constOp, varOp, linOp]
  | x h0 =>
    cases hd with
    | var _ h => exact one h hB.x
    | _ => simp_all [constOp, varOp, linOp]
  | im h0 h1 h2 =>
    cases hd with
    | expIn _ _ _ h => exact one h (hB.im _ _)
    | expOut _ h3 h4 => simp_all
    | _ => simp_all [constOp, varOp, linOp]
  | exp h0 h1 h2 h3 _ ih =>
    cases hd with
    | expOut _ h4 _ h5 h6 =>
      rw [h1] at h4
      simp only [Option.some.injEq] at h4
      subst h4
      rw [h3] at h5
      simp only [Option.some.injEq] at h5
      subst h5
      exact ih h6
    | expIn => simp_all
    | _ => simp_all [constOp, varOp, linOp]

/-- **C45.**  Whatever the expressions are: when `calculate_im_pols` returns a set `S` of expressions to commit and the
degree `q`, then with the expressions of `S` replaced by columns of degree at most `B`, the constraint expression and every
expression of `S` denote polynomials of degree at most `(q + 1) * B`, and `q + 1` is at most the requested bound. -/
theorem calculate_im_pols_degree (fuel : Nat) (exps : List (Expr R)) (c : Expr R) (maxDeg : Nat) (S : Finset Nat) (q : Int)
    (h : calculateImPols fuel exps c maxDeg = some (some S, q)) (env : Env R) (B : Nat) (hB : env.Bounded B) :
    -1 ≤ q ∧ q + 1 ≤ maxDeg ∧
    (∀ p f, PolyOf exps S env p c f → (f.natDegree : Int) ≤ (q + 1) * B) ∧
    (∀ k ∈ S, ∀ e, exps[k]? = some e → ∀ p f, PolyOf exps S env p e f → (f.natDegree : Int) ≤ (q + 1) * B) := by
  obtain ⟨⟨⟨im, d⟩, A⟩, h1, h2⟩ := Option.map_eq_some_iff.mp h
  simp only [Prod.mk.injEq] at h2
  obtain ⟨rfl, rfl⟩ := h2
  have hI : Inv exps maxDeg ∅ 0 := ⟨fun k hk => by simp at hk, fun k hk => by simp at hk, le_refl _, by omega⟩
  have hp := imCalc_spec _ _ _ _ _ _ hI h1
  obtain ⟨-, t2, t3, t4⟩ := hp.some S rfl
  have t5 := t3.nonneg
  have t6 := t2.le
  have hle := hp.le
  dsimp only at t2 t3 t4 t5 t6 hle
  rw [sub_add_cancel]
  refine ⟨by omega, by omega, ?_, ?_⟩
  · intro p f hf
    exact degLe_natDegree hB hf (t3.mono (le_max_left _ _))
  · intro k hk e he p f hf
    exact degLe_natDegree hB hf ((t2.deg k hk e he).mono (le_max_right _ _))

/-! ### The constraint polynomial -/

theorem selectLoop_cases {E : Type} {fuel : Nat} {exps : List (Expr E)} {c : Expr E} {maxDeg : Nat} {S : Finset Nat} {q : Nat}
    (h : selectLoop fuel exps c maxDeg = some (S, q)) :
    (∃ d qi, 2 ≤ d ∧ d ≤ maxDeg ∧ calculateImPols fuel exps c d = some (some S, qi) ∧ q = asUsize qi) ∨
    (S = ∅ ∧ q = 0 ∧ ∀ d, 2 ≤ d → d ≤ maxDeg → ∃ qi, calculateImPols fuel exps c d = some (none, qi)) := by
  obtain ⟨rs, h1, h2⟩ := Option.map_eq_some_iff.mp h
  have main : ∀ (ds : List Nat) (rs) (st st' : Finset Nat × Nat), ds.mapM (calculateImPols fuel exps c) = some rs →
      rs.foldl selectStep st = st' →
      (∃ d ∈ ds, ∃ qi, calculateImPols fuel exps c d = some (some st'.1, qi) ∧ st'.2 = asUsize qi) ∨
      (st' = st ∧ (st.2 = 0 → ∀ d ∈ ds, ∃ qi, calculateImPols fuel exps c d = some (none, qi))) := by
    intro ds
    induction ds with
    | nil =>
      intro rs st st' h1 h2
      simp only [List.mapM_nil, Option.pure_def, Option.some.injEq] at h1
      subst h1
      exact .inr ⟨h2.symm, by simp⟩
    | cons d ds ih =>
      intro rs st st' h1 h2
      rw [List.mapM_cons] at h1
      obtain ⟨r, hr, h1⟩ := Option.bind_eq_some_iff.mp h1
      obtain ⟨rs', hrs, h1⟩ := Option.bind_eq_some_iff.mp h1
      simp only [Option.pure_def, Option.some.injEq] at h1
      subst h1
      rw [List.foldl_cons] at h2
      rcases ih _ _ _ hrs h2 with ⟨d', hd', qi, h3, h4⟩ | ⟨h3, h4⟩
      · exact .inl ⟨d', by simp [hd'], qi, h3, h4⟩
      · obtain ⟨im, qi⟩ := r
        cases im with
        | none =>
          simp only [selectStep] at h3 h4
          refine .inr ⟨h3, ?_⟩
          intro h0 d' hd'
          rcases List.mem_cons.mp hd' with rfl | hd'
          · exact ⟨qi, hr⟩
          · exact h4 h0 d' hd'
        | some s =>
          simp only [selectStep] at h3 h4
          split at h3
          · rename_i hc
            refine .inl ⟨d, by simp, qi, ?_, ?_⟩
            · rw [h3]; exact hr
            · rw [h3]
          · rename_i hc
            refine .inr ⟨h3, ?_⟩
            intro h0
            exact absurd (Or.inl h0) hc
  rcases main _ _ _ _ h1 h2 with ⟨d, hd, qi, h3, h4⟩ | ⟨h3, h4⟩
  · rw [List.mem_range'_1] at hd
    exact .inl ⟨d, qi, by omega, by omega, h3, h4⟩
  · simp only [Prod.mk.injEq] at h3
    refine .inr ⟨h3.1, h3.2, ?_⟩
    intro d h5 h6
    exact h4 rfl d (by rw [List.mem_range'_1]; omega)

theorem degLe_combine {S : Finset Nat} {c c' e : Expr R} {d : Int} (hc : DegLe exps absMax S c d) (he : DegLe exps absMax S e d)
    (h : combine (some c) e = some c') : DegLe exps absMax S c' d := by
  simp only [combine, Option.some.injEq] at h
  subst h
  refine .lin rfl hc.nonneg ?_
  intro v hv
  simp only [List.mem_cons, List.not_mem_nil, or_false] at hv
  rcases hv with rfl | rfl
  · exact .mul (x := 0) (y := d) rfl rfl rfl (.const (.inl rfl) (le_refl _)) hc (by omega)
  · exact he

theorem degLe_addIm {S : Finset Nat} {d : Int} (h1 : 1 ≤ d) (hS : ∀ k ∈ S, ∀ e, exps[k]? = some e → DegLe exps absMax S e d) (n : Nat)
    (ks : List (Nat × Nat)) (hks : ∀ x ∈ ks, x.1 ∈ S) (c c' : Expr R) (hc : DegLe exps absMax S c d)
    (h : addIm exps n ks (some c) = some c') : DegLe exps absMax S c' d := by
  induction ks generalizing c with
  | nil => simp only [addIm, Option.some.injEq] at h; subst h; exact hc
  | cons x ks ih =>
    obtain ⟨k, i⟩ := x
    rw [addIm] at h
    obtain ⟨e, he, h⟩ := Option.bind_eq_some_iff.mp h
    refine ih (fun x hx => hks x (by simp [hx])) _ (degLe_combine hc ?_ rfl) h
    refine .lin rfl (by omega) ?_
    intro v hv
    simp only [List.mem_cons, List.not_mem_nil, or_false] at hv
    rcases hv with rfl | rfl
    · exact hS k (hks (k, i) (by simp)) v he
    · exact .var rfl h1

theorem addIm_nil_of_empty {E : Type} {exps : List (Expr E)} {n : Nat} {c c' : Expr E}
    (h : addIm exps n ((∅ : Finset Nat).sort (· ≤ ·)).zipIdx (some c) = some c') : c' = c := by
  simp [addIm] at h
  exact h.symm

/-- **C45, constraint polynomial.**  For a trace of `N` rows: when `generate_constraint_polynomial` returns the set `S`,
`q_deg = q` and the constraint expression `c'`, and some bound of its search was feasible, then the constraint polynomial
has degree at most `(q + 1) * (N - 1)` for all column polynomials of degree less than `N`, the quotient by `X ^ N - 1` has
degree less than `q * N` (so it is determined by `q` columns), and `q + 1` is at most the maximal degree. -/
theorem generate_degree_of_feasible [Nontrivial R] (fuel : Nat) (exps : List (Expr R)) (ids : List Nat) (nCommitments maxDeg : Nat)
    (hmax : maxDeg < 2 ^ 31) (S : Finset Nat) (q : Nat) (c' : Expr R) (h : generate fuel exps ids nCommitments maxDeg = some (S, q, c'))
    (feasible : ∃ d, 2 ≤ d ∧ d ≤ maxDeg ∧ ∃ c T qi, identExp ids = some c ∧ calculateImPols fuel exps c d = some (some T, qi))
    (env : Env R) (N : Nat) (hN : 0 < N) (hB : env.Bounded (N - 1)) :
    q + 1 ≤ maxDeg ∧ ∀ p f, PolyOf exps S env p c' f → f.natDegree ≤ (q + 1) * (N - 1) ∧
      ∀ t : R[X], f = t * (X ^ N - 1) → t.degree < q * N := by
  obtain ⟨c, hc, h⟩ := Option.bind_eq_some_iff.mp h
  obtain ⟨⟨S', q'⟩, hs, h⟩ := Option.bind_eq_some_iff.mp h
  dsimp only at h
  split at h
  swap; · simp at h
  rename_i hq8
  obtain ⟨c'', ha, h⟩ := Option.map_eq_some_iff.mp h
  simp only [Prod.mk.injEq] at h
  obtain ⟨rfl, rfl, rfl⟩ := h
  rcases selectLoop_cases hs with ⟨d, qi, hd1, hd2, h3, h4⟩ | ⟨-, -, h5⟩
  swap
  · obtain ⟨d, d1, d2, c1, T, qi, e1, e2⟩ := feasible
    obtain ⟨qj, e3⟩ := h5 d d1 d2
    rw [hc] at e1
    simp only [Option.some.injEq] at e1
    subst e1
    rw [e3] at e2
    simp at e2
  obtain ⟨⟨⟨im, rd⟩, A⟩, h1, h2⟩ := Option.map_eq_some_iff.mp h3
  simp only [Prod.mk.injEq] at h2
  obtain ⟨rfl, rfl⟩ := h2
  have hI : Inv exps d ∅ 0 := ⟨fun k hk => by simp at hk, fun k hk => by simp at hk, le_refl _, by omega⟩
  have hp := imCalc_spec _ _ _ _ _ _ hI h1
  obtain ⟨-, t2, t3, t4⟩ := hp.some S' rfl
  have t5 := t3.nonneg
  have t6 := t2.le
  dsimp only at t2 t3 t4 t5 t6
  -- `q` is not negative
  have hq : (q' : Int) = max rd A - 1 := by
    rw [h4] at hq8 ⊢
    unfold asUsize at hq8 ⊢
    rcases (by omega : max rd A - 1 = -1 ∨ 0 ≤ max rd A - 1) with h0 | h0
    · rw [h0] at hq8
      exact absurd hq8 (by decide)
    · have hlt : max rd A - 1 < 2 ^ 64 := by omega
      rw [Int.emod_eq_of_lt h0 hlt]
      omega
  have hd1 : (1 : Int) ≤ q' + 1 := by omega
  have hqA : (q' : Int) + 1 = max rd A := by omega
  have hD : DegLe exps d S' c'' (q' + 1) := by
    refine degLe_addIm hd1 ?_ nCommitments _ ?_ c c'' ?_ ha
    · intro k hk e he
      exact (t2.deg k hk e he).mono (by rw [hqA]; exact le_max_right _ _)
    · intro x hx
      exact (Finset.mem_sort _).mp (List.fst_mem_of_mem_zipIdx hx)
    · exact t3.mono (by rw [hqA]; exact le_max_left _ _)
  refine ⟨by omega, ?_⟩
  intro p f hf
  have hdeg : f.natDegree ≤ (q' + 1) * (N - 1) := by
    have := degLe_natDegree hB hf hD
    exact_mod_cast this
  refine ⟨hdeg, ?_⟩
  intro t ht
  by_cases h0 : t = 0
  · rw [h0, degree_zero]; exact_mod_cast WithBot.bot_lt_coe (q' * N)
  · have hm : (X ^ N - 1 : R[X]).Monic := by
      have := monic_X_pow_sub_C (1 : R) (by omega : N ≠ 0)
      simpa using this
    have hX : (X ^ N - 1 : R[X]).natDegree = N := by
      have := natDegree_X_pow_sub_C (R := R) (n := N) (r := 1)
      simpa using this
    have hft : f.natDegree = N + t.natDegree := by
      rw [ht, mul_comm, hm.natDegree_mul' h0, hX]
    have : t.natDegree < q' * N := by
      obtain ⟨M, rfl⟩ : ∃ M, N = M + 1 := ⟨N - 1, by omega⟩
      rw [Nat.add_sub_cancel] at hdeg
      rw [Nat.add_mul, Nat.one_mul] at hdeg
      rw [Nat.mul_add, Nat.mul_one]
      omega
    have := (natDegree_lt_iff_degree_lt h0).mp this
    exact_mod_cast this

end degree

/-! ### Examples -/

/-- `e0 = cm0 * cm1`, `e1 = e0 * e0`, `e2 = (cm0 * cm0) * (cm0 * cm0)` -/
def exExps : List (Expr Int) :=
  [.node { op := .mul } [cmE 0, cmE 1], .node { op := .mul } [expE 0, expE 0],
   .node { op := .mul } [.node { op := .mul } [cmE 0, cmE 0], .node { op := .mul } [cmE 0, cmE 0]]]

/-- the hypothesis of `calculate_im_pols_degree` is satisfied with a non-empty selection -/
example : calculateImPols 10 exExps (expE 1) 3 = some (some {0}, 1) := by decide +kernel

example : (Env.Bounded (R := Int) ⟨fun _ _ => X, fun _ _ => X, X, fun _ => 0, fun _ => 0, fun _ _ => X⟩ 1) :=
  ⟨fun _ _ => natDegree_X_le, fun _ _ => natDegree_X_le, natDegree_X_le, fun _ _ => natDegree_X_le⟩

/-- the hypotheses of `generate_degree_of_feasible` are satisfied -/
example : (generate 10 exExps [1] 2 3).isSome ∧ identExp [1] = some (expE (E := Int) 1) ∧
    selectLoop 10 exExps (expE 1) 3 = some ({0}, 1) := by
  have h : selectLoop 10 exExps (expE 1) 3 = some ({0}, 1) := by decide +kernel
  refine ⟨?_, rfl, h⟩
  simp only [generate, identExp, List.foldl, combine, Option.bind_some, h]
  simp [addIm, exExps, combine]

/-- Finding: an expression whose inline degree exceeds the maximal degree (here 4 with a maximal degree of 3) has no feasible
selection; `generate_constraint_polynomial` then silently continues with an empty selection and `q_deg = 0`, although the
constraint polynomial has degree 4: there are no quotient columns at all. -/
theorem infeasible_is_silent : ∃ c', generate 10 exExps [2] 2 3 = some (∅, 0, c') ∧
    ∀ env : Env Int, PolyOf exExps ∅ env false c' ((env.cm 0 false * env.cm 0 false) * (env.cm 0 false * env.cm 0 false)) := by
  have h : selectLoop 10 exExps (expE 2) 3 = some (∅, 0) := by decide +kernel
  refine ⟨expE 2, ?_, ?_⟩
  · simp only [generate, identExp, List.foldl, combine, Option.bind_some, h]
    simp [addIm]
  · intro env
    have cm : PolyOf exExps ∅ env false (cmE 0) (env.cm 0 false) := .cm (l := { op := .cm, id := some 0 }) rfl rfl
    exact .exp (i := 2) rfl rfl (by simp) rfl (.mul rfl (.mul rfl cm cm) (.mul rfl cm cm))

end Verif.ImPols
