import Verif.Grand.Columns
import Verif.Grand.Link

/-!
# The values that the programs of the second and third round compute
-/
set_option linter.unusedSectionVars false

namespace Verif.Grand
open Codegen Codegen.Spec Stark ImPols ImPols.Spec FFT Fri
open Verif.GL (F)
open Verif.Ext3 (K coord)

/-! ### Stores of a stage -/

/-- the committed columns below `lim` -/
noncomputable def stageCm (R : Run) (T : Trace) (ch : List K) (lim k r : Nat) : Option K := if lim ≤ k then none else trCm R T ch k r

theorem stage_rows (R : Run) (T : Trace) (ch : List K) (lim i : Nat) : stageStore R T ch lim i =
    rowStore (2 ^ R.nb) (stageCm R T ch lim) (trFx R T) R.publics ch (fun i => mgK R.nb ^ i) i := by
  funext t k p
  unfold stageStore
  rw [trace_rows]
  cases t <;> simp [rowStore, stageCm]

/-- what a stage reads is what a later stage reads -/
theorem stage_le {R : Run} {T T' : Trace} {ch ch' : List K} {lim lim' : Nat} (hl : lim ≤ lim')
    (hcm : ∀ k < lim, ∀ r, trCm R T ch k r = trCm R T' ch' k r) (hfx : trFx R T = trFx R T') (hch : ch <+: ch') (i : Nat) :
    ∀ t k p v, stageStore R T ch lim i t k p = some v → stageStore R T' ch' lim' i t k p = some v := by
  intro t k p v h
  have hcase : t = .cm ∨ t = .const_ ∨ t = .challenge ∨ (t ≠ .cm ∧ t ≠ .const_ ∧ t ≠ .challenge) := by
    by_cases h1 : t = .cm
    · exact .inl h1
    by_cases h2 : t = .const_
    · exact .inr (.inl h2)
    by_cases h3 : t = .challenge
    · exact .inr (.inr (.inl h3))
    exact .inr (.inr (.inr ⟨h1, h2, h3⟩))
  rw [stage_rows] at h ⊢
  rcases hcase with rfl | rfl | rfl | ⟨h1, h2, h3⟩
  · simp only [rowStore, stageCm] at h ⊢
    by_cases h1 : lim ≤ k
    · rw [if_pos h1] at h; simp at h
    · rw [if_neg h1] at h
      rw [if_neg (by omega), ← hcm k (by omega)]
      exact h
  · simp only [rowStore] at h ⊢
    rw [← hfx]; exact h
  · simp only [rowStore] at h ⊢
    obtain ⟨s, rfl⟩ := hch
    rw [List.getElem?_append_left (List.getElem?_eq_some_iff.mp h).1]
    exact h
  · cases t <;> simp only [rowStore, ne_eq, not_true_eq_false, reduceCtorEq, not_false_eq_true] at h h1 h2 h3 ⊢ <;> exact h

theorem stage_trace {R : Run} {T T' : Trace} {ch ch' : List K} {lim : Nat}
    (hcm : ∀ k < lim, ∀ r, trCm R T ch k r = trCm R T' ch' k r) (hfx : trFx R T = trFx R T') (hch : ch <+: ch') (i : Nat) :
    ∀ t k p v, stageStore R T ch lim i t k p = some v → traceStore R T' ch' i t k p = some v := by
  intro t k p v h
  have := stage_le (lim' := max lim (k + 1)) (Nat.le_max_left _ _) hcm hfx hch i t k p v h
  unfold stageStore at this
  rwa [if_neg (by omega)] at this

/-! ### Running a program -/

theorem ExpVal.mono {exps : List (Expr K)} {σ σ' : Store K} (h : ∀ t i p v, σ t i p = some v → σ' t i p = some v) {p : Bool} {id : Nat} {v : K}
    (hv : ExpVal (fieldOps K) exps σ p id v) : ExpVal (fieldOps K) exps σ' p id v := by
  obtain ⟨d, e, h1, h2⟩ := hv
  exact ⟨d, e, h1, Stark.val_mono h h2⟩

theorem ExpVal.col {exps : List (Expr K)} {σ : Store K} {id : Nat} {v : K} (hv : ExpVal (fieldOps K) exps σ false id v) :
    ∃ d, Val (fieldOps K) exps σ d false (eExp id) v := by
  obtain ⟨d, e, h1, h2⟩ := hv
  exact ⟨d + 1, v_exp rfl h1 h2⟩

/-- an expression whose inputs are present has a value -/
theorem bnd_val {R : Run} {T : Trace} {exps : List (Expr K)} {lims : List Lim} (hsc : Scoped T.nConst R.publics.length exps lims) {σ : Store K}
    {c q : Nat} {pr : Bool} (hcov : Covers T.nConst R.publics.length σ ⟨c, q, pr⟩) {id : Nat} (hb : Bnd lims id c q false) :
    ∃ e v, exps[id]? = some e ∧ Val (fieldOps K) exps σ id false e v := by
  obtain ⟨m, h1, h2, h3, -⟩ := hb
  exact scoped_total hsc σ id m h1 (hcov.mono h2 h3) false (by simp)

/-- the depth of an expression is its number -/
theorem bnd_depth {R : Run} {T : Trace} {exps : List (Expr K)} {lims : List Lim} (hsc : Scoped T.nConst R.publics.length exps lims) {σ : Store K}
    {c q : Nat} {pr : Bool} (hcov : Covers T.nConst R.publics.length σ ⟨c, q, pr⟩) {id : Nat} (hb : Bnd lims id c q false) {v : K}
    (hv : ExpVal (fieldOps K) exps σ false id v) : ∃ e, exps[id]? = some e ∧ Val (fieldOps K) exps σ id false e v := by
  obtain ⟨m, h1, h2, h3, -⟩ := hb
  obtain ⟨d, e, h4, h5⟩ := hv
  exact ⟨e, h4, scoped_depth hsc h1 (hcov.mono h2 h3) (by simp) h4 h5⟩

theorem bnd_choose {R : Run} {T : Trace} {exps : List (Expr K)} {lims : List Lim} (hsc : Scoped T.nConst R.publics.length exps lims)
    {σ : Nat → Store K} {c q : Nat} {pr : Bool} (hcov : ∀ i, Covers T.nConst R.publics.length (σ i) ⟨c, q, pr⟩) {id : Nat}
    (hb : Bnd lims id c q false) : ∃ v : Nat → K, ∀ i, ExpVal (fieldOps K) exps (σ i) false id (v i) := by
  have : ∀ i, ∃ v, ExpVal (fieldOps K) exps (σ i) false id v := fun i => by
    obtain ⟨e, v, h1, h2⟩ := bnd_val hsc (hcov i) hb
    exact ⟨v, id, e, h1, h2⟩
  exact ⟨fun i => (this i).choose, fun i => (this i).choose_spec⟩

theorem mapM_option_map {α β γ : Type} (f : α → Option β) (g : β → γ) : ∀ l : List α, (l.mapM fun a => (f a).map g) = (l.mapM f).map (List.map g)
  | [] => rfl
  | a :: l => by
    rw [List.mapM_cons, List.mapM_cons, mapM_option_map f g l]
    cases f a <;> simp
    cases l.mapM f <;> simp

/-- **the program computes the requested expressions on every row** -/
theorem run_spec {R : Run} {T : Trace} {ch : List K} {exps : List (Expr K)} {lims : List Lim} (hsc : Scoped T.nConst R.publics.length exps lims)
    {lim q : Nat} (hcov : ∀ i, Covers T.nConst R.publics.length (stageStore R T ch lim i) ⟨lim, q, false⟩) {reqs : List Req}
    (hr : ∀ r ∈ reqs, r = { id := r.id }) (hb : ∀ r ∈ reqs, Bnd lims r.id lim q false) {fuel : Nat} (hf : exps.length ≤ fuel) {t0 : Nat} {ctx : Ctx K}
    (hg : genAll 0 exps fuel reqs ⟨t0, [], []⟩ = some ctx) :
    ∃ σs, runRows R T ch lim (linearCode ctx) = some σs ∧ ∀ r ∈ reqs, ∀ v : Nat → K,
      (∀ i < 2 ^ R.nb, ExpVal (fieldOps K) exps (stageStore R T ch lim i) false r.id (v i)) →
      (σs.mapM fun σ : Store K => σ .exp r.id false) = some (rows (2 ^ R.nb) v) := by
  have key : ∀ i, ∃ σ, exec (fieldOps K) (linearCode ctx) (stageStore R T ch lim i) = some σ ∧ ∀ r ∈ reqs, ∀ v,
      ExpVal (fieldOps K) exps (stageStore R T ch lim i) false r.id v → σ .exp r.id false = some v := by
    intro i
    have hp : ∀ r ∈ reqs, r.prime = false := fun r h => by rw [hr r h]
    obtain ⟨ctx', σ, h1, h2, h3, -⟩ := codegen_spec (K := fieldOps K) (exps := exps) (σ0 := stageStore R T ch lim i) fuel t0 [] reqs (by simp)
      (fun _ _ _ a b => by simp [fieldOps, add_comm]) (fun r h => by
        obtain ⟨e, v, h4, h5⟩ := bnd_val (R := R) (T := T) hsc (hcov i) (hb r h)
        have := (List.getElem?_eq_some_iff.mp h4).1
        exact ⟨r.id, e, v, by omega, h4, by rw [hp r h]; exact h5⟩) (fun r h j hj => by rw [hr r h] at hj; simp at hj)
      (by
        have : reqs.filterMap Req.res = [] := List.filterMap_eq_nil_iff.mpr fun r h => by rw [hr r h]
        rw [this]; simp)
    have e : ctx' = ctx := Option.some.inj (h1.symm.trans hg)
    subst e
    exact ⟨σ, h2, fun r h v hv => by have := (h3 r h v (by rw [hp r h]; exact hv)).1; rwa [hp r h] at this⟩
  choose σ hσ1 hσ2 using key
  refine ⟨(List.range (2 ^ R.nb)).map σ, mapM_map _ fun i _ => hσ1 i, fun r h v hv => ?_⟩
  rw [List.mapM_map]
  exact mapM_map _ fun i hi => hσ2 i r h (v i) (hv i (List.mem_range.mp hi))

theorem readExp_rows {σs : List (Store K)} {id N : Nat} {v : Nat → K} (h : (σs.mapM fun σ : Store K => σ .exp id false) = some (rows N v)) (dim : Nat) :
    readExp σs dim id = some (rows N fun i => stored dim (v i)) := by
  unfold readExp
  rw [mapM_option_map (fun σ : Store K => σ .exp id false) (stored dim), h]
  simp [rows]

/-! ### Dimensions -/

theorem substIm_nil {E : Type} (im2cm : Nat → Option Nat) (exps : List (Expr E)) : substIm [] im2cm exps = exps := by
  unfold substIm
  apply List.ext_getElem?
  intro i
  simp

/-- the value of an expression of dimension 1 on a row of the trace is in the base field -/
theorem trace_base {R : Run} {T : Trace} {ch : List K} {exps : List (Expr K)} (hnum : ∀ e ∈ exps, NumBase e) (hpub : ∀ v ∈ R.publics, Base v)
    (hd3 : ∀ k c, R.pos k = some c → c.dim = 1 ∨ c.dim = 3) {lim i id : Nat} {v : K} (hv : ExpVal (fieldOps K) exps (stageStore R T ch lim i) false id v)
    (hdim : ∃ e n m, exps[id]? = some e ∧ expDim exps (fun k => (R.pos k).map ColPos.dim) n e = some m ∧ m ≤ 1) : Base v := by
  obtain ⟨d, e, h1, h2⟩ := hv
  obtain ⟨e', n, m, h3, h4, h5⟩ := hdim
  obtain rfl : e = e' := Option.some.inj (h1.symm.trans h3)
  have h2' : Val (fieldOps K) (substIm [] (fun _ => none) exps) (stageStore R T ch lim i) d false e v := by rw [substIm_nil]; exact h2
  refine val_base (dims := fun k => (R.pos k).map ColPos.dim) hnum (by simp) ?_ ?_ h2' n m (hnum e (List.mem_of_getElem? h1)) h4 h5
  · rintro k p v hv ⟨d', g1, g2⟩
    unfold stageStore at hv
    split_ifs at hv
    simp only [traceStore] at hv
    obtain ⟨c, h6, h7⟩ := Option.bind_eq_some_iff.mp hv
    by_cases ht : 1 ≤ c.tree ∧ c.tree ≤ 3
    case neg => rw [if_neg ht] at h7; simp at h7
    rw [if_pos ht] at h7
    obtain rfl := Option.some.inj h7
    rw [h6] at g1
    have := hd3 k c h6
    simp only [Option.map_some, Option.some.injEq] at g1
    rw [show c.dim = 1 by omega]
    exact ⟨_, if_pos rfl⟩
  · rintro t k p v hv (rfl | rfl | rfl)
    · unfold stageStore at hv
      rw [if_neg (by simp)] at hv
      simp only [traceStore] at hv
      by_cases hk : k < T.nConst
      case neg => rw [if_neg hk] at hv; simp at hv
      rw [if_pos hk] at hv
      obtain rfl := Option.some.inj hv
      exact ⟨_, if_pos rfl⟩
    · unfold stageStore at hv
      rw [if_neg (by simp)] at hv
      exact hpub v (List.mem_of_getElem? hv)
    · unfold stageStore at hv
      rw [if_neg (by simp)] at hv
      simp only [traceStore] at hv
      obtain rfl := Option.some.inj hv
      exact ⟨Roots.mg R.nb ^ i, by rw [map_pow]; rfl⟩

end Verif.Grand
