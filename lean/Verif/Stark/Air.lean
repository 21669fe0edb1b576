import Verif.Stark.FriExpr
import Verif.StarkInfo.ImPolsTotal
import Mathlib.RingTheory.Polynomial.Cyclotomic.Basic
import Mathlib.RingTheory.Coprime.Lemmas

/-!
# Constraint expressions as polynomials

The link between the values of an expression at points (`Codegen.Spec.Val`) and the polynomial it denotes
(`ImPols.Spec.PolyOf`): auxiliary to the end-to-end completeness of the STARK (C75).
-/
set_option linter.unusedSectionVars false

namespace Verif.Stark
open Codegen Codegen.Spec Polynomial ImPols.Spec

variable {A : Type} [Field A]

/-- The environment at the point `z`: column `i` is the polynomial `cmP i` (`fxP i` for the constants), the next row is the
point `w * z`, and `x` is `z`. -/
def pointEnv (cmP fxP : Nat → Option A[X]) (w : A) (pub chal : List A) (z : A) : Store A := fun t i p =>
  match t with
  | .cm => (cmP i).map fun P => P.eval (if p then w * z else z)
  | .const_ => (fxP i).map fun P => P.eval (if p then w * z else z)
  | .public_ => pub[i]?
  | .challenge => chal[i]?
  | .x => some z
  | _ => none

/-- The same columns as polynomials in `z`. -/
noncomputable def polyEnv (cmP fxP : Nat → Option A[X]) (w : A) (pub chal : List A) (im2cm : Nat → Option Nat) : Env A where
  cm i p := ((cmP i).getD 0).comp (if p then C w * X else X)
  fixed i p := ((fxP i).getD 0).comp (if p then C w * X else X)
  x := X
  pub i := pub.getD i 0
  chal i := chal.getD i 0
  im k p := (((im2cm k).bind cmP).getD 0).comp (if p then C w * X else X)

theorem comp_deg {P : A[X]} {B : Nat} (h : P.natDegree ≤ B) (w : A) (p : Bool) : (P.comp (if p then C w * X else X)).natDegree ≤ B := by
  refine natDegree_comp_le.trans ?_
  have : (if p then C w * X else X : A[X]).natDegree ≤ 1 := by
    cases p
    · simp
    · exact (natDegree_C_mul_le _ _).trans (by simp)
  calc P.natDegree * _ ≤ P.natDegree * 1 := Nat.mul_le_mul_left _ this
    _ ≤ B := by omega

theorem polyEnv_bounded {cmP fxP : Nat → Option A[X]} {B : Nat} (hB : 1 ≤ B) (hc : ∀ i P, cmP i = some P → P.natDegree ≤ B)
    (hf : ∀ i P, fxP i = some P → P.natDegree ≤ B) (w : A) (pub chal : List A) (im2cm : Nat → Option Nat) :
    (polyEnv cmP fxP w pub chal im2cm).Bounded B := by
  have h0 : ∀ o : Option A[X], (∀ P, o = some P → P.natDegree ≤ B) → (o.getD 0).natDegree ≤ B := by
    intro o h
    cases o with
    | none => simp
    | some P => exact h P rfl
  refine ⟨fun i p => comp_deg (h0 _ (hc i)) w p, fun i p => comp_deg (h0 _ (hf i)) w p, by simpa [polyEnv] using hB, fun k p => comp_deg (h0 _ ?_) w p⟩
  intro P hP
  obtain ⟨c, -, h⟩ := Option.bind_eq_some_iff.mp hP
  exact hc c P h

theorem val_mono {K : Ops A} {exps : List (Expr A)} {σ σ' : Store A} (h : ∀ t i p v, σ t i p = some v → σ' t i p = some v) {d p e v}
    (hv : Val K exps σ d p e v) : Val K exps σ' d p e v := by
  induction hv with
  | add ho _ _ hz iha ihb => exact .add ho iha ihb hz
  | sub ho _ _ hz iha ihb => exact .sub ho iha ihb hz
  | mul ho _ _ hz iha ihb => exact .mul ho iha ihb hz
  | muladd ho _ _ _ hxy hz iha ihb ihc => exact .muladd ho iha ihb ihc hxy hz
  | addc ho hk _ hz iha => exact .addc ho hk iha hz
  | mulc ho hk _ hz iha => exact .mulc ho hk iha hz
  | neg ho _ hz iha => exact .neg ho iha hz
  | number ho hv => exact .number ho hv
  | col ho hi hn hv => exact .col ho hi hn (h _ _ _ _ hv)
  | byId ho hi hv => exact .byId ho hi (h _ _ _ _ hv)
  | nullary ho hv => exact .nullary ho (h _ _ _ _ hv)
  | exp ho hi hn he hv ih => exact .exp ho hi hn he ih

theorem val_depth {K : Ops A} {exps : List (Expr A)} {σ : Store A} {d d' p e v} (hv : Val K exps σ d p e v) (h : d ≤ d') :
    Val K exps σ d' p e v := by
  induction hv generalizing d' with
  | add ho _ _ hz iha ihb => exact .add ho (iha h) (ihb h) hz
  | sub ho _ _ hz iha ihb => exact .sub ho (iha h) (ihb h) hz
  | mul ho _ _ hz iha ihb => exact .mul ho (iha h) (ihb h) hz
  | muladd ho _ _ _ hxy hz iha ihb ihc => exact .muladd ho (iha h) (ihb h) (ihc h) hxy hz
  | addc ho hk _ hz iha => exact .addc ho hk (iha h) hz
  | mulc ho hk _ hz iha => exact .mulc ho hk (iha h) hz
  | neg ho _ hz iha => exact .neg ho (iha h) hz
  | number ho hv => exact .number ho hv
  | col ho hi hn hv => exact .col ho hi hn hv
  | byId ho hi hv => exact .byId ho hi hv
  | nullary ho hv => exact .nullary ho hv
  | exp ho hi hn he hv ih =>
    obtain ⟨d'', rfl⟩ : ∃ k, d' = k + 1 := ⟨d' - 1, by omega⟩
    exact .exp ho hi hn he (ih (by omega))

/-- An expression that has a value at one point denotes a polynomial, and its value at every point is the value of that
polynomial. -/
theorem polyOf_of_val {exps : List (Expr A)} {im : List Nat} {S : Finset Nat} (hS : ∀ k, k ∈ S ↔ k ∈ im) {im2cm : Nat → Option Nat}
    {cmP fxP : Nat → Option A[X]} {w : A} {pub chal : List A} {z0 : A} {d : Nat} {p : Bool} {e : Expr A} {v0 : A}
    (hv : Val (fieldOps A) (substIm im im2cm exps) (pointEnv cmP fxP w pub chal z0) d p e v0)
    (hc : (∃ k ∈ im, e = .node { op := .cm, id := im2cm k } []) ∨ Closed exps e) :
    ∃ f, (Closed exps e → PolyOf exps S (polyEnv cmP fxP w pub chal im2cm) p e f) ∧
      (∀ k ∈ im, e = .node { op := .cm, id := im2cm k } [] → f = (polyEnv cmP fxP w pub chal im2cm).im k p) ∧
      ∀ z, Val (fieldOps A) (substIm im im2cm exps) (pointEnv cmP fxP w pub chal z) d p e (f.eval z) := by
  have hev : ∀ (P : A[X]) (q : Bool) (z : A), (P.comp (if q then C w * X else X)).eval z = P.eval (if q then w * z else z) := by
    intro P q z
    cases q <;> simp
  have hcl : ∀ {l : Label A} {vs : List (Expr A)}, l.op ≠ .cm → ((∃ k ∈ im, (Codegen.Tree.node l vs : Expr A) = .node { op := .cm, id := im2cm k } []) ∨
      Closed exps (.node l vs)) → Closed exps (.node l vs) := by
    intro l vs hne h
    rcases h with ⟨k, -, h⟩ | h
    · simp only [Codegen.Tree.node.injEq] at h
      rw [h.1] at hne
      exact absurd rfl hne
    · exact h
  have hnot : ∀ {l : Label A} {vs : List (Expr A)} {k : Nat} {P : Prop}, l.op ≠ .cm → (Codegen.Tree.node l vs : Expr A) = .node { op := .cm, id := im2cm k } [] → P := by
    intro l vs k P hne h
    simp only [Codegen.Tree.node.injEq] at h
    rw [h.1] at hne
    exact absurd rfl hne
  have two : ∀ {l : Label A} {a b : Expr A}, (l.op = .add ∨ l.op = .sub ∨ l.op = .mul) → Closed exps (.node l [a, b]) → Closed exps a ∧ Closed exps b := by
    intro l a b ho h
    cases h with
    | lin h1 h2 => exact ⟨h2 a (by simp), h2 b (by simp)⟩
    | leaf h1 => rcases ho with ho | ho | ho <;> simp [ho, ImPols.constOp, ImPols.varOp] at h1
    | mul h1 h2 h3 => exact ⟨h2, h3⟩
    | exp h1 => rcases ho with ho | ho | ho <;> simp [ho] at h1
  have one : ∀ {l : Label A} {a : Expr A}, (l.op = .addc ∨ l.op = .mulc ∨ l.op = .neg) → Closed exps (.node l [a]) → Closed exps a := by
    intro l a ho h
    cases h with
    | lin h1 h2 => exact h2 a (by simp)
    | leaf h1 => rcases ho with ho | ho | ho <;> simp [ho, ImPols.constOp, ImPols.varOp] at h1
    | exp h1 => rcases ho with ho | ho | ho <;> simp [ho] at h1
  induction hv with
  | @add d p l a b x y z ho ha hb hz iha ihb =>
    have hC := hcl (by rw [ho]; simp) hc
    obtain ⟨c1, c2⟩ := two (.inl ho) hC
    obtain ⟨f, f1, -, f3⟩ := iha (.inr c1)
    obtain ⟨g, g1, -, g3⟩ := ihb (.inr c2)
    exact ⟨f + g, fun _ => .add ho (f1 c1) (g1 c2), fun k _ h => hnot (by rw [ho]; simp) h, fun z => .add ho (f3 z) (g3 z) (by simp [fieldOps])⟩
  | @sub d p l a b x y z ho ha hb hz iha ihb =>
    have hC := hcl (by rw [ho]; simp) hc
    obtain ⟨c1, c2⟩ := two (.inr (.inl ho)) hC
    obtain ⟨f, f1, -, f3⟩ := iha (.inr c1)
    obtain ⟨g, g1, -, g3⟩ := ihb (.inr c2)
    exact ⟨f - g, fun _ => .sub ho (f1 c1) (g1 c2), fun k _ h => hnot (by rw [ho]; simp) h, fun z => .sub ho (f3 z) (g3 z) (by simp [fieldOps])⟩
  | @mul d p l a b x y z ho ha hb hz iha ihb =>
    have hC := hcl (by rw [ho]; simp) hc
    obtain ⟨c1, c2⟩ := two (.inr (.inr ho)) hC
    obtain ⟨f, f1, -, f3⟩ := iha (.inr c1)
    obtain ⟨g, g1, -, g3⟩ := ihb (.inr c2)
    exact ⟨f * g, fun _ => .mul ho (f1 c1) (g1 c2), fun k _ h => hnot (by rw [ho]; simp) h, fun z => .mul ho (f3 z) (g3 z) (by simp [fieldOps])⟩
  | @muladd d p l a b c x y w xy z ho ha hb hc' hxy hz iha ihb ihc =>
    have hC := hcl (by rw [ho]; simp) hc
    cases hC with
    | lin h1 => simp [ho, ImPols.linOp] at h1
    | leaf h1 => simp [ho, ImPols.constOp, ImPols.varOp] at h1
    | exp h1 => simp [ho] at h1
  | @addc d p l a k x z ho hk ha hz iha =>
    have hC := hcl (by rw [ho]; simp) hc
    have c1 := one (.inl ho) hC
    obtain ⟨f, f1, -, f3⟩ := iha (.inr c1)
    exact ⟨f + C k, fun _ => .addc ho hk (f1 c1), fun k _ h => hnot (by rw [ho]; simp) h, fun z => .addc ho hk (f3 z) (by simp [fieldOps])⟩
  | @mulc d p l a k x z ho hk ha hz iha =>
    have hC := hcl (by rw [ho]; simp) hc
    have c1 := one (.inr (.inl ho)) hC
    obtain ⟨f, f1, -, f3⟩ := iha (.inr c1)
    exact ⟨f * C k, fun _ => .mulc ho hk (f1 c1), fun k _ h => hnot (by rw [ho]; simp) h, fun z => .mulc ho hk (f3 z) (by simp [fieldOps])⟩
  | @neg d p l a x z ho ha hz iha =>
    have hC := hcl (by rw [ho]; simp) hc
    have c1 := one (.inr (.inr ho)) hC
    obtain ⟨f, f1, -, f3⟩ := iha (.inr c1)
    exact ⟨-f, fun _ => .neg ho (f1 c1), fun k _ h => hnot (by rw [ho]; simp) h, fun z => .neg ho (f3 z) (by simp [fieldOps])⟩
  | @number d p l v ho hv =>
    exact ⟨C v, fun _ => .number ho hv, fun k _ h => hnot (by rw [ho]; simp) h, fun z => by rw [eval_C]; exact .number ho hv⟩
  | @col d p l t i v ho hi hn hv =>
    cases hop : l.op <;> simp [hop, colTy] at ho
    · subst ho
      obtain ⟨P, hP, -⟩ : ∃ P, cmP i = some P ∧ P.eval _ = v := Option.map_eq_some_iff.mp hv
      refine ⟨(polyEnv cmP fxP w pub chal im2cm).cm i (l.next || p), fun _ => .cm hop hi, ?_, fun z => ?_⟩
      · intro k _ h
        simp only [Codegen.Tree.node.injEq, and_true] at h
        subst h
        dsimp only at hi
        simp [polyEnv, hi, hP]
      · refine .col (t := .cm) (by rw [hop]; rfl) hi hn ?_
        simp only [pointEnv, polyEnv, hP, Option.map_some, Option.getD_some, hev]
    · subst ho
      obtain ⟨P, hP, -⟩ : ∃ P, fxP i = some P ∧ P.eval _ = v := Option.map_eq_some_iff.mp hv
      refine ⟨(polyEnv cmP fxP w pub chal im2cm).fixed i (l.next || p), fun _ => .fixed hop hi, fun k _ h => hnot (by rw [hop]; simp) h, fun z => ?_⟩
      refine .col (t := .const_) (by rw [hop]; rfl) hi hn ?_
      simp only [pointEnv, polyEnv, hP, Option.map_some, Option.getD_some, hev]
    · subst ho; simp [pointEnv] at hv
  | @byId d p l t i v ho hi hv =>
    cases hop : l.op <;> simp [hop, idTy] at ho
    · subst ho
      have hv : pub[i]? = some v := hv
      refine ⟨C v, fun _ => ?_, fun k _ h => hnot (by rw [hop]; simp) h, fun z => ?_⟩
      · have : C v = C ((polyEnv cmP fxP w pub chal im2cm).pub i) := by simp [polyEnv, List.getD_eq_getElem?_getD, hv]
        rw [this]; exact .pub hop hi
      · rw [eval_C]; exact .byId (t := .public_) (by rw [hop]; rfl) hi hv
    · subst ho
      have hv : chal[i]? = some v := hv
      refine ⟨C v, fun _ => ?_, fun k _ h => hnot (by rw [hop]; simp) h, fun z => ?_⟩
      · have : C v = C ((polyEnv cmP fxP w pub chal im2cm).chal i) := by simp [polyEnv, List.getD_eq_getElem?_getD, hv]
        rw [this]; exact .chal hop hi
      · rw [eval_C]; exact .byId (t := .challenge) (by rw [hop]; rfl) hi hv
    · subst ho; simp [pointEnv] at hv
  | @nullary d p l t v ho hv =>
    cases hop : l.op <;> simp [hop, nullTy] at ho
    · subst ho; simp [pointEnv] at hv
    · subst ho; simp [pointEnv] at hv
    · subst ho
      refine ⟨X, fun _ => .x hop, fun k _ h => hnot (by rw [hop]; simp) h, fun z => ?_⟩
      rw [eval_X]; exact .nullary (t := .x) (by rw [hop]; rfl) rfl
  | @exp d p l i e v ho hi hn he hv ih =>
    have hC := hcl (by rw [ho]; simp) hc
    rw [substIm, List.getElem?_mapIdx] at he
    obtain ⟨e0, he0, hee⟩ := Option.map_eq_some_iff.mp he
    have hC0 : Closed exps e0 := by
      cases hC with
      | lin h1 => simp [ho, ImPols.linOp] at h1
      | leaf h1 => simp [ho, ImPols.constOp, ImPols.varOp] at h1
      | exp h1 h2 h3 h4 =>
        rw [hi] at h2; cases h2
        rw [he0] at h3; cases h3
        exact h4
    by_cases hk : i ∈ im
    · rw [if_pos hk] at hee
      obtain ⟨f, -, f2, f3⟩ := ih (.inl ⟨i, hk, hee.symm⟩)
      refine ⟨f, fun _ => ?_, fun k _ h => hnot (by rw [ho]; simp) h, fun z => ?_⟩
      · rw [f2 i hk hee.symm]
        exact .im ho hi ((hS i).mpr hk)
      · refine .exp ho hi hn ?_ (f3 z)
        rw [substIm, List.getElem?_mapIdx, he0, Option.map_some, if_pos hk, hee]
    · rw [if_neg hk] at hee
      subst hee
      obtain ⟨f, f1, -, f3⟩ := ih (.inr hC0)
      refine ⟨f, fun _ => .exp ho hi (fun h => hk ((hS i).mp h)) he0 (f1 hC0), fun k _ h => hnot (by rw [ho]; simp) h, fun z => ?_⟩
      refine .exp ho hi hn ?_ (f3 z)
      rw [substIm, List.getElem?_mapIdx, he0, Option.map_some, if_neg hk]

/-! ### The constraint polynomial -/

/-- `im_exp2cm`, starkinfo_cp_prover.rs L58-62: the selected expressions, sorted, get the columns from `nCm` on -/
def im2cmOf (S : Finset Nat) (nCm k : Nat) : Option Nat := if k ∈ S then some (nCm + (S.sort (· ≤ ·)).idxOf k) else none

theorem im2cmOf_zipIdx {S : Finset Nat} {nCm : Nat} {x : Nat × Nat} (hx : x ∈ (S.sort (· ≤ ·)).zipIdx) :
    x.1 ∈ S ∧ im2cmOf S nCm x.1 = some (nCm + x.2) := by
  obtain ⟨k, i⟩ := x
  rw [List.mk_mem_zipIdx_iff_getElem?] at hx
  obtain ⟨hi, hk⟩ := List.getElem?_eq_some_iff.mp hx
  have hS : k ∈ S := (Finset.mem_sort (· ≤ ·)).mp (List.mem_of_getElem? hx)
  refine ⟨hS, ?_⟩
  rw [im2cmOf, if_pos hS]
  dsimp only at hk ⊢
  rw [← hk, List.Nodup.idxOf_getElem (Finset.sort_nodup _ _)]

theorem im2cmOf_lt {S : Finset Nat} {nCm k c : Nat} (h : im2cmOf S nCm k = some c) : k ∈ S ∧ nCm ≤ c ∧ c < nCm + S.card := by
  unfold im2cmOf at h
  split_ifs at h with hS
  obtain rfl := Option.some.inj h
  refine ⟨hS, by omega, ?_⟩
  have := List.idxOf_lt_length_of_mem ((Finset.mem_sort (· ≤ ·)).mpr hS)
  rw [Finset.length_sort] at this
  omega

section
variable {exps : List (Expr A)} {σ : Store A} {d : Nat} {vc : A}

theorem val_combine {exps' : List (Expr A)} (hvc : σ .challenge 4 false = some vc) {c e c' : Expr A}
    (hc : Val (fieldOps A) exps' σ d false c 0) (he : Val (fieldOps A) exps' σ d false e 0) (h : ImPols.combine (some c) e = some c') :
    Val (fieldOps A) exps' σ d false c' 0 := by
  simp only [ImPols.combine, Option.some.injEq] at h
  subst h
  exact .add (x := 0) (y := 0) rfl (.mul (x := vc) (y := 0) rfl (.byId (t := .challenge) (i := 4) rfl rfl hvc) hc (by simp [fieldOps])) he (by simp [fieldOps])

theorem val_addIm {exps' : List (Expr A)} (hvc : σ .challenge 4 false = some vc) (nCm : Nat) : ∀ (ks : List (Nat × Nat)),
    (∀ x ∈ ks, ∃ e v, exps[x.1]? = some e ∧ Val (fieldOps A) exps' σ d false e v ∧ σ .cm (nCm + x.2) false = some v) →
    ∀ c c', Val (fieldOps A) exps' σ d false c 0 → ImPols.addIm exps nCm ks (some c) = some c' → Val (fieldOps A) exps' σ d false c' 0
  | [], _, c, c', hc, h => by
    simp only [ImPols.addIm, Option.some.injEq] at h
    subst h; exact hc
  | (k, i) :: ks, hks, c, c', hc, h => by
    rw [ImPols.addIm] at h
    obtain ⟨e, he, h⟩ := Option.bind_eq_some_iff.mp h
    obtain ⟨e', v, h1, h2, h3⟩ := hks (k, i) (by simp)
    dsimp only at h1 h3
    rw [he] at h1; cases h1
    refine val_addIm hvc nCm ks (fun x hx => hks x (by simp [hx])) _ c' (val_combine hvc hc ?_ rfl) h
    exact .sub (x := v) (y := v) rfl h2 (.col (t := .cm) (i := nCm + i) rfl rfl rfl h3) (by simp [fieldOps])

theorem val_identExp {exps' : List (Expr A)} (hvc : σ .challenge 4 false = some vc) {ids : List Nat}
    (hid : ∀ id ∈ ids, Val (fieldOps A) exps' σ d false (ImPols.expE id) 0) {c : Expr A} (h : ImPols.identExp ids = some c) :
    Val (fieldOps A) exps' σ d false c 0 := by
  have main : ∀ (ids : List Nat) (o : Option (Expr A)), (∀ c, o = some c → Val (fieldOps A) exps' σ d false c 0) →
      (∀ id ∈ ids, Val (fieldOps A) exps' σ d false (ImPols.expE id) 0) →
      ∀ c, ids.foldl (fun c i => ImPols.combine c (ImPols.expE i)) o = some c → Val (fieldOps A) exps' σ d false c 0 := by
    intro ids
    induction ids with
    | nil => intro o ho _ c h; exact ho c h
    | cons id ids ih =>
      intro o ho hid c h
      rw [List.foldl_cons] at h
      refine ih _ ?_ (fun i hi => hid i (by simp [hi])) c h
      intro c1 h1
      cases o with
      | none =>
        simp only [ImPols.combine, Option.some.injEq] at h1
        subst h1; exact hid id (by simp)
      | some c0 => exact val_combine hvc (ho c0 rfl) (hid id (by simp)) h1
  exact main ids none (by simp) hid c h

/-- The constraint expression vanishes wherever the identities do and the columns of the selected expressions hold their values. -/
theorem val_generate {exps' : List (Expr A)} (hvc : σ .challenge 4 false = some vc) {fuel nCm maxDeg q : Nat} {ids : List Nat} {S : Finset Nat}
    {c' : Expr A} (h : ImPols.generate fuel exps ids nCm maxDeg = some (S, q, c'))
    (hid : ∀ id ∈ ids, Val (fieldOps A) exps' σ d false (ImPols.expE id) 0)
    (him : ∀ k ∈ S, ∃ e v c, exps[k]? = some e ∧ Val (fieldOps A) exps' σ d false e v ∧ im2cmOf S nCm k = some c ∧ σ .cm c false = some v) :
    Val (fieldOps A) exps' σ d false c' 0 := by
  obtain ⟨c, hc, h⟩ := Option.bind_eq_some_iff.mp h
  obtain ⟨⟨S', q'⟩, hs, h⟩ := Option.bind_eq_some_iff.mp h
  dsimp only at h
  split_ifs at h
  obtain ⟨c2, h2, h3⟩ := Option.map_eq_some_iff.mp h
  simp only [Prod.mk.injEq] at h3
  obtain ⟨rfl, rfl, rfl⟩ := h3
  refine val_addIm hvc nCm _ ?_ c _ (val_identExp hvc hid hc) h2
  intro x hx
  obtain ⟨h4, h5⟩ := im2cmOf_zipIdx (nCm := nCm) hx
  obtain ⟨e, v, c1, a1, a2, a3, a4⟩ := him x.1 h4
  rw [h5] at a3
  obtain rfl := Option.some.inj a3
  exact ⟨e, v, a1, a2, a4⟩

end

theorem closed_generate {E : Type} {exps : List (Expr E)} {fuel nCm maxDeg q : Nat} {ids : List Nat} {S : Finset Nat} {c' : Expr E}
    (h : ImPols.generate fuel exps ids nCm maxDeg = some (S, q, c')) (hcl : ∀ e ∈ exps, Closed exps e) (hids : ∀ id ∈ ids, id < exps.length) :
    Closed exps c' := by
  have comb : ∀ c e c' : Expr E, Closed exps c → Closed exps e → ImPols.combine (some c) e = some c' → Closed exps c' := by
    intro c e c' hc he h
    simp only [ImPols.combine, Option.some.injEq] at h
    subst h
    refine .lin rfl fun v hv => ?_
    simp only [List.mem_cons, List.not_mem_nil, or_false] at hv
    rcases hv with rfl | rfl
    · exact .mul rfl (.leaf (.inl rfl)) hc
    · exact he
  obtain ⟨c, hc, h⟩ := Option.bind_eq_some_iff.mp h
  obtain ⟨⟨S', q'⟩, hs, h⟩ := Option.bind_eq_some_iff.mp h
  dsimp only at h
  split_ifs at h
  obtain ⟨c2, h2, h3⟩ := Option.map_eq_some_iff.mp h
  simp only [Prod.mk.injEq] at h3
  obtain ⟨rfl, rfl, rfl⟩ := h3
  have hc1 : Closed exps c := by
    have main : ∀ (ids : List Nat) (o : Option (Expr E)), (∀ c, o = some c → Closed exps c) → (∀ id ∈ ids, id < exps.length) →
        ∀ c, ids.foldl (fun c i => ImPols.combine c (ImPols.expE i)) o = some c → Closed exps c := by
      intro ids
      induction ids with
      | nil => intro o ho _ c h; exact ho c h
      | cons id ids ih =>
        intro o ho hid c h
        rw [List.foldl_cons] at h
        refine ih _ ?_ (fun i hi => hid i (by simp [hi])) c h
        have hE : Closed exps (ImPols.expE id) :=
          .exp rfl rfl (List.getElem?_eq_getElem (hid id (by simp))) (hcl _ (List.getElem_mem _))
        intro c1 h1
        cases o with
        | none =>
          simp only [ImPols.combine, Option.some.injEq] at h1
          subst h1; exact hE
        | some c0 => exact comb _ _ _ (ho c0 rfl) hE h1
    exact main ids none (by simp) hids c hc
  have main2 : ∀ (ks : List (Nat × Nat)) c c', Closed exps c → ImPols.addIm exps nCm ks (some c) = some c' → Closed exps c' := by
    intro ks
    induction ks with
    | nil => intro c c' hc h; simp only [ImPols.addIm, Option.some.injEq] at h; subst h; exact hc
    | cons x ks ih =>
      obtain ⟨k, i⟩ := x
      intro c c' hc h
      rw [ImPols.addIm] at h
      obtain ⟨e, he, h⟩ := Option.bind_eq_some_iff.mp h
      refine ih _ c' (comb c _ _ hc ?_ rfl) h
      refine .lin rfl fun v hv => ?_
      simp only [List.mem_cons, List.not_mem_nil, or_false] at hv
      rcases hv with rfl | rfl
      · exact hcl _ (List.mem_of_getElem? he)
      · exact .leaf (.inr rfl)
  exact main2 _ _ _ hc1 h2

/-- a polynomial that vanishes on the powers of a primitive root is a multiple of `X ^ N - 1` -/
theorem vanish_dvd {N : Nat} (hN : 0 < N) {w : A} (hw : IsPrimitiveRoot w N) {f : A[X]} (h : ∀ i < N, f.eval (w ^ i) = 0) :
    ∃ t, f = t * (X ^ N - 1) := by
  classical
  have h1 : (X ^ N - 1 : A[X]) = ∏ i ∈ Finset.range N, (X - C (w ^ i)) := by
    rw [X_pow_sub_one_eq_prod hN hw]
    have himg : Polynomial.nthRootsFinset N (1 : A) = (Finset.range N).image fun i => w ^ i := by
      ext x
      rw [mem_nthRootsFinset hN, Finset.mem_image]
      constructor
      · intro hx
        have : NeZero N := ⟨by omega⟩
        obtain ⟨i, hi, rfl⟩ := hw.eq_pow_of_pow_eq_one hx
        exact ⟨i, Finset.mem_range.mpr hi, rfl⟩
      · rintro ⟨i, -, rfl⟩
        rw [← pow_mul, mul_comm, pow_mul, hw.pow_eq_one, one_pow]
    rw [himg, Finset.prod_image]
    intro i hi j hj hij
    exact hw.pow_inj (by simpa using hi) (by simpa using hj) hij
  have h2 : (∏ i ∈ Finset.range N, (X - C (w ^ i))) ∣ f := by
    refine Finset.prod_dvd_of_coprime ?_ ?_
    · intro i hi j hj hij
      refine isCoprime_X_sub_C_of_isUnit_sub ?_
      refine isUnit_iff_ne_zero.mpr (sub_ne_zero.mpr fun he => hij ?_)
      exact hw.pow_inj (by simpa using hi) (by simpa using hj) he
    · intro i hi
      rw [dvd_iff_isRoot]
      exact h i (by simpa using hi)
  rw [← h1] at h2
  obtain ⟨t, ht⟩ := h2
  exact ⟨t, by rw [ht, mul_comm]⟩

end Verif.Stark
