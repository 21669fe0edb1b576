import Verif.Grand.Model
import Verif.Grand.Plookup

/-!
# Values of the generated expressions
-/
set_option linter.unusedSectionVars false

namespace Verif.Grand
open Codegen Codegen.Spec Stark

variable {A : Type} [Field A]

/-! ### Specification: the rows of a table -/

/-- Row `i` of a table with `N` rows as the expressions see it: committed columns `cm` and constant columns `fx`, at row `i` or, primed,
at the next row, cyclically; public values, challenges, and the point `x i` of the row. -/
def rowStore (N : Nat) (cm fx : Nat → Nat → Option A) (pub chal : List A) (x : Nat → A) (i : Nat) : Store A := fun t k p =>
  let r := (i + if p then 1 else 0) % N
  match t with
  | .cm => cm k r
  | .const_ => fx k r
  | .public_ => pub[k]?
  | .challenge => chal[k]?
  | .x => some (x i)
  | _ => none

/-- the expression neither mentions `x` nor refers to an expression numbered `n` or above -/
inductive Plain {E : Type} (n : Nat) : Expr E → Prop
  | mk {l vs} : l.op ≠ .x → (∀ i, l.op = .exp → l.id = some i → i < n) → (∀ c ∈ vs, Plain n c) → Plain n (.node l vs)

/-! ### Evaluation of the constructors -/

section
variable {exps : List (Expr A)} {σ : Store A} {d : Nat} {p : Bool}

theorem v_add {a b : Expr A} {x y : A} (ha : Val (fieldOps A) exps σ d p a x) (hb : Val (fieldOps A) exps σ d p b y) :
    Val (fieldOps A) exps σ d p (eAdd a b) (x + y) := .add rfl ha hb rfl

theorem v_sub {a b : Expr A} {x y : A} (ha : Val (fieldOps A) exps σ d p a x) (hb : Val (fieldOps A) exps σ d p b y) :
    Val (fieldOps A) exps σ d p (eSub a b) (x - y) := .sub rfl ha hb rfl

theorem v_mul {a b : Expr A} {x y : A} (ha : Val (fieldOps A) exps σ d p a x) (hb : Val (fieldOps A) exps σ d p b y) :
    Val (fieldOps A) exps σ d p (eMul a b) (x * y) := .mul rfl ha hb rfl

theorem v_num (v : A) : Val (fieldOps A) exps σ d p (eNum v) v := .number rfl rfl

theorem v_chal {i : Nat} {v : A} (h : σ .challenge i false = some v) : Val (fieldOps A) exps σ d p (eChallenge i) v :=
  .byId (t := .challenge) rfl rfl h

theorem v_cm {i : Nat} {n : Bool} {v : A} (hn : (n && p) = false) (h : σ .cm i (n || p) = some v) : Val (fieldOps A) exps σ d p (eCm i n) v :=
  .col (t := .cm) rfl rfl hn h

theorem v_const {i : Nat} {v : A} (h : σ .const_ i p = some v) : Val (fieldOps A) exps σ d p (eCol .const_ i) v :=
  .col (t := .const_) rfl rfl (by simp) (by simpa using h)

theorem v_x {v : A} (h : σ .x 0 false = some v) : Val (fieldOps A) exps σ d p eX v := .nullary (t := .x) rfl h

theorem v_exp {i : Nat} {n : Bool} {e : Expr A} {v : A} (hn : (n && p) = false) (he : exps[i]? = some e)
    (h : Val (fieldOps A) exps σ d (n || p) e v) : Val (fieldOps A) exps σ (d + 1) p (eExp i n) v := .exp rfl rfl hn he h

theorem i_add {a b : Expr A} {v : A} (h : Val (fieldOps A) exps σ d p (eAdd a b) v) :
    ∃ x y, Val (fieldOps A) exps σ d p a x ∧ Val (fieldOps A) exps σ d p b y ∧ v = x + y := by
  cases h with
  | add _ ha hb hz => exact ⟨_, _, ha, hb, by simpa [fieldOps] using hz.symm⟩
  | sub h => simp at h
  | mul h => simp at h

theorem i_sub {a b : Expr A} {v : A} (h : Val (fieldOps A) exps σ d p (eSub a b) v) :
    ∃ x y, Val (fieldOps A) exps σ d p a x ∧ Val (fieldOps A) exps σ d p b y ∧ v = x - y := by
  cases h with
  | sub _ ha hb hz => exact ⟨_, _, ha, hb, by simpa [fieldOps] using hz.symm⟩
  | add h => simp at h
  | mul h => simp at h

theorem i_mul {a b : Expr A} {v : A} (h : Val (fieldOps A) exps σ d p (eMul a b) v) :
    ∃ x y, Val (fieldOps A) exps σ d p a x ∧ Val (fieldOps A) exps σ d p b y ∧ v = x * y := by
  cases h with
  | mul _ ha hb hz => exact ⟨_, _, ha, hb, by simpa [fieldOps] using hz.symm⟩
  | add h => simp at h
  | sub h => simp at h

theorem i_num {k v : A} (h : Val (fieldOps A) exps σ d p (eNum k) v) : v = k := val_unique h (v_num (d := d) k)

theorem i_chal {i : Nat} {v : A} (h : Val (fieldOps A) exps σ d p (eChallenge i) v) : σ .challenge i false = some v := by
  cases h with
  | byId ho hi h => simp [idTy] at ho hi; subst ho hi; exact h
  | col ho => simp [colTy] at ho
  | nullary ho => simp [nullTy] at ho
  | number ho => simp at ho
  | exp ho => simp at ho

theorem i_cm {i : Nat} {n : Bool} {v : A} (h : Val (fieldOps A) exps σ d p (eCm i n) v) : (n && p) = false ∧ σ .cm i (n || p) = some v := by
  cases h with
  | col ho hi hn h => simp [colTy] at ho hi; subst ho hi; exact ⟨hn, h⟩
  | byId ho => simp [idTy] at ho
  | nullary ho => simp [nullTy] at ho
  | number ho => simp at ho
  | exp ho => simp at ho

theorem i_const {i : Nat} {v : A} (h : Val (fieldOps A) exps σ d p (eCol .const_ i) v) : σ .const_ i p = some v := by
  cases h with
  | col ho hi hn h => simp [colTy] at ho hi; subst ho hi; simpa using h
  | byId ho => simp [idTy] at ho
  | nullary ho => simp [nullTy] at ho
  | number ho => simp at ho
  | exp ho => simp at ho

theorem i_x {v : A} (h : Val (fieldOps A) exps σ d p eX v) : σ .x 0 false = some v := by
  cases h with
  | nullary ho h => simp [nullTy] at ho; subst ho; exact h
  | byId ho => simp [idTy] at ho
  | col ho => simp [colTy] at ho
  | number ho => simp at ho
  | exp ho => simp at ho

theorem i_exp {i : Nat} {n : Bool} {v : A} (h : Val (fieldOps A) exps σ d p (eExp i n) v) :
    ∃ d' e, d = d' + 1 ∧ (n && p) = false ∧ exps[i]? = some e ∧ Val (fieldOps A) exps σ d' (n || p) e v := by
  cases h with
  | exp ho hi hn he h => simp at hi; subst hi; exact ⟨_, _, rfl, hn, he, h⟩
  | byId ho => simp [idTy] at ho
  | nullary ho => simp [nullTy] at ho
  | number ho => simp at ho
  | col ho => simp [colTy] at ho

/-- appending expressions does not change values -/
theorem v_append {e : Expr A} {v : A} (h : Val (fieldOps A) exps σ d p e v) (more : List (Expr A)) :
    Val (fieldOps A) (exps ++ more) σ d p e v := by
  induction h with
  | add ho _ _ hz iha ihb => exact .add ho iha ihb hz
  | sub ho _ _ hz iha ihb => exact .sub ho iha ihb hz
  | mul ho _ _ hz iha ihb => exact .mul ho iha ihb hz
  | muladd ho _ _ _ h1 h2 iha ihb ihc => exact .muladd ho iha ihb ihc h1 h2
  | addc ho hk _ hz ih => exact .addc ho hk ih hz
  | mulc ho hk _ hz ih => exact .mulc ho hk ih hz
  | neg ho _ hz ih => exact .neg ho ih hz
  | number ho hv => exact .number ho hv
  | col ho hi hn h => exact .col ho hi hn h
  | byId ho hi h => exact .byId ho hi h
  | nullary ho h => exact .nullary ho h
  | exp ho hi hn he _ ih => exact .exp ho hi hn (by rw [List.getElem?_append_left (List.getElem?_eq_some_iff.mp he).1]; exact he) ih

end

/-! ### Rows -/

section
variable {N : Nat} {cm fx : Nat → Nat → Option A} {pub chal : List A} {x : Nat → A}

theorem row_next (i : Nat) {t : NTy} (ht : t ≠ .x) (k : Nat) :
    rowStore N cm fx pub chal x i t k true = rowStore N cm fx pub chal x (nxt N i) t k false := by
  cases t <;> simp [rowStore, nxt] at ht ⊢

theorem row_free (i j : Nat) {t : NTy} (ht : t ≠ .x ∧ t ≠ .cm ∧ t ≠ .const_) (k : Nat) (p : Bool) :
    rowStore N cm fx pub chal x i t k p = rowStore N cm fx pub chal x j t k p := by
  cases t <;> simp [rowStore] at ht ⊢

/-- evaluating a plain expression for the next row is evaluating it at the next row -/
theorem v_next {exps0 more : List (Expr A)} (hpl : ∀ e ∈ exps0, Plain exps0.length e) {i d : Nat} {p : Bool} {e : Expr A} {v : A}
    (h : Val (fieldOps A) (exps0 ++ more) (rowStore N cm fx pub chal x i) d p e v) : p = true → Plain exps0.length e →
    Val (fieldOps A) (exps0 ++ more) (rowStore N cm fx pub chal x (nxt N i)) d false e v := by
  induction h with
  | add ho _ _ hz ih1 ih2 => rintro rfl ⟨_, _, hc⟩; exact .add ho (ih1 rfl (hc _ (by simp))) (ih2 rfl (hc _ (by simp))) hz
  | sub ho _ _ hz ih1 ih2 => rintro rfl ⟨_, _, hc⟩; exact .sub ho (ih1 rfl (hc _ (by simp))) (ih2 rfl (hc _ (by simp))) hz
  | mul ho _ _ hz ih1 ih2 => rintro rfl ⟨_, _, hc⟩; exact .mul ho (ih1 rfl (hc _ (by simp))) (ih2 rfl (hc _ (by simp))) hz
  | muladd ho _ _ _ hz hz2 ih1 ih2 ih3 =>
    rintro rfl ⟨_, _, hc⟩; exact .muladd ho (ih1 rfl (hc _ (by simp))) (ih2 rfl (hc _ (by simp))) (ih3 rfl (hc _ (by simp))) hz hz2
  | addc ho hk _ hz ih1 => rintro rfl ⟨_, _, hc⟩; exact .addc ho hk (ih1 rfl (hc _ (by simp))) hz
  | mulc ho hk _ hz ih1 => rintro rfl ⟨_, _, hc⟩; exact .mulc ho hk (ih1 rfl (hc _ (by simp))) hz
  | neg ho _ hz ih1 => rintro rfl ⟨_, _, hc⟩; exact .neg ho (ih1 rfl (hc _ (by simp))) hz
  | number ho hk => rintro rfl _; exact .number ho hk
  | @col d p l t k v ho hi hn hs =>
    rintro rfl _
    have hn' : l.next = false := by simpa using hn
    refine .col ho hi (by simp) ?_
    rw [hn'] at hs ⊢
    have ht : t ≠ .x := by rintro rfl; unfold colTy at ho; split at ho <;> simp at ho
    rw [← hs]
    exact (row_next i ht k).symm
  | @byId d p l t k v ho hi hs =>
    rintro rfl _
    refine .byId ho hi ?_
    rw [← hs]
    exact row_free _ _ (by unfold idTy at ho; split at ho <;> simp at ho <;> subst ho <;> simp) k false
  | @nullary d p l t v ho hs =>
    rintro rfl ⟨hl, _, _⟩
    refine .nullary ho ?_
    rw [← hs]
    exact row_free _ _ (by unfold nullTy at ho; split at ho <;> simp at ho <;> first | (exfalso; apply hl; assumption) | (subst ho; simp)) 0 false
  | @exp d p l k e v ho hi hn he _ ih =>
    rintro rfl ⟨_, hlt, _⟩
    have hn' : l.next = false := by simpa using hn
    refine .exp ho hi (by simp) he ?_
    rw [hn']
    rw [List.getElem?_append_left (hlt k ho hi)] at he
    exact ih (by simp) (hpl e (List.mem_of_getElem? he))

end

/-! ### Combinations -/

section
variable {exps : List (Expr A)} {σ : Store A} {d : Nat} {p : Bool} {u : A}

theorem lcT_append (l : List Nat) (j : Nat) (hl : l ≠ []) : (lcT (l ++ [j]) : Expr A) = eAdd (eMul eU (lcT l)) (eExp j) := by
  have : isNop (lcT l : Expr A) = false := by
    induction l using List.reverseRecOn with
    | nil => exact absurd rfl hl
    | append_singleton l k _ =>
      unfold lcT
      rw [List.foldl_append]
      simp only [List.foldl_cons, List.foldl_nil]
      split <;> rfl
  unfold lcT at this ⊢
  rw [List.foldl_append]
  simp only [List.foldl_cons, List.foldl_nil, this]
  rfl

theorem lcF_append (l : List Nat) (j : Nat) (hl : l ≠ []) : (lcF (l ++ [j]) : Expr A) = eAdd (eMul (lcF l) eU) (eExp j) := by
  have : isNop (lcF l : Expr A) = false := by
    induction l using List.reverseRecOn with
    | nil => exact absurd rfl hl
    | append_singleton l k _ =>
      unfold lcF
      rw [List.foldl_append]
      simp only [List.foldl_cons, List.foldl_nil]
      split <;> rfl
  unfold lcF at this ⊢
  rw [List.foldl_append]
  simp only [List.foldl_cons, List.foldl_nil, this]
  rfl

theorem forall₂_snoc {X Y : Type} {P : X → Y → Prop} {x : X} : ∀ {l : List X} {vs : List Y}, List.Forall₂ P (l ++ [x]) vs →
    ∃ vs1 v, vs = vs1 ++ [v] ∧ List.Forall₂ P l vs1 ∧ P x v
  | [], _, h => by
    cases h with
    | cons hv h => cases h; exact ⟨[], _, rfl, .nil, hv⟩
  | a :: l, _, h => by
    cases h with
    | cons hv h =>
      obtain ⟨vs1, v, rfl, h1, h2⟩ := forall₂_snoc h
      exact ⟨_ :: vs1, v, rfl, .cons hv h1, h2⟩

/-- the combination of the table columns is Horner's rule in `u` -/
theorem v_lcT (hu : σ .challenge 0 false = some u) : ∀ {ts : List Nat} {vs : List A}, ts ≠ [] →
    List.Forall₂ (fun j v => Val (fieldOps A) exps σ d p (eExp j) v) ts vs → Val (fieldOps A) exps σ d p (lcT ts) (horner u vs) := by
  intro ts
  induction ts using List.reverseRecOn with
  | nil => intro vs h; exact absurd rfl h
  | append_singleton l j ih =>
    intro vs _ h
    obtain ⟨vs1, v, rfl, h1, hv⟩ := forall₂_snoc h
    rw [horner_append]
    by_cases hl : l = []
    · subst hl
      cases h1
      have e : horner u [] * u + v = v := by simp [horner]
      rw [e]
      exact hv
    · rw [lcT_append l j hl, mul_comm]
      exact v_add (v_mul (v_chal hu) (ih hl h1)) hv

/-- the combination of the looked-up columns is Horner's rule in `u` -/
theorem v_lcF (hu : σ .challenge 0 false = some u) : ∀ {ts : List Nat} {vs : List A}, ts ≠ [] →
    List.Forall₂ (fun j v => Val (fieldOps A) exps σ d p (eExp j) v) ts vs → Val (fieldOps A) exps σ d p (lcF ts) (horner u vs) := by
  intro ts
  induction ts using List.reverseRecOn with
  | nil => intro vs h; exact absurd rfl h
  | append_singleton l j ih =>
    intro vs _ h
    obtain ⟨vs1, v, rfl, h1, hv⟩ := forall₂_snoc h
    rw [horner_append]
    by_cases hl : l = []
    · subst hl
      cases h1
      have e : horner u [] * u + v = v := by simp [horner]
      rw [e]
      exact hv
    · rw [lcF_append l j hl]
      exact v_add (v_mul (ih hl h1) (v_chal hu)) hv

/-- value of a selection: `e` where the selector is one, `d` where it is zero -/
theorem v_select {e de : Expr A} {ev dv : A} {sel : Option Nat} {s : A} (he : Val (fieldOps A) exps σ d p e ev)
    (hd : Val (fieldOps A) exps σ d p de dv)
    (hs : ∀ k, sel = some k → Val (fieldOps A) exps σ d p (eExp k) s) (hn : sel = none → s = 1) :
    Val (fieldOps A) exps σ d p (select e de sel) ((ev - dv) * s + dv) := by
  cases sel with
  | none => rw [hn rfl]; simpa [select] using he
  | some k => exact v_add (v_mul (v_sub he hd) (hs k rfl)) hd

end

end Verif.Grand
