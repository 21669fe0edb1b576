import Verif.Grand.Link

/-!
# Scoped expressions: every expression has a value, with a bounded depth

A syntactic condition on the list of expressions of a PIL (references go to earlier expressions, columns, constants, publics and challenges are
in range, no expression is primed twice) under which every expression evaluates on every row; the setup's generation preserves it.
-/
set_option linter.unusedSectionVars false

namespace Verif.Grand
open Codegen Codegen.Spec Stark

variable {A : Type} [Field A]

/-- what an expression may mention: committed columns and challenges below a bound; `prim`: it may be evaluated for the next row -/
structure Lim where
  cols : Nat
  chals : Nat
  prim : Bool

/-- the expression is in scope: `nC` constants, `nP` publics, earlier expressions with the limits `lims` -/
inductive Sc (nC nP : Nat) (lims : List Lim) (L : Lim) : Expr A → Prop
  | bin {l a b} : l.op = .add ∨ l.op = .sub ∨ l.op = .mul → Sc nC nP lims L a → Sc nC nP lims L b → Sc nC nP lims L (.node l [a, b])
  | neg {l a} : l.op = .neg → Sc nC nP lims L a → Sc nC nP lims L (.node l [a])
  | cst {l a k} : l.op = .addc ∨ l.op = .mulc → l.const_ = some k → Sc nC nP lims L a → Sc nC nP lims L (.node l [a])
  | num {l v} : l.op = .number → l.value = some v → Sc nC nP lims L (.node l [])
  | cm {l i} : l.op = .cm → l.id = some i → i < L.cols → (L.prim = true → l.next = false) → Sc nC nP lims L (.node l [])
  | const_ {l i} : l.op = .const_ → l.id = some i → i < nC → (L.prim = true → l.next = false) → Sc nC nP lims L (.node l [])
  | pub {l i} : l.op = .public_ → l.id = some i → i < nP → Sc nC nP lims L (.node l [])
  | chal {l i} : l.op = .challenge → l.id = some i → i < L.chals → Sc nC nP lims L (.node l [])
  | x {l} : l.op = .x → Sc nC nP lims L (.node l [])
  | exp {l i m} : l.op = .exp → l.id = some i → lims[i]? = some m → m.cols ≤ L.cols → m.chals ≤ L.chals →
      (L.prim = true → l.next = false ∧ m.prim = true) → (l.next = true → m.prim = true) → Sc nC nP lims L (.node l [])

/-- every expression is in scope of the expressions before it -/
inductive Scoped (nC nP : Nat) : List (Expr A) → List Lim → Prop
  | nil : Scoped nC nP [] []
  | snoc {exps lims e L} : Scoped nC nP exps lims → Sc nC nP lims L e → Scoped nC nP (exps ++ [e]) (lims ++ [L])

/-- the row provides what the limits allow -/
structure Covers (nC nP : Nat) (σ : Store A) (L : Lim) : Prop where
  cm : ∀ i < L.cols, ∀ p, ∃ v, σ .cm i p = some v
  const_ : ∀ i < nC, ∀ p, ∃ v, σ .const_ i p = some v
  pub : ∀ i < nP, ∃ v, σ .public_ i false = some v
  chal : ∀ i < L.chals, ∃ v, σ .challenge i false = some v
  x : ∃ v, σ .x 0 false = some v

theorem Covers.mono {nC nP : Nat} {σ : Store A} {L m : Lim} (h : Covers nC nP σ L) (h1 : m.cols ≤ L.cols) (h2 : m.chals ≤ L.chals) :
    Covers nC nP σ m :=
  ⟨fun i hi => h.cm i (by omega), h.const_, h.pub, fun i hi => h.chal i (by omega), h.x⟩

theorem Scoped.length {nC nP : Nat} {exps : List (Expr A)} {lims : List Lim} (h : Scoped nC nP exps lims) : lims.length = exps.length := by
  induction h with
  | nil => rfl
  | snoc _ _ ih => simp [ih]

/-- an expression in scope of expressions that have values has a value -/
theorem sc_total {nC nP : Nat} {exps : List (Expr A)} {lims : List Lim} {σ : Store A}
    (hl : ∀ i m, lims[i]? = some m → Covers nC nP σ m → ∀ p, (p = true → m.prim = true) → ∃ e v, exps[i]? = some e ∧ Val (fieldOps A) exps σ i p e v)
    {L : Lim} {e : Expr A} (h : Sc nC nP lims L e) (hc : Covers nC nP σ L) :
    ∀ p, (p = true → L.prim = true) → ∃ v, Val (fieldOps A) exps σ lims.length p e v := by
  induction h with
  | bin ho _ _ iha ihb =>
    intro p hp
    obtain ⟨a, ha⟩ := iha p hp
    obtain ⟨b, hb⟩ := ihb p hp
    rcases ho with ho | ho | ho
    · exact ⟨a + b, .add ho ha hb rfl⟩
    · exact ⟨a - b, .sub ho ha hb rfl⟩
    · exact ⟨a * b, .mul ho ha hb rfl⟩
  | neg ho _ iha =>
    intro p hp
    obtain ⟨a, ha⟩ := iha p hp
    exact ⟨_, .neg ho ha rfl⟩
  | cst ho hk _ iha =>
    intro p hp
    obtain ⟨a, ha⟩ := iha p hp
    rcases ho with ho | ho
    · exact ⟨_, .addc ho hk ha rfl⟩
    · exact ⟨_, .mulc ho hk ha rfl⟩
  | num ho hv => exact fun p _ => ⟨_, .number ho hv⟩
  | @cm l i ho hi hlt hn =>
    intro p hp
    obtain ⟨v, hv⟩ := hc.cm i hlt (l.next || p)
    refine ⟨v, .col (t := .cm) (by rw [ho]; rfl) hi ?_ hv⟩
    cases p with
    | false => simp
    | true => simp [hn (hp rfl)]
  | @const_ l i ho hi hlt hn =>
    intro p hp
    obtain ⟨v, hv⟩ := hc.const_ i hlt (l.next || p)
    refine ⟨v, .col (t := .const_) (by rw [ho]; rfl) hi ?_ hv⟩
    cases p with
    | false => simp
    | true => simp [hn (hp rfl)]
  | @pub l i ho hi hlt =>
    intro p _
    obtain ⟨v, hv⟩ := hc.pub i hlt
    exact ⟨v, .byId (t := .public_) (by rw [ho]; rfl) hi hv⟩
  | @chal l i ho hi hlt =>
    intro p _
    obtain ⟨v, hv⟩ := hc.chal i hlt
    exact ⟨v, .byId (t := .challenge) (by rw [ho]; rfl) hi hv⟩
  | @x l ho =>
    intro p _
    obtain ⟨v, hv⟩ := hc.x
    exact ⟨v, .nullary (t := .x) (by rw [ho]; rfl) hv⟩
  | @exp l i m ho hi hm h1 h2 h3 h4 =>
    intro p hp
    have hlt : i < lims.length := (List.getElem?_eq_some_iff.mp hm).1
    obtain ⟨e, v, he, hv⟩ := hl i m hm (hc.mono h1 h2) (l.next || p) (by
      intro h
      rcases Bool.or_eq_true_iff.mp h with h | h
      · exact h4 h
      · exact (h3 (hp h)).2)
    refine ⟨v, Stark.val_depth (.exp ho hi ?_ he hv) (by omega : i + 1 ≤ lims.length)⟩
    cases p with
    | false => simp
    | true => simp [(h3 (hp rfl)).1]

/-- in a scoped list every expression has a value, of depth at most its number -/
theorem scoped_total {nC nP : Nat} {exps : List (Expr A)} {lims : List Lim} (h : Scoped nC nP exps lims) (σ : Store A) :
    ∀ i m, lims[i]? = some m → Covers nC nP σ m → ∀ p, (p = true → m.prim = true) → ∃ e v, exps[i]? = some e ∧ Val (fieldOps A) exps σ i p e v := by
  induction h with
  | nil => intro i m h; simp at h
  | @snoc exps lims e L h he ih =>
    intro i m hm hc p hp
    by_cases hi : i < lims.length
    · rw [List.getElem?_append_left hi] at hm
      obtain ⟨e', v, h1, h2⟩ := ih i m hm hc p hp
      exact ⟨e', v, by rw [List.getElem?_append_left (by have := h.length; omega)]; exact h1, v_append h2 [e]⟩
    · have hi' : i = lims.length := by
        have := (List.getElem?_eq_some_iff.mp hm).1
        simp at this
        omega
      subst hi'
      rw [List.getElem?_append_right (le_refl _)] at hm
      simp at hm
      subst hm
      obtain ⟨v, hv⟩ := sc_total ih he hc p hp
      refine ⟨e, v, ?_, v_append hv [e]⟩
      rw [h.length, List.getElem?_append_right (le_refl _)]
      simp

/-- a value of an expression, at any depth, is its value at the depth given by its number -/
theorem scoped_depth {nC nP : Nat} {exps : List (Expr A)} {lims : List Lim} (h : Scoped nC nP exps lims) {σ : Store A} {i : Nat} {m : Lim}
    (hm : lims[i]? = some m) (hc : Covers nC nP σ m) {p : Bool} (hp : p = true → m.prim = true) {e : Expr A} (he : exps[i]? = some e) {d : Nat} {v : A}
    (hv : Val (fieldOps A) exps σ d p e v) : Val (fieldOps A) exps σ i p e v := by
  obtain ⟨e', v', h1, h2⟩ := scoped_total h σ i m hm hc p hp
  rw [he] at h1
  obtain rfl := Option.some.inj h1
  rw [val_unique hv h2]
  exact h2

/-! ### Building scoped expressions -/

section
variable {nC nP : Nat} {lims more : List Lim} {L : Lim}

theorem Sc.mono {e : Expr A} (h : Sc nC nP lims L e) : Sc nC nP (lims ++ more) L e := by
  induction h with
  | bin ho _ _ iha ihb => exact .bin ho iha ihb
  | neg ho _ iha => exact .neg ho iha
  | cst ho hk _ iha => exact .cst ho hk iha
  | num ho hv => exact .num ho hv
  | cm ho hi hlt hn => exact .cm ho hi hlt hn
  | const_ ho hi hlt hn => exact .const_ ho hi hlt hn
  | pub ho hi hlt => exact .pub ho hi hlt
  | chal ho hi hlt => exact .chal ho hi hlt
  | x ho => exact .x ho
  | exp ho hi hm h1 h2 h3 h4 =>
    exact .exp ho hi (by rw [List.getElem?_append_left (List.getElem?_eq_some_iff.mp hm).1]; exact hm) h1 h2 h3 h4

/-- expression `i` exists and stays within the limits -/
def Bnd (lims : List Lim) (i c q : Nat) (pr : Bool) : Prop := ∃ m, lims[i]? = some m ∧ m.cols ≤ c ∧ m.chals ≤ q ∧ (pr = true → m.prim = true)

theorem Bnd.mono {i c q : Nat} {pr : Bool} (h : Bnd lims i c q pr) : Bnd (lims ++ more) i c q pr := by
  obtain ⟨m, hm, h⟩ := h
  exact ⟨m, by rw [List.getElem?_append_left (List.getElem?_eq_some_iff.mp hm).1]; exact hm, h⟩

theorem Bnd.le {i c q c' q' : Nat} {pr pr' : Bool} (h : Bnd lims i c q pr) (hc : c ≤ c') (hq : q ≤ q') (hp : pr' = true → pr = true) :
    Bnd lims i c' q' pr' := by
  obtain ⟨m, hm, h1, h2, h3⟩ := h
  exact ⟨m, hm, h1.trans hc, h2.trans hq, fun h => h3 (hp h)⟩

theorem Bnd.lt {i c q : Nat} {pr : Bool} (h : Bnd lims i c q pr) : i < lims.length := by
  obtain ⟨m, hm, -⟩ := h
  exact (List.getElem?_eq_some_iff.mp hm).1

theorem bnd_last : Bnd (lims ++ [L]) lims.length L.cols L.chals L.prim :=
  ⟨L, by simp, le_refl _, le_refl _, id⟩

theorem bnd_at (pre post : List Lim) (M : Lim) {i : Nat} (hi : i = pre.length) : Bnd (pre ++ M :: post) i M.cols M.chals M.prim :=
  ⟨M, by subst hi; simp, le_refl _, le_refl _, id⟩

theorem s_add {a b : Expr A} (ha : Sc nC nP lims L a) (hb : Sc nC nP lims L b) : Sc nC nP lims L (eAdd a b) := .bin (.inl rfl) ha hb
theorem s_sub {a b : Expr A} (ha : Sc nC nP lims L a) (hb : Sc nC nP lims L b) : Sc nC nP lims L (eSub a b) := .bin (.inr (.inl rfl)) ha hb
theorem s_mul {a b : Expr A} (ha : Sc nC nP lims L a) (hb : Sc nC nP lims L b) : Sc nC nP lims L (eMul a b) := .bin (.inr (.inr rfl)) ha hb
theorem s_num {v : A} : Sc nC nP lims L (eNum v) := .num rfl rfl
theorem s_x : Sc nC nP lims L (eX : Expr A) := .x rfl
theorem s_chal {i : Nat} (h : i < L.chals) : Sc nC nP lims L (eChallenge i : Expr A) := .chal rfl rfl h
theorem s_cm {i : Nat} {n : Bool} (h : i < L.cols) (hp : L.prim = true → n = false) : Sc nC nP lims L (eCm i n : Expr A) := .cm rfl rfl h hp
theorem s_const {i : Nat} (h : i < nC) : Sc nC nP lims L (eCol .const_ i : Expr A) := .const_ rfl rfl h (by intro; rfl)
theorem s_exp {i : Nat} (h : Bnd lims i L.cols L.chals L.prim) : Sc nC nP lims L (eExp i : Expr A) := by
  obtain ⟨m, hm, h1, h2, h3⟩ := h
  exact .exp rfl rfl hm h1 h2 (fun h => ⟨rfl, h3 h⟩) (by simp)
theorem s_expN {i : Nat} (hL : L.prim = false) (h : Bnd lims i L.cols L.chals true) : Sc nC nP lims L (eExp i true : Expr A) := by
  obtain ⟨m, hm, h1, h2, h3⟩ := h
  exact .exp rfl rfl hm h1 h2 (by simp [hL]) (fun _ => h3 rfl)

theorem s_lcT (hq : 0 < L.chals) {l : List Nat} (hl : l ≠ []) (h : ∀ j ∈ l, Bnd lims j L.cols L.chals L.prim) : Sc nC nP lims L (lcT l : Expr A) := by
  induction l using List.reverseRecOn with
  | nil => exact absurd rfl hl
  | append_singleton l j ih =>
    by_cases h0 : l = []
    · subst h0; exact s_exp (h j (by simp))
    · rw [lcT_append _ _ h0]
      exact s_add (s_mul (s_chal hq) (ih h0 fun k hk => h k (by simp [hk]))) (s_exp (h j (by simp)))

theorem s_lcF (hq : 0 < L.chals) {l : List Nat} (hl : l ≠ []) (h : ∀ j ∈ l, Bnd lims j L.cols L.chals L.prim) : Sc nC nP lims L (lcF l : Expr A) := by
  induction l using List.reverseRecOn with
  | nil => exact absurd rfl hl
  | append_singleton l j ih =>
    by_cases h0 : l = []
    · subst h0; exact s_exp (h j (by simp))
    · rw [lcF_append _ _ h0]
      exact s_add (s_mul (ih h0 fun k hk => h k (by simp [hk])) (s_chal hq)) (s_exp (h j (by simp)))

theorem s_select {e d : Expr A} {s : Option Nat} (he : Sc nC nP lims L e) (hd : Sc nC nP lims L d)
    (hs : ∀ k, s = some k → Bnd lims k L.cols L.chals L.prim) : Sc nC nP lims L (select e d s) := by
  cases s with
  | none => exact he
  | some k => exact s_add (s_mul (s_sub he hd) (s_exp (hs k rfl))) hd

end

end Verif.Grand
