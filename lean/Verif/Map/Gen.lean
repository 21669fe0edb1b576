import Verif.Map.Place

/-!
# The circuits that `StarkInfo` generates meet the hypotheses of C98
-/
set_option linter.unusedSectionVars false

namespace Verif.Map
open Verif.Codegen
open Verif.Grand
open Stark ImPols
open Verif.GL (F)
open Verif.Ext3 (K)
open Verif.StarkInfo

variable {A : Type}

/-! ### The references of an expression -/

/-- every reference of the expression to another one -/
def AllRefs (P : Nat → Bool → Prop) (e : Expr A) : Prop := ∀ l, HasLabel l e → l.op = .exp → ∀ k, l.id = some k → P k l.next

/-- `x` does not occur -/
def NoX (e : Expr A) : Prop := ∀ l, HasLabel l e → Codegen.Spec.nullTy l.op = none

theorem hasLabel_two {l l' : Label A} {a b : Expr A} (h : HasLabel l (.node l' [a, b])) : l = l' ∨ HasLabel l a ∨ HasLabel l b := by
  cases h with
  | here => exact .inl rfl
  | child hm hc =>
    simp only [List.mem_cons, List.not_mem_nil, or_false] at hm
    rcases hm with rfl | rfl
    · exact .inr (.inl hc)
    · exact .inr (.inr hc)

theorem hasLabel_leaf {l l' : Label A} (h : HasLabel l (.node l' [])) : l = l' := by
  cases h with
  | here => rfl
  | child hm _ => simp at hm

variable {P Q : Nat → Bool → Prop} {a b : Expr A}

theorem AllRefs.mono (h : AllRefs P a) (hpq : ∀ k n, P k n → Q k n) : AllRefs Q a := fun l hl ho k hk => hpq _ _ (h l hl ho k hk)

theorem AllRefs.add (ha : AllRefs P a) (hb : AllRefs P b) : AllRefs P (eAdd a b) := by
  intro l hl ho k hk
  rcases hasLabel_two hl with rfl | hl | hl
  · cases ho
  · exact ha l hl ho k hk
  · exact hb l hl ho k hk

theorem AllRefs.sub (ha : AllRefs P a) (hb : AllRefs P b) : AllRefs P (eSub a b) := by
  intro l hl ho k hk
  rcases hasLabel_two hl with rfl | hl | hl
  · cases ho
  · exact ha l hl ho k hk
  · exact hb l hl ho k hk

theorem AllRefs.mul (ha : AllRefs P a) (hb : AllRefs P b) : AllRefs P (eMul a b) := by
  intro l hl ho k hk
  rcases hasLabel_two hl with rfl | hl | hl
  · cases ho
  · exact ha l hl ho k hk
  · exact hb l hl ho k hk

theorem AllRefs.leaf {l : Label A} (h : l.op ≠ .exp) : AllRefs P (.node l []) := by
  intro l' hl ho k hk
  rw [hasLabel_leaf hl] at ho
  exact absurd ho h

theorem AllRefs.exp {k : Nat} {n : Bool} (h : P k n) : AllRefs P (eExp k n : Expr A) := by
  intro l' hl ho k' hk
  rw [hasLabel_leaf hl] at hk ⊢
  cases hk
  exact h

theorem NoX.add (ha : NoX a) (hb : NoX b) : NoX (eAdd a b) := by
  intro l hl
  rcases hasLabel_two hl with rfl | hl | hl
  · rfl
  · exact ha l hl
  · exact hb l hl

theorem NoX.sub (ha : NoX a) (hb : NoX b) : NoX (eSub a b) := by
  intro l hl
  rcases hasLabel_two hl with rfl | hl | hl
  · rfl
  · exact ha l hl
  · exact hb l hl

theorem NoX.mul (ha : NoX a) (hb : NoX b) : NoX (eMul a b) := by
  intro l hl
  rcases hasLabel_two hl with rfl | hl | hl
  · rfl
  · exact ha l hl
  · exact hb l hl

theorem NoX.leaf {l : Label A} (h : Codegen.Spec.nullTy l.op = none) : NoX (.node l []) := by
  intro l' hl
  rw [hasLabel_leaf hl]
  exact h

theorem eU_refs : AllRefs P (eU : Expr A) := AllRefs.leaf (by simp)
theorem eDef_refs : AllRefs P (eDef : Expr A) := AllRefs.leaf (by simp)
theorem eGamma_refs : AllRefs P (eGamma : Expr A) := AllRefs.leaf (by simp)
theorem eBeta_refs : AllRefs P (eBeta : Expr A) := AllRefs.leaf (by simp)
theorem eX_refs : AllRefs P (eX : Expr A) := AllRefs.leaf (by simp)
theorem eCm_refs {k : Nat} {n : Bool} : AllRefs P (eCm k n : Expr A) := AllRefs.leaf (by simp)
theorem eNum_refs {v : A} : AllRefs P (eNum v : Expr A) := AllRefs.leaf (by simp)

/-- a left fold that builds a linear combination -/
theorem lc_refs (g : Expr A → Nat → Expr A) (hg : ∀ acc j, AllRefs P acc → P j false → AllRefs P (g acc j)) :
    ∀ (l : List Nat) (acc : Expr A), AllRefs P acc → (∀ j ∈ l, P j false) →
      AllRefs P (l.foldl (fun acc j => if isNop acc then eExp j else g acc j) acc)
  | [], acc, h, _ => h
  | j :: l, acc, h, hl => by
    rw [List.foldl_cons]
    refine lc_refs g hg l _ ?_ fun j hj => hl j (by simp [hj])
    split_ifs
    · exact AllRefs.exp (hl j (by simp))
    · exact hg acc j h (hl j (by simp))

theorem lcT_refs {l : List Nat} (h : ∀ j ∈ l, P j false) : AllRefs P (lcT l : Expr A) :=
  lc_refs (fun acc j => eAdd (eMul eU acc) (eExp j)) (fun acc j ha hj => AllRefs.add (AllRefs.mul eU_refs ha) (AllRefs.exp hj)) l _ (AllRefs.leaf (by simp)) h

theorem lcF_refs {l : List Nat} (h : ∀ j ∈ l, P j false) : AllRefs P (lcF l : Expr A) :=
  lc_refs (fun acc j => eAdd (eMul acc eU) (eExp j)) (fun acc j ha hj => AllRefs.add (AllRefs.mul ha eU_refs) (AllRefs.exp hj)) l _ (AllRefs.leaf (by simp)) h

theorem select_refs {e d : Expr A} {s : Option Nat} (he : AllRefs P e) (hd : AllRefs P d) (hs : ∀ k, s = some k → P k false) : AllRefs P (select e d s) := by
  cases s with
  | none => exact he
  | some k => exact AllRefs.add (AllRefs.mul (AllRefs.sub he hd) (AllRefs.exp (hs k rfl))) hd

theorem lcT_noX (l : List Nat) : NoX (lcT l : Expr A) := by
  have : ∀ (l : List Nat) (acc : Expr A), NoX acc → NoX (l.foldl (fun acc j => if isNop acc then eExp j else eAdd (eMul eU acc) (eExp j)) acc) := by
    intro l
    induction l with
    | nil => exact fun acc h => h
    | cons j l ih =>
      intro acc h
      rw [List.foldl_cons]
      refine ih _ ?_
      split_ifs
      · exact NoX.leaf rfl
      · exact NoX.add (NoX.mul (NoX.leaf rfl) h) (NoX.leaf rfl)
  exact this l _ (NoX.leaf rfl)

theorem select_noX {e d : Expr A} {s : Option Nat} (he : NoX e) (hd : NoX d) : NoX (select e d s) := by
  cases s with
  | none => exact he
  | some k => exact NoX.add (NoX.mul (NoX.sub he hd) (NoX.leaf rfl)) hd

/-! ### Expressions that depend on a challenge -/

theorem chal_leaf {exps : List (Expr A)} {k : Nat} : HasChal exps (eChallenge k) := .chal rfl
theorem chal_add_left {exps : List (Expr A)} (h : HasChal exps a) : HasChal exps (eAdd a b) := .arith (.inl rfl) (by simp) h
theorem chal_add_right {exps : List (Expr A)} (h : HasChal exps b) : HasChal exps (eAdd a b) := .arith (.inl rfl) (by simp) h
theorem chal_mul_left {exps : List (Expr A)} (h : HasChal exps a) : HasChal exps (eMul a b) := .arith (by unfold Arith; simp) (by simp) h
theorem chal_mul_right {exps : List (Expr A)} (h : HasChal exps b) : HasChal exps (eMul a b) := .arith (by unfold Arith; simp) (by simp) h
theorem chal_sub_left {exps : List (Expr A)} (h : HasChal exps a) : HasChal exps (eSub a b) := .arith (by unfold Arith; simp) (by simp) h
theorem chal_exp {exps : List (Expr A)} {k : Nat} {e : Expr A} (he : exps[k]? = some e) (h : HasChal exps e) : HasChal exps (eExp k) := .exp rfl rfl he h

theorem HasChal.append {exps more : List (Expr A)} {e : Expr A} (h : HasChal exps e) : HasChal (exps ++ more) e := by
  induction h with
  | chal ho => exact .chal ho
  | arith ho hv _ ih => exact .arith ho hv ih
  | exp ho hi he _ ih => exact .exp ho hi (by rw [List.getElem?_append_left (lt_of_get he)]; exact he) ih

/-! ### The expressions that the generation adds -/

variable [One A]

theorem runAll_new {X Y : Type} {one : PilSt A → X → Option (PilSt A × Y)} {Form : Nat → Expr A → Prop} :
    ∀ (xs : List X) (st st' : PilSt A) (ys : List Y), (∀ st x st1 y, x ∈ xs → y ∈ ys → one st x = some (st1, y) →
        ∀ j e, st.exps.length ≤ j → st1.exps[j]? = some e → Form j e) →
      (∀ st x st1 y, one st x = some (st1, y) → st.exps <+: st1.exps) → runAll one st xs = some (st', ys) →
      ∀ j e, st.exps.length ≤ j → st'.exps[j]? = some e → Form j e
  | [], st, st', ys, _, _, h, j, e, hj, he => by
    simp only [runAll, Option.some.injEq, Prod.mk.injEq] at h
    obtain ⟨rfl, rfl⟩ := h
    have := lt_of_get he
    omega
  | x :: xs, st, st', ys, h, hext, hr, j, e, hj, he => by
    rw [runAll] at hr
    obtain ⟨⟨s1, y⟩, h1, hr⟩ := Option.bind_eq_some_iff.mp hr
    obtain ⟨⟨s2, ys2⟩, h2, hr⟩ := Option.map_eq_some_iff.mp hr
    obtain ⟨rfl, rfl⟩ := Prod.mk.inj hr
    by_cases hlt : j < s1.exps.length
    · refine h st x s1 y (by simp) (by simp) h1 j e hj ?_
      have hp : ∀ (xs : List X) (st st' : PilSt A) (ys : List Y), runAll one st xs = some (st', ys) → st.exps <+: st'.exps := by
        intro xs
        induction xs with
        | nil =>
          intro st st' ys h
          simp only [runAll, Option.some.injEq, Prod.mk.injEq] at h
          rw [h.1]
        | cons x xs ih =>
          intro st st' ys h
          rw [runAll] at h
          obtain ⟨⟨s1, y⟩, h1, h⟩ := Option.bind_eq_some_iff.mp h
          obtain ⟨⟨s2, ys2⟩, h2, h⟩ := Option.map_eq_some_iff.mp h
          obtain ⟨rfl, rfl⟩ := Prod.mk.inj h
          exact (hext _ _ _ _ h1).trans (ih _ _ _ h2)
      obtain ⟨t, ht⟩ := hp _ _ _ _ h2
      rw [← ht, List.getElem?_append_left hlt] at he
      exact he
    · exact runAll_new xs s1 s2 ys2 (fun st x st1 y hx hy => h st x st1 y (by simp [hx]) (by simp [hy])) hext h2 j e (by omega) he

/-- the numbers that every step of a loop hands out are new -/
theorem runAll_range {X Y : Type} {one : PilSt A → X → Option (PilSt A × Y)} {ids : Y → Nat → Prop}
    (h1 : ∀ st x st1 y, one st x = some (st1, y) → st.exps.length ≤ st1.exps.length ∧ ∀ id, ids y id → st.exps.length ≤ id ∧ id < st1.exps.length) :
    ∀ (xs : List X) (st st' : PilSt A) (ys : List Y), runAll one st xs = some (st', ys) →
      st.exps.length ≤ st'.exps.length ∧ (∀ y ∈ ys, ∀ id, ids y id → st.exps.length ≤ id ∧ id < st'.exps.length) ∧
      ∀ (n n' : Nat) (y y' : Y) (id : Nat), ys[n]? = some y → ys[n']? = some y' → ids y id → ids y' id → n = n'
  | [], st, st', ys, h => by
    simp only [runAll, Option.some.injEq, Prod.mk.injEq] at h
    obtain ⟨rfl, rfl⟩ := h
    simp
  | x :: xs, st, st', ys, hr => by
    rw [runAll] at hr
    obtain ⟨⟨s1, y⟩, ha, hr⟩ := Option.bind_eq_some_iff.mp hr
    obtain ⟨⟨s2, ys2⟩, hb, hr⟩ := Option.map_eq_some_iff.mp hr
    obtain ⟨rfl, rfl⟩ := Prod.mk.inj hr
    obtain ⟨g1, g2⟩ := h1 _ _ _ _ ha
    obtain ⟨i1, i2, i3⟩ := runAll_range h1 xs s1 s2 ys2 hb
    refine ⟨le_trans g1 i1, ?_, ?_⟩
    · intro y' hy' id hid
      rcases List.mem_cons.mp hy' with rfl | hy'
      · have := g2 id hid
        exact ⟨this.1, lt_of_lt_of_le this.2 i1⟩
      · have := i2 y' hy' id hid
        exact ⟨le_trans g1 this.1, this.2⟩
    · intro n n' z z' id hn hn' hz hz'
      cases n with
      | zero =>
        cases n' with
        | zero => rfl
        | succ n' =>
          simp only [List.getElem?_cons_zero, Option.some.injEq] at hn
          subst hn
          have a1 := g2 id hz
          have a2 := i2 z' (List.mem_of_getElem? (by simpa using hn')) id hz'
          omega
      | succ n =>
        cases n' with
        | zero =>
          simp only [List.getElem?_cons_zero, Option.some.injEq] at hn'
          subst hn'
          have a1 := g2 id hz'
          have a2 := i2 z (List.mem_of_getElem? (by simpa using hn)) id hz
          omega
        | succ n' => rw [i3 n n' z z' id (by simpa using hn) (by simpa using hn') hz hz']

theorem runAll_zip {X Y : Type} {one : PilSt A → X → Option (PilSt A × Y)} {Rel : X → Y → Prop}
    (h1 : ∀ st x st1 y, one st x = some (st1, y) → Rel x y) :
    ∀ (xs : List X) (st st' : PilSt A) (ys : List Y), runAll one st xs = some (st', ys) → List.Forall₂ Rel xs ys
  | [], st, st', ys, h => by
    simp only [runAll, Option.some.injEq, Prod.mk.injEq] at h
    obtain ⟨rfl, rfl⟩ := h
    exact .nil
  | x :: xs, st, st', ys, hr => by
    rw [runAll] at hr
    obtain ⟨⟨s1, y⟩, ha, hr⟩ := Option.bind_eq_some_iff.mp hr
    obtain ⟨⟨s2, ys2⟩, hb, hr⟩ := Option.map_eq_some_iff.mp hr
    obtain ⟨rfl, rfl⟩ := Prod.mk.inj hr
    exact .cons (h1 _ _ _ _ ha) (runAll_zip h1 xs s1 s2 ys2 hb)

/-- The expressions that the generation adds: a combination of expressions of the PIL; the looked-up side, which may also refer to the table; an expression with a
challenge, which uses at most the next row of a table; the recurrence of a grand product. -/
inductive Form (n0 : Nat) (cx : ArgCtx) (j : Nat) (e : Expr A) : Prop
  | old : AllRefs (fun k next => next = false ∧ k < n0) e → Form n0 cx j e
  | side (c : PCtx) : c ∈ cx.pu → j = c.fExp → AllRefs (fun k next => next = false ∧ (k < n0 ∨ k = c.tExp)) e → Form n0 cx j e
  | chal : HasChal [] e → AllRefs (fun k next => next = true → ∃ c ∈ cx.pu, k = c.tExp) e → Form n0 cx j e
  | step (c : PCtx) (z : Nat) : c ∈ cx.pu ++ cx.pe ++ cx.ci → e = zStep z c.num c.den → Form n0 cx j e

theorem get_two {exps : List (Expr A)} {a b e : Expr A} {j : Nat} (hj : exps.length ≤ j) (h : (exps ++ [a, b])[j]? = some e) :
    (j = exps.length ∧ e = a) ∨ (j = exps.length + 1 ∧ e = b) := by
  rw [List.getElem?_append_right hj] at h
  have hlt := lt_of_get h
  simp only [List.length_cons, List.length_nil] at hlt
  have : j - exps.length = 0 ∨ j - exps.length = 1 := by omega
  rcases this with h' | h' <;> rw [h'] at h <;> cases h
  · exact .inl ⟨by omega, rfl⟩
  · exact .inr ⟨by omega, rfl⟩

theorem get_four {exps : List (Expr A)} {a b c d e : Expr A} {j : Nat} (hj : exps.length ≤ j) (h : (exps ++ [a, b, c, d])[j]? = some e) :
    e = a ∨ e = b ∨ e = c ∨ e = d := by
  rw [List.getElem?_append_right hj] at h
  have := List.mem_of_getElem? h
  simpa using this

variable {n0 : Nat} {cx : ArgCtx}

theorem noPrime_of {e : Expr A} (h : AllRefs (fun _ next => next = false) e) : AllRefs (fun k next => next = true → ∃ c ∈ cx.pu, k = c.tExp) e :=
  h.mono fun k n h1 h2 => by rw [h1] at h2; cases h2

theorem zStart_form {j l z : Nat} : Form n0 cx j (zStart l z : Expr A) :=
  .old (AllRefs.mul (AllRefs.leaf (by simp)) (AllRefs.sub eCm_refs eNum_refs))

theorem beta_chal : HasChal [] (eBeta : Expr A) := chal_leaf

theorem factor_chal {f : Nat} {lab : Expr A} : HasChal [] (connFactor f lab) := chal_add_right chal_leaf

theorem factor_refs {f : Nat} {lab : Expr A} (h : AllRefs (fun _ next => next = false) lab) : AllRefs (fun _ next => next = false) (connFactor f lab) :=
  AllRefs.add (AllRefs.add (AllRefs.exp rfl) (AllRefs.mul eBeta_refs h)) eGamma_refs

theorem connLoop_form : ∀ (ps cs : List Nat) (ks : List A) (exps : List (Expr A)) (num den : Nat) (r : List (Expr A) × Nat × Nat),
    connLoop exps num den ps cs ks = some r → (∃ e, exps[den]? = some e ∧ HasChal [] e) →
    (∀ j e, exps.length ≤ j → r.1[j]? = some e → Form n0 cx j e) ∧ (∃ e, r.1[r.2.2]? = some e ∧ HasChal [] e) ∧
      (r.2.1 = num ∨ exps.length ≤ r.2.1) ∧ (r.2.2 = den ∨ exps.length ≤ r.2.2)
  | [], _, _, exps, num, den, r, h, hd => by
    simp only [connLoop, Option.some.injEq] at h
    subst h
    refine ⟨fun j e hj he => ?_, hd, .inl rfl, .inl rfl⟩
    have := lt_of_get he
    dsimp only at this
    omega
  | p :: ps, c :: cs, k :: ks, exps, num, den, r, h, hd => by
    rw [connLoop] at h
    have hpre := connLoop_ext ps cs ks _ _ _ r h
    have hD : HasChal [] (eMul (eExp den) (connFactor p (eExp c)) : Expr A) := chal_mul_right factor_chal
    obtain ⟨g1, g2, g3, g4⟩ := connLoop_form ps cs ks _ _ _ r h ⟨_, by rw [List.getElem?_append_right (by omega)]; simp, hD⟩
    rw [List.length_append] at g1 g3 g4
    simp only [List.length_cons, List.length_nil] at g1 g3 g4
    refine ⟨fun j e hj he => ?_, g2, .inr (by omega), .inr (by omega)⟩
    by_cases hlt : j < exps.length + 2
    · obtain ⟨t, ht⟩ := hpre
      rw [← ht, List.getElem?_append_left (by simp; omega)] at he
      rcases get_two hj he with ⟨-, rfl⟩ | ⟨-, rfl⟩
      · exact .chal (chal_mul_right (chal_add_right chal_leaf)) (noPrime_of (AllRefs.mul (AllRefs.exp rfl)
          (AllRefs.add (AllRefs.add (AllRefs.exp rfl) (AllRefs.mul (AllRefs.mul eBeta_refs eNum_refs) eX_refs)) eGamma_refs)))
      · exact .chal hD (noPrime_of (AllRefs.mul (AllRefs.exp rfl) (factor_refs (AllRefs.exp rfl))))
    · exact g1 j e (by omega) he
  | p :: ps, [], ks, exps, num, den, r, h, _ => by simp [connLoop] at h
  | p :: ps, c :: cs, [], exps, num, den, r, h, _ => by simp [connLoop] at h

theorem connLoop_lt : ∀ (ps cs : List Nat) (ks : List A) (exps : List (Expr A)) (num den : Nat) (r : List (Expr A) × Nat × Nat),
    connLoop exps num den ps cs ks = some r → num < exps.length → den < exps.length → r.2.1 < r.1.length ∧ r.2.2 < r.1.length
  | [], _, _, exps, num, den, r, h, hn, hd => by
    simp only [connLoop, Option.some.injEq] at h
    subst h
    exact ⟨hn, hd⟩
  | p :: ps, c :: cs, k :: ks, exps, num, den, r, h, hn, hd => by
    rw [connLoop] at h
    exact connLoop_lt ps cs ks _ _ _ r h (by simp) (by simp)
  | p :: ps, [], ks, exps, num, den, r, h, _, _ => by simp [connLoop] at h
  | p :: ps, c :: cs, [], exps, num, den, r, h, _, _ => by simp [connLoop] at h

theorem lookupNum_form {j : Nat} {f : Nat} {c : PCtx} (hc : c ∈ cx.pu) : Form n0 cx j (lookupNum f c.tExp : Expr A) := by
  have hb : ∀ {P : Nat → Bool → Prop}, AllRefs P (eAdd (eNum 1) eBeta : Expr A) := AllRefs.add eNum_refs eBeta_refs
  refine .chal (chal_mul_right (chal_add_right beta_chal)) ?_
  refine AllRefs.mul (AllRefs.mul (AllRefs.add (AllRefs.exp (by simp)) eGamma_refs) (AllRefs.add (AllRefs.add (AllRefs.exp (by simp)) (AllRefs.mul ?_ eBeta_refs)) (AllRefs.mul eGamma_refs hb))) hb
  exact AllRefs.exp fun _ => ⟨c, hc, rfl⟩

theorem lookupDen_form {j h1 h2 : Nat} : Form n0 cx j (lookupDen h1 h2 : Expr A) := by
  have hb : ∀ {P : Nat → Bool → Prop}, AllRefs P (eMul eGamma (eAdd (eNum 1) eBeta) : Expr A) := AllRefs.mul eGamma_refs (AllRefs.add eNum_refs eBeta_refs)
  exact .chal (chal_mul_left (chal_add_right (chal_mul_left chal_leaf)))
    (AllRefs.mul (AllRefs.add (AllRefs.add eCm_refs (AllRefs.mul eCm_refs eBeta_refs)) hb) (AllRefs.add (AllRefs.add eCm_refs (AllRefs.mul eCm_refs eBeta_refs)) hb))

theorem permSide_form {j f : Nat} : Form n0 cx j (eAdd (eExp f) eBeta : Expr A) :=
  .chal (chal_add_right beta_chal) (noPrime_of (AllRefs.add (AllRefs.exp rfl) eBeta_refs))

/-- **C98** every expression that the generation adds has one of the forms -/
theorem genArgs_form {emb : GL.F → A} {l1 : Option Nat} {st st' : PilSt A} {a : Args} {cx : ArgCtx} (hgen : genArgs emb l1 st a = some (st', cx))
    (hwf : ArgsWF a st.exps.length) : ∀ j e, st.exps.length ≤ j → st'.exps[j]? = some e → Form st.exps.length cx j e := by
  obtain ⟨s2, pu, sl, pe, sp, se, r1, r2, r3, r4, r5⟩ := genArgs_split hgen
  have z3 := runAll_zip (Rel := fun x y : PCtx => y.fExp = x.fExp ∧ y.tExp = x.tExp) (fun st x st1 y h => by
    obtain ⟨l, -, h⟩ := Option.map_eq_some_iff.mp h
    obtain ⟨rfl, rfl⟩ := Prod.mk.inj h
    exact ⟨rfl, rfl⟩) _ _ _ _ r3
  have hback : ∀ c ∈ pu, ∃ c' ∈ cx.pu, c'.fExp = c.fExp ∧ c'.tExp = c.tExp := by
    intro c hc
    obtain ⟨n, hn⟩ := List.mem_iff_getElem?.mp hc
    have hlt : n < cx.pu.length := by rw [← z3.length_eq]; exact lt_of_get hn
    have := (List.forall₂_iff_get.mp z3).2 n (lt_of_get hn) hlt
    have hg : pu.get ⟨n, lt_of_get hn⟩ = c := by
      have := List.getElem?_eq_getElem (lt_of_get hn)
      rw [hn] at this
      exact (Option.some.inj this).symm
    rw [hg] at this
    exact ⟨_, List.getElem_mem hlt, this⟩
  have p2 : s2.exps.length ≤ sl.exps.length := (runAll_spec permLCOne_ext _ _ _ _ r2).1.1.length_le
  have p3 : sl.exps.length ≤ sp.exps.length := (runAll_spec (plookupZOne_ext l1) _ _ _ _ r3).1.1.length_le
  have p4 : sp.exps.length ≤ se.exps.length := (runAll_spec (permZOne_ext l1) _ _ _ _ r4).1.1.length_le
  have e3 := (runAll_spec (plookupZOne_ext l1) _ _ _ _ r3).1
  have e2 := (runAll_spec permLCOne_ext _ _ _ _ r2).1
  have e4 := (runAll_spec (permZOne_ext l1) _ _ _ _ r4).1
  have e5 := (runAll_spec (connZOne_ext emb l1) _ _ _ _ r5).1
  have at_ : ∀ {s s' : PilSt A}, Ext s s' → ∀ {j : Nat} {e : Expr A}, s'.exps[j]? = some e → j < s.exps.length → s.exps[j]? = some e := by
    intro s s' h j e he hlt
    obtain ⟨t, ht⟩ := h.1
    rw [← ht, List.getElem?_append_left hlt] at he
    exact he
  intro j e hj he
  by_cases h5 : se.exps.length ≤ j
  · refine runAll_new _ _ _ _ (fun s x s1 y hx hy h j e hj he => ?_) (fun s x s1 y h => (connZOne_ext emb l1 s x s1 y h).1.1) r5 j e h5 he
    unfold connZOne at h
    split at h
    · obtain ⟨ks, -, h⟩ := Option.bind_eq_some_iff.mp h
      obtain ⟨r, hr, h⟩ := Option.bind_eq_some_iff.mp h
      obtain ⟨l, -, h⟩ := Option.map_eq_some_iff.mp h
      obtain ⟨rfl, hy'⟩ := Prod.mk.inj h
      rename_i p ps c cs _ _
      have hpre := connLoop_ext _ _ _ _ _ _ r hr
      have hlen := hpre.length_le
      rw [List.length_append] at hlen
      simp only [List.length_cons, List.length_nil] at hlen
      obtain ⟨g1, -⟩ := connLoop_form (n0 := st.exps.length) (cx := cx) _ _ _ _ _ _ r hr ⟨_, by rw [List.getElem?_append_right (by omega)]; simp; rfl, factor_chal⟩
      rw [List.length_append] at g1
      simp only [List.length_cons, List.length_nil] at g1
      dsimp only at he
      by_cases h1 : r.1.length ≤ j
      · rcases get_two h1 he with ⟨-, rfl⟩ | ⟨-, rfl⟩
        · exact zStart_form
        · refine .step y s.nCm (by simp [hy]) ?_
          rw [← hy']
      · rw [List.getElem?_append_left (by omega)] at he
        by_cases h2 : s.exps.length + 2 ≤ j
        · exact g1 j e (by omega) he
        · obtain ⟨t, ht⟩ := hpre
          rw [← ht, List.getElem?_append_left (by simp; omega)] at he
          rcases get_two hj he with ⟨-, rfl⟩ | ⟨-, rfl⟩
          · exact .chal factor_chal (noPrime_of (factor_refs eX_refs))
          · exact .chal factor_chal (noPrime_of (factor_refs (AllRefs.exp rfl)))
    · cases h
  have he4 := at_ e5 he (by omega)
  by_cases h4 : sp.exps.length ≤ j
  · refine runAll_new _ _ _ _ (fun s x s1 y hx hy h j e hj he => ?_) (fun s x s1 y h => (permZOne_ext l1 s x s1 y h).1.1) r4 j e h4 he4
    obtain ⟨l, -, h⟩ := Option.map_eq_some_iff.mp h
    obtain ⟨rfl, rfl⟩ := Prod.mk.inj h
    rcases get_four hj he with rfl | rfl | rfl | rfl
    · exact zStart_form
    · exact permSide_form
    · exact permSide_form
    · exact .step _ _ (List.mem_append_left _ (List.mem_append_right _ hy)) rfl
  have he3 := at_ e4 he4 (by omega)
  by_cases h3 : sl.exps.length ≤ j
  · refine runAll_new _ _ _ _ (fun s x s1 y hx hy h j e hj he => ?_) (fun s x s1 y h => (plookupZOne_ext l1 s x s1 y h).1.1) r3 j e h3 he3
    obtain ⟨c', hc', -, ht⟩ := hback x hx
    obtain ⟨l, -, h⟩ := Option.map_eq_some_iff.mp h
    obtain ⟨rfl, rfl⟩ := Prod.mk.inj h
    rcases get_four hj he with rfl | rfl | rfl | rfl
    · exact zStart_form
    · rw [← ht]; exact lookupNum_form hc'
    · exact lookupDen_form
    · exact .step _ _ (List.mem_append_left _ (List.mem_append_left _ hy)) rfl
  have he2 := at_ e3 he3 (by omega)
  by_cases h2 : s2.exps.length ≤ j
  · refine runAll_new _ _ _ _ (fun s x s1 y hx hy h j e hj he => ?_) (fun s x s1 y h => (permLCOne_ext s x s1 y h).1.1) r2 j e h2 he2
    unfold permLCOne at h
    dsimp only at h
    split_ifs at h
    obtain ⟨rfl, rfl⟩ := Prod.mk.inj (Option.some.inj h)
    obtain ⟨w1, w2, w3, w4⟩ := hwf.perm x hx
    rcases get_two hj he with ⟨-, rfl⟩ | ⟨-, rfl⟩
    · exact .old (select_refs (lcT_refs fun j hj => ⟨rfl, w2 j hj⟩) eDef_refs fun k hk => ⟨rfl, w4 k hk⟩)
    · exact .old (select_refs (lcF_refs fun j hj => ⟨rfl, w1 j hj⟩) eDef_refs fun k hk => ⟨rfl, w3 k hk⟩)
  have he1 := at_ e2 he2 (by omega)
  refine runAll_new _ _ _ _ (fun s x s1 y hx hy h j e hj he => ?_) (fun s x s1 y h => (step2One_ext s x s1 y h).1.1) r1 j e hj he1
  have h := Option.some.inj h
  obtain ⟨rfl, rfl⟩ := Prod.mk.inj h
  obtain ⟨w1, w2, w3, w4⟩ := hwf.lookup x hx
  obtain ⟨c', hc', hf, ht⟩ := hback _ hy
  rcases get_two hj he with ⟨-, rfl⟩ | ⟨hj', rfl⟩
  · exact .old (select_refs (lcT_refs fun j hj => ⟨rfl, w2 j hj⟩) eDef_refs fun k hk => ⟨rfl, w4 k hk⟩)
  · refine .side c' hc' ?_ (select_refs (lcF_refs fun j hj => ⟨rfl, .inl (w1 j hj)⟩) (AllRefs.exp ⟨rfl, .inr ?_⟩) fun k hk => ⟨rfl, .inl (w3 k hk)⟩)
    · rw [hf, hj']
    · rw [ht]

/-! ### The numbers of the argument expressions are new -/

theorem genArgs_fresh {emb : GL.F → A} {l1 : Option Nat} {st st' : PilSt A} {a : Args} {cx : ArgCtx} (hgen : genArgs emb l1 st a = some (st', cx)) :
    (∀ (n : Nat) (c : PCtx) (id : Nat), cx.pu[n]? = some c → (id = c.fExp ∨ id = c.tExp) → st.exps.length ≤ id ∧
      (∀ c' ∈ cx.pu ++ cx.pe ++ cx.ci, id ≠ c'.num ∧ id ≠ c'.den) ∧
      ∀ (n' : Nat) (c' : PCtx), cx.pu[n']? = some c' → (id = c'.fExp ∨ id = c'.tExp) → n' = n) ∧
    ∀ c ∈ cx.pu ++ cx.pe ++ cx.ci, st.exps.length ≤ c.num ∧ st.exps.length ≤ c.den ∧ ∃ e, st'.exps[c.den]? = some e ∧ HasChal [] e := by
  obtain ⟨s2, pu, sl, pe, sp, se, r1, r2, r3, r4, r5⟩ := genArgs_split hgen
  have z3 := runAll_zip (Rel := fun x y : PCtx => y.fExp = x.fExp ∧ y.tExp = x.tExp) (fun st x st1 y h => by
    obtain ⟨l, -, h⟩ := Option.map_eq_some_iff.mp h
    obtain ⟨rfl, rfl⟩ := Prod.mk.inj h
    exact ⟨rfl, rfl⟩) _ _ _ _ r3
  obtain ⟨q1, q2, q3⟩ := runAll_range (ids := fun y id => id = y.fExp ∨ id = y.tExp) (fun s x s1 y h => by
    have h := Option.some.inj h
    obtain ⟨rfl, rfl⟩ := Prod.mk.inj h
    refine ⟨by simp, ?_⟩
    rintro id (rfl | rfl) <;> simp) _ _ _ _ r1
  have p2 : s2.exps.length ≤ sl.exps.length := (runAll_spec permLCOne_ext _ _ _ _ r2).1.1.length_le
  obtain ⟨t1, t2, -⟩ := runAll_range (ids := fun y id => id = y.num ∨ id = y.den) (fun s x s1 y h => by
    obtain ⟨l, -, h⟩ := Option.map_eq_some_iff.mp h
    obtain ⟨rfl, rfl⟩ := Prod.mk.inj h
    refine ⟨by simp, ?_⟩
    rintro id (rfl | rfl) <;> simp) _ _ _ _ r3
  obtain ⟨u1, u2, -⟩ := runAll_range (ids := fun y id => id = y.num ∨ id = y.den) (fun s x s1 y h => by
    obtain ⟨l, -, h⟩ := Option.map_eq_some_iff.mp h
    obtain ⟨rfl, rfl⟩ := Prod.mk.inj h
    refine ⟨by simp, ?_⟩
    rintro id (rfl | rfl) <;> simp) _ _ _ _ r4
  obtain ⟨v1, v2, -⟩ := runAll_range (ids := fun y id => (id = y.num ∨ id = y.den)) (fun s x s1 y h => by
    refine ⟨(connZOne_ext emb l1 s x s1 y h).1.1.length_le, fun id hid => ?_⟩
    unfold connZOne at h
    split at h
    · obtain ⟨ks, -, h⟩ := Option.bind_eq_some_iff.mp h
      obtain ⟨r, hr, h⟩ := Option.bind_eq_some_iff.mp h
      obtain ⟨l, -, h⟩ := Option.map_eq_some_iff.mp h
      obtain ⟨rfl, rfl⟩ := Prod.mk.inj h
      rename_i p ps c cs _ _
      have hpre := connLoop_ext _ _ _ _ _ _ r hr
      have hlen := hpre.length_le
      rw [List.length_append] at hlen
      simp only [List.length_cons, List.length_nil] at hlen
      obtain ⟨-, -, g3, g4⟩ := connLoop_form (n0 := 0) (cx := cx) _ _ _ _ _ _ r hr ⟨_, by rw [List.getElem?_append_right (by omega)]; simp; rfl, factor_chal⟩
      have hb : r.2.1 < r.1.length ∧ r.2.2 < r.1.length := connLoop_lt _ _ _ _ _ _ r hr (by simp) (by simp)
      rw [List.length_append] at g3 g4
      simp only [List.length_append, List.length_cons, List.length_nil] at g3 g4 ⊢
      rcases hid with rfl | rfl
      · dsimp only
        omega
      · dsimp only
        omega
    · cases h) _ _ _ _ r5
  have hpu : ∀ (n : Nat) (c : PCtx), cx.pu[n]? = some c → ∃ c', pu[n]? = some c' ∧ c.fExp = c'.fExp ∧ c.tExp = c'.tExp := by
    intro n c hc
    have hlt : n < pu.length := by rw [z3.length_eq]; exact lt_of_get hc
    have := (List.forall₂_iff_get.mp z3).2 n hlt (lt_of_get hc)
    have hg : cx.pu.get ⟨n, lt_of_get hc⟩ = c := by
      have := List.getElem?_eq_getElem (lt_of_get hc)
      rw [hc] at this
      exact (Option.some.inj this).symm
    rw [hg] at this
    exact ⟨_, List.getElem?_eq_getElem hlt, this⟩
  have hfr : ∀ c ∈ cx.pu ++ cx.pe ++ cx.ci, ∀ id, (id = c.num ∨ id = c.den) → s2.exps.length ≤ id := by
    intro c hc id hid
    rcases List.mem_append.mp hc with hc | hc
    · rcases List.mem_append.mp hc with hc | hc
      · have := t2 c hc id hid; omega
      · have := u2 c hc id hid; omega
    · have := v2 c hc id hid; omega
  refine ⟨fun n c id hc hid => ?_, fun c hc => ⟨le_trans q1 (hfr c hc _ (.inl rfl)), le_trans q1 (hfr c hc _ (.inr rfl)), ?_⟩⟩
  · obtain ⟨c0, g1, g2, g3⟩ := hpu n c hc
    have hid0 : id = c0.fExp ∨ id = c0.tExp := by rw [← g2, ← g3]; exact hid
    have hr := q2 c0 (List.mem_of_getElem? g1) id hid0
    refine ⟨hr.1, fun c' hc' => ⟨?_, ?_⟩, fun n' c' hc' hid' => ?_⟩
    · rintro rfl
      have := hfr c' hc' _ (.inl rfl)
      omega
    · rintro rfl
      have := hfr c' hc' _ (.inr rfl)
      omega
    · obtain ⟨c1, k1, k2, k3⟩ := hpu n' c' hc'
      exact q3 n' n c1 c0 id k1 g1 (by rw [← k2, ← k3]; exact hid') hid0
  · rcases List.mem_append.mp hc with hc | hc
    · rcases List.mem_append.mp hc with hc | hc
      · obtain ⟨n, hn⟩ := List.mem_iff_getElem?.mp hc
        have hlt : n < a.plookups.length := by
          have := (runAll_spec step2One_ext _ _ _ _ r1).2.2.1
          rw [← this, z3.length_eq]
          exact lt_of_get hn
        obtain ⟨l, c', -, gc, -, -, -, -, -, -, -, g, -⟩ := genArgs_plookup hgen (List.getElem?_eq_getElem hlt)
        rw [hn] at gc
        obtain rfl := Option.some.inj gc
        exact ⟨_, g, chal_mul_left (chal_add_right (chal_mul_left chal_leaf))⟩
      · obtain ⟨n, hn⟩ := List.mem_iff_getElem?.mp hc
        have hlt : n < a.permutations.length := by
          have h1 := (runAll_spec permLCOne_ext _ _ _ _ r2).2.2.1
          have h2 := (runAll_spec (permZOne_ext l1) _ _ _ _ r4).2.2.1
          rw [← h1, ← h2]
          exact lt_of_get hn
        obtain ⟨l, c', -, gc, -, -, -, -, -, g, -⟩ := genArgs_perm hgen (List.getElem?_eq_getElem hlt)
        rw [hn] at gc
        obtain rfl := Option.some.inj gc
        exact ⟨_, g, chal_add_right beta_chal⟩
    · obtain ⟨n, hn⟩ := List.mem_iff_getElem?.mp hc
      have hlt : n < a.connections.length := by
        have h2 := (runAll_spec (connZOne_ext emb l1) _ _ _ _ r5).2.2.1
        rw [← h2]
        exact lt_of_get hn
      obtain ⟨l, c', p, ps, q, qs, ks, exps, r, -, gc, -, -, -, -, g1, g2, -, g4, -⟩ := genArgs_conn hgen (List.getElem?_eq_getElem hlt)
      rw [hn] at gc
      obtain rfl := Option.some.inj gc
      obtain ⟨-, ⟨e, h1, h2⟩, -⟩ := connLoop_form (n0 := 0) (cx := cx) _ _ _ _ _ _ r g1 ⟨_, by rw [List.getElem?_append_right (by omega)]; simp; rfl, factor_chal⟩
      obtain ⟨t, ht⟩ := g2
      refine ⟨e, ?_, h2⟩
      rw [g4, ← ht, List.getElem?_append_left (lt_of_get h1)]
      exact h1

/-! ### The hypotheses of `map_rows` -/

section
variable {nC nP : Nat} {lims : List Lim} {L : Lim} {B : Type} [Field B]

/-- what `Sc` says about the labels of an expression -/
theorem sc_labels {e : Expr B} (h : Sc nC nP lims L e) : Tidy e ∧ ∀ l, HasLabel l e → (l.op = .cm → ∀ k, l.id = some k → k < L.cols) ∧
    (l.op = .const_ → ∀ k, l.id = some k → k < nC) ∧ (l.op = .exp → ∀ k, l.id = some k → k < lims.length) ∧ l.op ≠ .muladd ∧ l.op ≠ .q := by
  have leaf : ∀ {l : Label B}, ((l.op = .cm → ∀ k, l.id = some k → k < L.cols) ∧ (l.op = .const_ → ∀ k, l.id = some k → k < nC) ∧
      (l.op = .exp → ∀ k, l.id = some k → k < lims.length) ∧ l.op ≠ .muladd ∧ l.op ≠ .q) →
      Tidy (.node l []) ∧ ∀ l', HasLabel l' (.node l []) → (l'.op = .cm → ∀ k, l'.id = some k → k < L.cols) ∧ (l'.op = .const_ → ∀ k, l'.id = some k → k < nC) ∧
      (l'.op = .exp → ∀ k, l'.id = some k → k < lims.length) ∧ l'.op ≠ .muladd ∧ l'.op ≠ .q := by
    intro l hl
    exact ⟨.mk (by simp) (by simp), fun l' hl' => by rw [hasLabel_leaf hl']; exact hl⟩
  induction h with
  | bin ho _ _ ih1 ih2 =>
    refine ⟨.mk (fun _ => by unfold Arith; rcases ho with h | h | h <;> simp [h]) fun v hv => ?_, fun l hl => ?_⟩
    · simp only [List.mem_cons, List.not_mem_nil, or_false] at hv
      rcases hv with rfl | rfl
      · exact ih1.1
      · exact ih2.1
    · rcases hasLabel_two hl with rfl | hl | hl
      · rcases ho with h | h | h <;> simp [h]
      · exact ih1.2 l hl
      · exact ih2.2 l hl
  | neg ho _ ih =>
    refine ⟨.mk (fun _ => by unfold Arith; simp [ho]) fun v hv => ?_, fun l hl => ?_⟩
    · rw [List.mem_singleton] at hv; subst hv; exact ih.1
    · cases hl with
      | here => simp [ho]
      | child hm hc => rw [List.mem_singleton] at hm; subst hm; exact ih.2 l hc
  | cst ho _ _ ih =>
    refine ⟨.mk (fun _ => by unfold Arith; rcases ho with h | h <;> simp [h]) fun v hv => ?_, fun l hl => ?_⟩
    · rw [List.mem_singleton] at hv; subst hv; exact ih.1
    · cases hl with
      | here => rcases ho with h | h <;> simp [h]
      | child hm hc => rw [List.mem_singleton] at hm; subst hm; exact ih.2 l hc
  | num ho _ => exact leaf (by simp [ho])
  | cm ho hi hlt _ => exact leaf (by simp only [ho, hi]; simp [hlt])
  | const_ ho hi hlt _ => exact leaf (by simp only [ho, hi]; simp [hlt])
  | pub ho _ _ => exact leaf (by simp [ho])
  | chal ho _ _ => exact leaf (by simp [ho])
  | x ho => exact leaf (by simp [ho])
  | exp ho hi hm _ _ _ _ => exact leaf (by simp only [ho, hi]; simp [lt_of_get hm])

theorem scoped_get {exps : List (Expr B)} {lims : List Lim} (h : Scoped nC nP exps lims) {j : Nat} {e : Expr B} (he : exps[j]? = some e) :
    ∃ L more, L ∈ lims ∧ (∃ pre, lims = pre ++ more ∧ pre.length = j ∧ Sc nC nP pre L e) := by
  induction h with
  | nil => simp at he
  | @snoc exps lims e' L' hs hsc ih =>
    by_cases hlt : j < exps.length
    · rw [List.getElem?_append_left hlt] at he
      obtain ⟨L, more, h1, pre, h2, h3, h4⟩ := ih he
      exact ⟨L, more ++ [L'], by simp [h1], pre, by rw [h2]; simp, h3, h4⟩
    · have hj : j = exps.length := by
        have := lt_of_get he
        simp at this
        omega
      subst hj
      simp only [List.getElem?_concat_length, Option.some.injEq] at he
      subst he
      exact ⟨L', [L'], by simp, lims, rfl, hs.length, hsc⟩
end

section
variable {R : Run} {T : Trace} {l1 : Option Nat} {st st' : PilSt K} {a : Args} {cx : ArgCtx} {lims : List Lim} {fe : Expr K} {S : Finset Nat} {q : Nat} {ce : Expr K}
  {nC nP fuel fuelI md : Nat} {o : Out}

theorem argsWF_of (hsc : Scoped nC nP st.exps lims) (ha : ArgsScoped a lims st.nCm) : ArgsWF a st.exps.length := by
  have hb : ∀ {j c q : Nat} {pr : Bool}, Bnd lims j c q pr → j < st.exps.length := by
    rintro j c q pr ⟨m, h, -⟩
    have := lt_of_get h
    rw [hsc.length] at this
    exact this
  refine ⟨fun pi h => ?_, fun pi h => ?_⟩
  · obtain ⟨-, -, h1, h2, h3, h4⟩ := ha.lookup pi h
    exact ⟨fun j hj => hb (h1 j hj), fun j hj => hb (h2 j hj), fun k hk => hb (h3 k hk), fun k hk => hb (h4 k hk)⟩
  · obtain ⟨-, -, h1, h2, h3, h4⟩ := ha.perm pi h
    exact ⟨fun j hj => hb (h1 j hj), fun j hj => hb (h2 j hj), fun k hk => hb (h3 k hk), fun k hk => hb (h4 k hk)⟩

/-- **C98** the input that `StarkInfo` hands to `map` meets the hypotheses -/
theorem gen_mapOk (hm : map (inOf st st' cx S q ce fe) fuel = some o)
    (hgen : genArgs (algebraMap F K) l1 st a = some (st', cx)) (hsc : Scoped nC nP st.exps lims)
    (hb : ∀ m ∈ lims, m.cols ≤ st.nCm ∧ m.chals ≤ 4) (ha : ArgsScoped a lims st.nCm) (hl : ∀ l, l1 = some l → l < nC)
    (hg : generate fuelI st'.exps st'.ids st'.nCm md = some (S, q, ce)) (hids : ∀ id ∈ st.ids, id < st.exps.length)
    (hS : ∀ k ∈ S, Safe (inOf st st' cx S q ce fe) k) : MapOk (inOf st st' cx S q ce fe) fuel o := by
  obtain ⟨i, hi⟩ : ∃ i, i = inOf st st' cx S q ce fe := ⟨_, rfl⟩
  rw [← hi] at hm hS ⊢
  have hpu : i.pu = cx.pu := by rw [hi]; rfl
  have hn2 : i.nCm2 = 2 * i.pu.length := by rw [hi]; rfl
  have hn1 : i.nCm1 = st.nCm := by rw [hi]; rfl
  have him : i.imList = S.sort (· ≤ ·) := by rw [hi]; rfl
  have hexps : i.exps = st'.exps ++ ([ce] ++ [fe]) := by rw [hi]; simp [inOf]
  have hce : i.cExp = st'.exps.length := by rw [hi]; rfl
  have hims : ∀ k, i.imExps k = true ↔ k ∈ i.imList := by
    intro k
    rw [him, Finset.mem_sort, hi]
    simp [inOf]
  obtain ⟨e1, e2, e3, -⟩ := genArgs_ctx hgen
  have hncm := (genArgs_ext hgen).2
  have hz : i.zBase = st.nCm + 2 * a.plookups.length := by rw [In.zBase, hn1, hpu, e1]
  have hzz : i.zBase + i.nZ = st'.nCm := by
    have : i.nZ = cx.pu.length + cx.pe.length + cx.ci.length := by rw [hi]; rfl
    rw [hz, this, hncm]; omega
  have hil : i.imList.length = S.card := by rw [him, Finset.length_sort]
  obtain ⟨more, hsc', hall, hlk, -⟩ := genArgs_scoped hgen hsc hl ha hb
  have hrefs := scoped_refs hsc'
  have hbelow : ∀ (j b : Nat) (m : Lim), (lims ++ more)[j]? = some m → m.cols ≤ b → Below i b j := by
    intro j b m hj hmb e he k hk
    have hlt : j < st'.exps.length := by rw [← hsc'.length]; exact lt_of_get hj
    rw [hexps] at he hk
    rw [List.getElem?_append_left hlt] at he
    exact lt_of_lt_of_le (scoped_uses hsc' j e m k he hj hk) hmb
  have hpair : ∀ (n : Nat) (c : PCtx), i.pu[n]? = some c → Below i (i.nCm1 + 2 * n) c.fExp ∧ Below i (i.nCm1 + 2 * n) c.tExp := by
    intro n c hc
    rw [hpu] at hc
    obtain ⟨⟨m, g1, g2, -⟩, ⟨m', g3, g4, -⟩⟩ := hlk c (List.mem_of_getElem? hc)
    exact ⟨hbelow _ _ m g1 (by omega), hbelow _ _ m' g3 (by omega)⟩
  have hsafe : ∀ k ∈ i.imList, Safe i k := fun k hk => hS k (by rw [him] at hk; exact (Finset.mem_sort (· ≤ ·)).mp hk)
  have huses : ∀ e ∈ st'.exps, ∀ k, Uses (st'.exps ++ ([ce] ++ [fe])) k e → k < st'.nCm := by
    intro e he k hk
    obtain ⟨j, hj⟩ := List.mem_iff_getElem?.mp he
    have hlt : j < (lims ++ more).length := by rw [hsc'.length]; exact lt_of_get hj
    have hm' := List.getElem?_eq_getElem hlt
    exact lt_of_lt_of_le (scoped_uses hsc' j e _ k hj hm' hk) (hall _ (List.mem_of_getElem? hm')).1
  obtain ⟨hacc, hchal⟩ := generate_acc (more := [ce] ++ [fe]) hg (genArgs_idsLt hgen hids) hrefs huses
  have hceq : i.exps[i.cExp]? = some ce := by rw [hexps, hce]; simp
  have hsafeC : Safe i i.cExp := by
    rcases hchal with hc | ⟨h1, h2⟩
    · refine .inr ⟨fun e he k hk => ?_, fun e he => ?_⟩
      · rw [hceq] at he
        obtain rfl := Option.some.inj he
        rw [hexps] at hk
        have := hacc.uses k hk
        rw [hil, hzz]
        exact this
      · rw [hceq] at he
        obtain rfl := Option.some.inj he
        rw [hexps]
        exact hc
    · refine .inl fun e he k hk => ?_
      rw [hceq] at he
      obtain rfl := Option.some.inj he
      rw [hexps] at hk
      have h3 := hacc.uses k hk
      rw [h2] at h3
      have h4 := genArgs_ids hgen
      have h5 := congrArg List.length h4
      rw [h1, List.length_append, List.length_flatMap] at h5
      simp only [List.length_cons, List.length_nil, List.map_const', List.sum_replicate, List.length_append, smul_eq_mul] at h5
      have h6 : i.nZ = cx.pu.length + cx.pe.length + cx.ci.length := by rw [hi]; rfl
      simp only [Finset.card_empty, Nat.add_zero] at h3
      omega
  refine ⟨hm, hn2, hims, ?_, ?_, hpair, hsafe, hsafeC⟩
  · rw [him]
    exact Finset.sort_nodup _ _
  · intro n c id hc hid
    rw [hpu] at hc
    obtain ⟨-, g2, g3⟩ := (genArgs_fresh hgen).1 n c id hc hid
    refine ⟨?_, fun n' c' hc' hid' => g3 n' c' (by rw [← hpu]; exact hc') hid'⟩
    rintro ⟨c', hc', hid'⟩
    have hm' : c' ∈ cx.pu ++ cx.pe ++ cx.ci := by rw [hi] at hc'; exact hc'
    have := g2 c' hm'
    rcases hid' with h | h
    · exact this.1 h
    · exact this.2 h

/-- **C98** the expressions of the arguments meet the hypotheses -/
theorem gen_expsOk (hgen : genArgs (algebraMap F K) l1 st a = some (st', cx)) (hsc : Scoped nC nP st.exps lims)
    (hb : ∀ m ∈ lims, m.cols ≤ st.nCm ∧ m.chals ≤ 4) (ha : ArgsScoped a lims st.nCm) (hl : ∀ l, l1 = some l → l < nC)
    (hnum : ∀ e ∈ st'.exps, NumBase e) (Rq : Bool → Nat → Prop) : ExpsOk (inOf st st' cx S q ce fe) st'.exps nC Rq ∧ PlainOps st'.exps Rq := by
  obtain ⟨more, hsc', hall, hlk, -⟩ := genArgs_scoped hgen hsc hl ha hb
  obtain ⟨e1, e2, e3, -⟩ := genArgs_ctx hgen
  have hncm := (genArgs_ext hgen).2
  have hlab : ∀ {j : Nat} {e : Expr K}, st'.exps[j]? = some e → Tidy e ∧ ∀ l, HasLabel l e → (l.op = .cm → ∀ k, l.id = some k → k < st'.nCm) ∧
      (l.op = .const_ → ∀ k, l.id = some k → k < nC) ∧ (l.op = .exp → ∀ k, l.id = some k → k < j) ∧ l.op ≠ .muladd ∧ l.op ≠ .q := by
    intro j e he
    obtain ⟨L, post, h1, pre, h2, h3, h4⟩ := scoped_get hsc' he
    obtain ⟨g1, g2⟩ := sc_labels h4
    refine ⟨g1, fun l hl => ?_⟩
    obtain ⟨k1, k2, k3, k4⟩ := g2 l hl
    exact ⟨fun ho k hk => lt_of_lt_of_le (k1 ho k hk) (hall L h1).1, k2, fun ho k hk => by rw [← h3]; exact k3 ho k hk, k4⟩
  refine ⟨⟨fun id e he => ?_, fun p id e _ he => (hlab he).1, fun p id e _ he => hnum e (List.mem_of_getElem? he), ?_, ?_,
    fun p id e l k _ he hl' ho hk => ((hlab he).2 l hl').2.1 ho k hk⟩, fun p id e l _ he hl' => ((hlab he).2 l hl').2.2.2⟩
  · show (st'.exps ++ [ce] ++ [fe])[id]? = some e
    rw [List.append_assoc, List.getElem?_append_left (lt_of_get he)]
    exact he
  · intro p id e l j _ he hl' ho hj harg
    obtain ⟨f1, f2⟩ := genArgs_fresh hgen
    have hge : st.exps.length ≤ j := by
      unfold In.argIds at harg
      rcases List.mem_append.mp harg with h | h
      · obtain ⟨c, hc, h⟩ := List.mem_flatMap.mp h
        obtain ⟨n, hn⟩ := List.mem_iff_getElem?.mp hc
        exact (f1 n c j hn (by simpa using h)).1
      · obtain ⟨c, hc, h⟩ := List.mem_flatMap.mp h
        have := f2 c hc
        simp only [List.mem_cons, List.not_mem_nil, or_false] at h
        rcases h with rfl | rfl
        · exact this.1
        · exact this.2.1
    have hlt := ((hlab he).2 l hl').2.2.1 ho j hj
    have hEq : (inOf st st' cx S q ce fe).exps = st'.exps ++ ([ce] ++ [fe]) := by simp [inOf]
    rcases genArgs_form hgen (argsWF_of hsc ha) id e (by omega) he with h | ⟨c, hc, hid, h⟩ | ⟨h, -⟩ | ⟨c, z, hc, rfl⟩
    · have := (h l hl' ho j hj).2
      omega
    · obtain ⟨n, hn⟩ := List.mem_iff_getElem?.mp hc
      rcases (h l hl' ho j hj).2 with h | h
      · omega
      · exact .inr ⟨n, c, hn, hid, h⟩
    · exact .inl (by rw [hEq, ← List.nil_append (st'.exps ++ _)]; exact h.append)
    · obtain ⟨-, -, e', h1, h2⟩ := f2 c hc
      refine .inl ?_
      rw [hEq]
      refine chal_sub_left (chal_mul_right (chal_exp (e := e') ?_ ?_))
      · rw [List.getElem?_append_left (lt_of_get h1)]; exact h1
      · rw [← List.nil_append (st'.exps ++ _)]; exact h2.append
  · intro p id e l k _ he hl' ho hk
    have := ((hlab he).2 l hl').1 ho k hk
    show k < st.nCm + 2 * cx.pu.length + (cx.pu.length + cx.pe.length + cx.ci.length)
    omega

/-- **C98** when `x` does not occur in the PIL, it does not occur in a table, so the programs do not need it at the next row -/
theorem gen_noPoint (hgen : genArgs (algebraMap F K) l1 st a = some (st', cx)) (hsc : Scoped nC nP st.exps lims)
    (ha : ArgsScoped a lims st.nCm) (hx : ∀ e ∈ st.exps, NoX e) {reqs : List Req} (hreqs : ∀ r ∈ reqs, r.prime = false) :
    NoPoint st'.exps (Needed st'.exps reqs) := by
  have hext := (genArgs_ext hgen).1
  have hold : ∀ {j : Nat} {e : Expr K}, j < st.exps.length → st'.exps[j]? = some e → st.exps[j]? = some e := by
    intro j e hlt he
    obtain ⟨t, ht⟩ := hext.1
    rw [← ht, List.getElem?_append_left hlt] at he
    exact he
  have htab : ∀ c ∈ cx.pu, ∃ e, st'.exps[c.tExp]? = some e ∧ NoX e ∧ AllRefs (fun k _ => k < st.exps.length) e := by
    intro c hc
    obtain ⟨n, hn⟩ := List.mem_iff_getElem?.mp hc
    have hlt : n < a.plookups.length := by rw [← (genArgs_ctx hgen).1]; exact lt_of_get hn
    obtain ⟨l, c', -, gc, -, -, -, g, -⟩ := genArgs_plookup hgen (List.getElem?_eq_getElem hlt)
    rw [hn] at gc
    obtain rfl := Option.some.inj gc
    obtain ⟨w1, w2, w3, w4⟩ := (argsWF_of hsc ha).lookup _ (List.getElem_mem hlt)
    exact ⟨_, g, select_noX (lcT_noX _) (NoX.leaf rfl), select_refs (lcT_refs w2) eDef_refs w4⟩
  have hrefs : ∀ {j : Nat} {e : Expr K}, st.exps[j]? = some e → AllRefs (fun k _ => k < st.exps.length) e := by
    intro j e he l hl ho k hk
    obtain ⟨L, post, h1, pre, h2, h3, h4⟩ := scoped_get hsc he
    have := ((sc_labels h4).2 l hl).2.2.1 ho k hk
    have hlen := hsc.length
    rw [h2, List.length_append] at hlen
    omega
  have key : ∀ {p : Bool} {j : Nat}, Needed st'.exps reqs p j → p = true → j < st.exps.length ∨ ∃ c ∈ cx.pu, j = c.tExp := by
    intro p j h
    induction h with
    | req hr => intro hp; rw [hreqs _ hr] at hp; cases hp
    | @ref p id e l j _ he hl ho hj ih =>
      intro hp
      by_cases hlt : id < st.exps.length
      · exact .inl (hrefs (hold hlt he) l hl ho j hj)
      cases hpp : p with
      | true =>
        rcases ih hpp with h | ⟨c, hc, rfl⟩
        · exact absurd h hlt
        · obtain ⟨e', h1, -, h2⟩ := htab c hc
          rw [he] at h1
          obtain rfl := Option.some.inj h1
          exact .inl (h2 l hl ho j hj)
      | false =>
        rw [hpp, Bool.false_or] at hp
        rcases genArgs_form hgen (argsWF_of hsc ha) id e (by omega) he with h | ⟨c, hc, hid, h⟩ | ⟨-, h⟩ | ⟨c, z, hc, rfl⟩
        · have := (h l hl ho j hj).1; rw [hp] at this; cases this
        · have := (h l hl ho j hj).1; rw [hp] at this; cases this
        · exact .inr (h l hl ho j hj hp)
        · have : AllRefs (fun _ next => next = false) (zStep z c.num c.den : Expr K) :=
            AllRefs.sub (AllRefs.mul eCm_refs (AllRefs.exp rfl)) (AllRefs.mul eCm_refs (AllRefs.exp rfl))
          have := this l hl ho j hj
          rw [hp] at this
          cases this
  intro id e l hn he hl
  rcases key hn rfl with h | ⟨c, hc, rfl⟩
  · exact hx e (List.mem_of_getElem? (hold h he)) l hl
  · obtain ⟨e', h1, h2, -⟩ := htab c hc
    rw [he] at h1
    obtain rfl := Option.some.inj h1
    exact h2 l hl

end

end Verif.Map
