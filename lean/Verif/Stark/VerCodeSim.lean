import Verif.Stark.VerCode
import Verif.Codegen.Syntax

/-!
# Rewritten code computes what the generated code computes
-/
set_option linter.unusedSectionVars false

namespace Verif.Stark
open Codegen Codegen.Spec

variable {G A L : Type}

/-! ### The rewriting as a renaming by the final maps -/

theorem lookup_cons_ite {α β : Type} [BEq α] [LawfulBEq α] [DecidableEq α] (k a : α) (b : β) (l : List (α × β)) :
    List.lookup k ((a, b) :: l) = if k = a then some b else List.lookup k l := by
  rw [List.lookup_cons]
  by_cases h : k = a
  · simp [h]
  · have : (k == a) = false := by simpa using h
    rw [this, if_neg h]

theorem forall₂_snoc {α β : Type} {R : α → β → Prop} {a : List α} {b : α} {v : List β} (h : List.Forall₂ R (a ++ [b]) v) :
    ∃ vi vl, v = vi ++ [vl] ∧ R b vl := by
  induction a generalizing v with
  | nil =>
    cases h with
    | cons h1 h2 => cases h2; exact ⟨[], _, rfl, h1⟩
  | cons x a ih =>
    cases h with
    | cons h1 h2 =>
      obtain ⟨vi, vl, rfl, h⟩ := ih h2
      exact ⟨_ :: vi, vl, rfl, h⟩

/-- `n` is what becomes of the reference `r`: `slot` is the final `exp_map`, `LR` what the pass does to the leaves -/
def RenNode (im : List Nat) (slot : Bool × Nat → Option Nat) (LR : Node A → VNode A → Prop) (r : Node A) (n : VNode A) : Prop :=
  if r.ty = .tmp then n.ty = .tmp ∧ n.id = r.id
  else if r.ty = .exp ∧ r.id ∉ im then n.ty = .tmp ∧ slot (r.prime, r.id) = some n.id
  else LR r n

/-- the same for an instruction -/
structure RenInstr (im : List Nat) (slot : Bool × Nat → Option Nat) (LR : Node A → VNode A → Prop) (i : Instr A) (j : VInstr A) :
    Prop where
  op : j.op = i.op
  dest : RenNode im slot LR i.dest j.dest
  src : List.Forall₂ (RenNode im slot LR) i.src j.src

theorem RenNode.mono {im : List Nat} {slot slot' : Bool × Nat → Option Nat} {LR LR' : Node A → VNode A → Prop}
    (hs : ∀ k s, slot k = some s → slot' k = some s) (hl : ∀ r n, LR r n → LR' r n) {r : Node A} {n : VNode A}
    (h : RenNode im slot LR r n) : RenNode im slot' LR' r n := by
  unfold RenNode at h ⊢
  split_ifs at h ⊢
  · exact h
  · exact ⟨h.1, hs _ _ h.2⟩
  · exact hl _ _ h

theorem RenInstr.mono {im : List Nat} {slot slot' : Bool × Nat → Option Nat} {LR LR' : Node A → VNode A → Prop}
    (hs : ∀ k s, slot k = some s → slot' k = some s) (hl : ∀ r n, LR r n → LR' r n) {r : Instr A} {n : VInstr A}
    (h : RenInstr im slot LR r n) : RenInstr im slot' LR' r n :=
  ⟨h.op, h.dest.mono hs hl, h.src.imp fun _ _ h => h.mono hs hl⟩

/-- `exp_map` assigns distinct temporaries between `t0` and `tmp_used` -/
structure SlotsOk (t0 : Nat) (st : FixSt L) : Prop where
  range : ∀ k s, st.expMap.lookup k = some s → t0 ≤ s ∧ s < st.tmpUsed
  inj : ∀ k k' s, st.expMap.lookup k = some s → st.expMap.lookup k' = some s → k = k'

/-- the pass's own state: it only grows (`le`), keeps its invariant (`ok`), and its effect on a leaf (`LR`) is stable -/
structure LeafPass (leaf : Node A → L → Option (VNode A × L)) (ok : L → Prop) (le : L → L → Prop)
    (LR : L → Node A → VNode A → Prop) : Prop where
  refl : ∀ l, le l l
  trans : ∀ a b c, le a b → le b c → le a c
  mono : ∀ a b r n, le a b → LR a r n → LR b r n
  step : ∀ r l n l', leaf r l = some (n, l') → ok l → ok l' ∧ le l l' ∧ LR l' r n

/-- the maps grow -/
def FixLe (le : L → L → Prop) (a b : FixSt L) : Prop :=
  le a.leaf b.leaf ∧ ∀ k s, a.expMap.lookup k = some s → b.expMap.lookup k = some s

section
variable {im : List Nat} {leaf : Node A → L → Option (VNode A × L)} {ok : L → Prop} {le : L → L → Prop}
  {LR : L → Node A → VNode A → Prop} (H : LeafPass leaf ok le LR)
include H

theorem fixRef_ren {t0 : Nat} {r : Node A} {st st' : FixSt L} {n : VNode A} (h : fixRef im leaf r st = some (n, st'))
    (h1 : SlotsOk t0 st) (h2 : ok st.leaf) (h0 : t0 ≤ st.tmpUsed) :
    SlotsOk t0 st' ∧ ok st'.leaf ∧ t0 ≤ st'.tmpUsed ∧ FixLe le st st' ∧ RenNode im (st'.expMap.lookup ·) (LR st'.leaf) r n := by
  unfold fixRef at h
  unfold RenNode
  split_ifs at h ⊢ with ht he
  · cases h
    exact ⟨h1, h2, h0, ⟨H.refl _, fun _ _ h => h⟩, rfl, rfl⟩
  · cases hl : st.expMap.lookup (r.prime, r.id) with
    | some s =>
      rw [hl] at h
      cases h
      exact ⟨h1, h2, h0, ⟨H.refl _, fun _ _ h => h⟩, rfl, hl⟩
    | none =>
      rw [hl] at h
      cases h
      have hlk : ∀ k s, List.lookup k (((r.prime, r.id), st.tmpUsed) :: st.expMap) = some s →
          (k = (r.prime, r.id) ∧ s = st.tmpUsed) ∨ (k ≠ (r.prime, r.id) ∧ st.expMap.lookup k = some s) := by
        intro k s hk
        rw [lookup_cons_ite] at hk
        by_cases e : k = (r.prime, r.id)
        · rw [if_pos e] at hk
          exact .inl ⟨e, (Option.some.inj hk).symm⟩
        · rw [if_neg e] at hk
          exact .inr ⟨e, hk⟩
      refine ⟨⟨?_, ?_⟩, h2, by dsimp only; omega, ⟨H.refl _, ?_⟩, rfl, by dsimp only; simp⟩
      · intro k s hk
        dsimp only at hk ⊢
        rcases hlk k s hk with ⟨-, rfl⟩ | ⟨-, hk⟩
        · omega
        · have := h1.range k s hk
          omega
      · intro k k' s hk hk'
        dsimp only at hk hk'
        rcases hlk k s hk with ⟨e1, e2⟩ | ⟨-, hk⟩ <;> rcases hlk k' s hk' with ⟨e3, e4⟩ | ⟨-, hk'⟩
        · rw [e1, e3]
        · have := h1.range k' _ hk'; omega
        · have := h1.range k _ hk; omega
        · exact h1.inj k k' s hk hk'
      · intro k s hk
        dsimp only
        rw [lookup_cons_ite, if_neg]
        · exact hk
        · rintro rfl
          rw [hl] at hk
          cases hk
  · obtain ⟨⟨n', l'⟩, hl, e⟩ := Option.map_eq_some_iff.mp h
    cases e
    obtain ⟨a, b, c⟩ := H.step _ _ _ _ hl h2
    exact ⟨⟨h1.range, h1.inj⟩, a, h0, ⟨b, fun _ _ h => h⟩, c⟩

theorem fixLe_trans {a b c : FixSt L} (h1 : FixLe le a b) (h2 : FixLe le b c) : FixLe le a c :=
  ⟨H.trans _ _ _ h1.1 h2.1, fun k s h => h2.2 k s (h1.2 k s h)⟩

theorem renNode_le {a b : FixSt L} (h : FixLe le a b) {r : Node A} {n : VNode A}
    (hr : RenNode im (a.expMap.lookup ·) (LR a.leaf) r n) : RenNode im (b.expMap.lookup ·) (LR b.leaf) r n :=
  hr.mono h.2 fun _ _ => H.mono _ _ _ _ h.1

theorem fixSrc_ren {t0 : Nat} {rs : List (Node A)} : ∀ {st st' : FixSt L} {ns : List (VNode A)},
    fixSrc im leaf rs st = some (ns, st') → SlotsOk t0 st → ok st.leaf → t0 ≤ st.tmpUsed →
    SlotsOk t0 st' ∧ ok st'.leaf ∧ t0 ≤ st'.tmpUsed ∧ FixLe le st st' ∧
      List.Forall₂ (RenNode im (st'.expMap.lookup ·) (LR st'.leaf)) rs ns := by
  induction rs with
  | nil =>
    intro st st' ns h h1 h2 h0
    cases h
    exact ⟨h1, h2, h0, ⟨H.refl _, fun _ _ h => h⟩, .nil⟩
  | cons r rs ih =>
    intro st st' ns h h1 h2 h0
    rw [fixSrc] at h
    obtain ⟨⟨n, s1⟩, a, h⟩ := Option.bind_eq_some_iff.mp h
    obtain ⟨⟨ns', s2⟩, b, e⟩ := Option.map_eq_some_iff.mp h
    cases e
    obtain ⟨a1, a2, a3, a4, a5⟩ := fixRef_ren H a h1 h2 h0
    obtain ⟨b1, b2, b3, b4, b5⟩ := ih b a1 a2 a3
    exact ⟨b1, b2, b3, fixLe_trans H a4 b4, .cons (renNode_le H b4 a5) b5⟩

theorem fixCode_ren {t0 : Nat} {is : List (Instr A)} : ∀ {st st' : FixSt L} {js : List (VInstr A)},
    fixCode im leaf is st = some (js, st') → SlotsOk t0 st → ok st.leaf → t0 ≤ st.tmpUsed →
    SlotsOk t0 st' ∧ ok st'.leaf ∧ t0 ≤ st'.tmpUsed ∧ FixLe le st st' ∧
      List.Forall₂ (RenInstr im (st'.expMap.lookup ·) (LR st'.leaf)) is js := by
  induction is with
  | nil =>
    intro st st' js h h1 h2 h0
    cases h
    exact ⟨h1, h2, h0, ⟨H.refl _, fun _ _ h => h⟩, .nil⟩
  | cons i is ih =>
    intro st st' js h h1 h2 h0
    rw [fixCode] at h
    obtain ⟨⟨ns, s1⟩, a, h⟩ := Option.bind_eq_some_iff.mp h
    obtain ⟨⟨d, s2⟩, b, h⟩ := Option.bind_eq_some_iff.mp h
    obtain ⟨⟨js', s3⟩, c, e⟩ := Option.map_eq_some_iff.mp h
    cases e
    obtain ⟨a1, a2, a3, a4, a5⟩ := fixSrc_ren H a h1 h2 h0
    obtain ⟨b1, b2, b3, b4, b5⟩ := fixRef_ren H b a1 a2 a3
    obtain ⟨c1, c2, c3, c4, c5⟩ := ih c b1 b2 b3
    refine ⟨c1, c2, c3, fixLe_trans H (fixLe_trans H a4 b4) c4, .cons ⟨rfl, renNode_le H c4 b5, ?_⟩ c5⟩
    exact a5.imp fun _ _ h => renNode_le H (fixLe_trans H b4 c4) h

end

/-! ### Success of the rewriting -/

theorem fixRef_some {im : List Nat} {leaf : Node A → L → Option (VNode A × L)} {r : Node A}
    (h : r.ty ≠ .tmp → ¬(r.ty = .exp ∧ r.id ∉ im) → ∀ l, leaf r l ≠ none) (st : FixSt L) : ∃ x, fixRef im leaf r st = some x := by
  unfold fixRef
  split_ifs with h1 h2
  · exact ⟨_, rfl⟩
  · cases st.expMap.lookup (r.prime, r.id) <;> exact ⟨_, rfl⟩
  · obtain ⟨x, hx⟩ := Option.ne_none_iff_exists'.mp (h h1 h2 st.leaf)
    exact ⟨_, by rw [hx]; rfl⟩

theorem fixCode_some {im : List Nat} {leaf : Node A → L → Option (VNode A × L)} : ∀ {is : List (Instr A)},
    (∀ i ∈ is, ∀ r, r = i.dest ∨ r ∈ i.src → r.ty ≠ .tmp → ¬(r.ty = .exp ∧ r.id ∉ im) → ∀ l, leaf r l ≠ none) →
    ∀ st : FixSt L, ∃ x, fixCode im leaf is st = some x := by
  intro is
  induction is with
  | nil => intro _ st; exact ⟨_, rfl⟩
  | cons i is ih =>
    intro h st
    have hs : ∀ (rs : List (Node A)), (∀ r ∈ rs, r ∈ i.src) → ∀ st : FixSt L, ∃ x, fixSrc im leaf rs st = some x := by
      intro rs
      induction rs with
      | nil => intro _ st; exact ⟨_, rfl⟩
      | cons r rs ihr =>
        intro hr st
        obtain ⟨x, hx⟩ := fixRef_some (im := im) (leaf := leaf) (r := r) (h i (by simp) r (.inr (hr r (by simp)))) st
        obtain ⟨y, hy⟩ := ihr (fun r h => hr r (by simp [h])) x.2
        exact ⟨_, by rw [fixSrc, hx, Option.bind_some, hy]; rfl⟩
    obtain ⟨x, hx⟩ := hs i.src (fun _ h => h) st
    obtain ⟨y, hy⟩ := fixRef_some (im := im) (leaf := leaf) (r := i.dest) (h i (by simp) _ (.inl rfl)) x.2
    obtain ⟨z, hz⟩ := ih (fun j hj => h j (by simp [hj])) y.2
    exact ⟨_, by rw [fixCode, hx, Option.bind_some, hy, Option.bind_some, hz]; rfl⟩

/-! ### Simulation -/

section
variable [Field A] [DecidableEq A]

/-- field arithmetic -/
def fieldOps (A : Type) [Field A] : Ops A where
  add a b := some (a + b)
  sub a b := some (a - b)
  mul a b := some (a * b)
  zero := 0

/-- the temporaries of the verifier hold the registers of the generated code -/
structure Sim (im : List Nat) (slot : Bool × Nat → Option Nat) (T : Nat) (σ0 σ : Store A) (tmp : Nat → Option A) : Prop where
  tmps : ∀ id p v, σ .tmp id p = some v → p = false ∧ id < T ∧ tmp id = some v
  exps : ∀ id p v, id ∉ im → σ .exp id p = some v → ∀ s, slot (p, id) = some s → tmp s = some v
  other : ∀ t id p, t ≠ .tmp → ¬(t = .exp ∧ id ∉ im) → σ t id p = σ0 t id p

theorem readN_sim {im : List Nat} {slot : Bool × Nat → Option Nat} {T : Nat} {σ0 σ : Store A} {tmp : Nat → Option A}
    {LR : Node A → VNode A → Prop} {e : Emb G A} {ctx : VCtx G A}
    (hleaf : ∀ r n v tmp, r.ty ≠ .tmp → ¬(r.ty = .exp ∧ r.id ∉ im) → LR r n → readN σ0 r = some v → getRef e ctx tmp n = some v)
    (hS : Sim im slot T σ0 σ tmp) {r : Node A} {n : VNode A} {v : A} (hr : RenNode im slot LR r n) (hv : readN σ r = some v) :
    getRef e ctx tmp n = some v := by
  unfold RenNode at hr
  unfold readN at hv
  split_ifs at hr with h1 h2
  · rw [if_neg (by rw [h1]; simp), h1] at hv
    simp only [getRef, hr.1, hr.2]
    exact (hS.tmps _ _ _ hv).2.2
  · rw [if_neg (by rw [h2.1]; simp), h2.1] at hv
    simp only [getRef, hr.1]
    exact hS.exps _ _ _ h2.2 hv _ hr.2
  · refine hleaf r n v tmp h1 h2 hr ?_
    unfold readN
    rw [← hS.other r.ty r.id r.prime h1 h2]
    exact hv

theorem vApply_sim {op : IOp} {vs : List A} {v : A} (h : apply (fieldOps A) op vs = some v) : vApply op vs = some v := by
  unfold apply at h
  split at h <;> simp [fieldOps] at h <;> simp [vApply, h]

theorem vStep_sim {im : List Nat} {slot : Bool × Nat → Option Nat} {T : Nat} {σ0 σ σ' : Store A} {tmp : Nat → Option A}
    {LR : Node A → VNode A → Prop} {e : Emb G A} {ctx : VCtx G A}
    (hleaf : ∀ r n v tmp, r.ty ≠ .tmp → ¬(r.ty = .exp ∧ r.id ∉ im) → LR r n → readN σ0 r = some v → getRef e ctx tmp n = some v)
    (hrange : ∀ k s, slot k = some s → T ≤ s) (hinj : ∀ k k' s, slot k = some s → slot k' = some s → k = k')
    (hS : Sim im slot T σ0 σ tmp) {i : Instr A} {j : VInstr A} (hi : RenInstr im slot LR i j)
    (hd : (i.dest.ty = .tmp ∧ i.dest.prime = false ∧ i.dest.id < T) ∨ (i.dest.ty = .exp ∧ i.dest.id ∉ im))
    (hs : step (fieldOps A) σ i = some σ') :
    ∃ tmp', vStep e ctx tmp j = some tmp' ∧ Sim im slot T σ0 σ' tmp' := by
  unfold step at hs
  obtain ⟨vs, h1, hs⟩ := Option.bind_eq_some_iff.mp hs
  obtain ⟨v, h2, rfl⟩ := Option.map_eq_some_iff.mp hs
  have hm : ∀ {rs : List (Node A)} {ns : List (VNode A)} {vs : List A}, List.Forall₂ (RenNode im slot LR) rs ns →
      rs.mapM (readN σ) = some vs → ns.mapM (getRef e ctx tmp) = some vs := by
    intro rs ns vs h
    induction h generalizing vs with
    | nil => intro h; exact h
    | cons hr _ ih =>
      intro h
      rw [List.mapM_cons] at h ⊢
      obtain ⟨v, a, h⟩ := Option.bind_eq_some_iff.mp h
      obtain ⟨vs', b, h⟩ := Option.bind_eq_some_iff.mp h
      rw [readN_sim hleaf hS hr a, ih b]
      exact h
  have hdt : j.dest.ty = .tmp := by
    have := hi.dest
    unfold RenNode at this
    rcases hd with hd | hd
    · rw [if_pos hd.1] at this; exact this.1
    · rw [if_neg (by rw [hd.1]; simp), if_pos hd] at this; exact this.1
  refine ⟨Function.update tmp j.dest.id (some v), ?_, ?_⟩
  · unfold vStep
    rw [hm hi.src h1, Option.bind_some, hi.op, vApply_sim h2, Option.bind_some, if_pos hdt]
  · have hren := hi.dest
    unfold RenNode at hren
    rcases hd with ⟨d1, d2, d3⟩ | ⟨d1, d2⟩
    · rw [if_pos d1] at hren
      refine ⟨?_, ?_, ?_⟩
      · intro id p w hw
        unfold Store.set at hw
        split_ifs at hw with hk
        · obtain ⟨-, rfl, rfl⟩ := hk
          rw [hren.2]
          exact ⟨d2, d3, by simpa using hw⟩
        · obtain ⟨a, b, c⟩ := hS.tmps _ _ _ hw
          refine ⟨a, b, ?_⟩
          rw [Function.update_of_ne, c]
          rintro rfl
          exact hk ⟨d1.symm, hren.2, by rw [a, d2]⟩
      · intro id p w hid hw s hs
        unfold Store.set at hw
        rw [if_neg (by rw [d1]; simp)] at hw
        rw [Function.update_of_ne, hS.exps id p w hid hw s hs]
        have := hrange _ _ hs
        rw [hren.2]
        omega
      · intro t id p h1 h2
        unfold Store.set
        rw [if_neg (by rw [d1]; exact fun h => h1 h.1)]
        exact hS.other t id p h1 h2
    · rw [if_neg (by rw [d1]; simp), if_pos ⟨d1, d2⟩] at hren
      refine ⟨?_, ?_, ?_⟩
      · intro id p w hw
        unfold Store.set at hw
        rw [if_neg (by rw [d1]; simp)] at hw
        obtain ⟨a, b, c⟩ := hS.tmps _ _ _ hw
        refine ⟨a, b, ?_⟩
        rw [Function.update_of_ne, c]
        have := hrange _ _ hren.2
        omega
      · intro id p w hid hw s hs
        unfold Store.set at hw
        split_ifs at hw with hk
        · obtain ⟨-, rfl, rfl⟩ := hk
          rw [hren.2] at hs
          cases hs
          simpa using hw
        · rw [Function.update_of_ne, hS.exps id p w hid hw s hs]
          rintro rfl
          have := hinj _ _ _ hs hren.2
          exact hk ⟨d1.symm, congrArg Prod.snd this, congrArg Prod.fst this⟩
      · intro t id p h1 h2
        unfold Store.set
        rw [if_neg]
        · exact hS.other t id p h1 h2
        · rintro ⟨rfl, rfl, rfl⟩
          exact h2 ⟨d1, d2⟩

theorem exec_sim {im : List Nat} {slot : Bool × Nat → Option Nat} {T : Nat} {σ0 : Store A}
    {LR : Node A → VNode A → Prop} {e : Emb G A} {ctx : VCtx G A}
    (hleaf : ∀ r n v tmp, r.ty ≠ .tmp → ¬(r.ty = .exp ∧ r.id ∉ im) → LR r n → readN σ0 r = some v → getRef e ctx tmp n = some v)
    (hrange : ∀ k s, slot k = some s → T ≤ s) (hinj : ∀ k k' s, slot k = some s → slot k' = some s → k = k') :
    ∀ {code : List (Instr A)} {vcode : List (VInstr A)}, List.Forall₂ (RenInstr im slot LR) code vcode →
    (∀ i ∈ code, (i.dest.ty = .tmp ∧ i.dest.prime = false ∧ i.dest.id < T) ∨ (i.dest.ty = .exp ∧ i.dest.id ∉ im)) →
    ∀ {σ σ' : Store A} {tmp : Nat → Option A}, Sim im slot T σ0 σ tmp → exec (fieldOps A) code σ = some σ' →
    ∃ tmp', vcode.foldlM (vStep e ctx) tmp = some tmp' ∧ Sim im slot T σ0 σ' tmp' := by
  intro code vcode h
  induction h with
  | nil => intro _ σ σ' tmp hS hx; cases hx; exact ⟨tmp, rfl, hS⟩
  | cons hi _ ih =>
    intro hd σ σ' tmp hS hx
    unfold exec at hx
    rw [List.foldlM_cons] at hx
    obtain ⟨σ1, h1, h2⟩ := Option.bind_eq_some_iff.mp hx
    obtain ⟨tmp1, a, b⟩ := vStep_sim hleaf hrange hinj hS hi (hd _ (by simp)) h1
    obtain ⟨tmp2, c, d⟩ := ih (fun i hi => hd i (by simp [hi])) b h2
    exact ⟨tmp2, by rw [List.foldlM_cons, a]; exact c, d⟩

/-- The verifier's interpreter on rewritten code computes the value that the generated code leaves in the register of the
expression requested last. -/
theorem executeCode_sim {im : List Nat} {slot : Bool × Nat → Option Nat} {T : Nat} {σ0 σ : Store A}
    {LR : Node A → VNode A → Prop} {e : Emb G A} {ctx : VCtx G A}
    (hleaf : ∀ r n v tmp, r.ty ≠ .tmp → ¬(r.ty = .exp ∧ r.id ∉ im) → LR r n → readN σ0 r = some v → getRef e ctx tmp n = some v)
    (hrange : ∀ k s, slot k = some s → T ≤ s) (hinj : ∀ k k' s, slot k = some s → slot k' = some s → k = k')
    (h0t : ∀ i p, σ0 .tmp i p = none) (h0e : ∀ i p, i ∉ im → σ0 .exp i p = none)
    {code : List (Instr A)} {vcode : List (VInstr A)} (hren : List.Forall₂ (RenInstr im slot LR) code vcode)
    (hd : ∀ i ∈ code, (i.dest.ty = .tmp ∧ i.dest.prime = false ∧ i.dest.id < T) ∨ (i.dest.ty = .exp ∧ i.dest.id ∉ im))
    (hx : exec (fieldOps A) code σ0 = some σ) {init : List (Instr A)} {last : Instr A} (hl : code = init ++ [last])
    {id : Nat} {p : Bool} (l1 : last.dest.ty = .exp) (l2 : last.dest.id = id) (l3 : last.dest.prime = p) {v : A}
    (hv : σ .exp id p = some v) : executeCode e ctx vcode = some v := by
  have hS : Sim im slot T σ0 σ0 (fun _ => none) :=
    ⟨fun id p v h => by simp [h0t] at h, fun id p v hid h => by simp [h0e id p hid] at h, fun _ _ _ _ _ => rfl⟩
  obtain ⟨tmp, a, b⟩ := exec_sim hleaf hrange hinj hren hd hS hx
  subst hl
  obtain ⟨vi, vl, rfl, hj⟩ := forall₂_snoc hren
  unfold executeCode
  rw [List.getLast?_append, List.getLast?_singleton]
  simp only [Option.some_or, Option.bind_some]
  rw [a, Option.bind_some]
  have hn : last.dest.id ∉ im := by
    rcases hd last (by simp) with h | h
    · rw [l1] at h; simp at h
    · exact h.2
  have hdest := hj.dest
  unfold RenNode at hdest
  rw [if_neg (by rw [l1]; simp), if_pos ⟨l1, hn⟩] at hdest
  simp only [getRef, hdest.1]
  exact b.exps id p v (l2 ▸ hn) hv _ (by rw [← l2, ← l3]; exact hdest.2)

end

end Verif.Stark
