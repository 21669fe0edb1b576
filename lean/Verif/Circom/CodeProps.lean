import Verif.Circom.Code

/-!
# C106: the unrolled code computes what `execute_code` computes
-/
set_option linter.unusedSectionVars false

namespace Verif.Circom
open Stark Codegen

variable {G A : Type} [Field G] [Field A] [DecidableEq A] [DecidableEq G]
variable {e : Emb G A} {co : A → G × G × G} {lit : A → G} {nCm : Nat → Nat} {ctx : VCtx G A}

namespace ExtOk
variable (h : ExtOk e co)
include h

theorem emb_add (a b : G) : e.emb (a + b) = e.emb a + e.emb b := by
  rw [← h.base, ← h.base, ← h.base, ← h.add, add_zero]
theorem emb_mul (a b : G) : e.emb (a * b) = e.emb a * e.emb b := by
  rw [← h.base (a * b), ← h.base b, ← h.smul, mul_zero]
theorem emb_zero : e.emb 0 = 0 := by
  have := h.emb_add 0 0
  rw [add_zero] at this
  simpa using this
theorem dec_zero : e.dec 0 0 0 = 0 := by rw [h.base, h.emb_zero]
theorem emb_one : e.emb 1 = 1 := by
  have h1 := h.smul 1 (co 1).1 (co 1).2.1 (co 1).2.2
  rw [one_mul, one_mul, one_mul, h.dec_co, mul_one] at h1
  exact h1.symm
theorem dec_neg (a b c : G) : e.dec (-a) (-b) (-c) = -e.dec a b c := by
  have := h.add a b c (-a) (-b) (-c)
  rw [add_neg_cancel, add_neg_cancel, add_neg_cancel, h.dec_zero] at this
  exact (neg_eq_of_add_eq_zero_right this.symm).symm
theorem emb_neg (a : G) : e.emb (-a) = -e.emb a := by
  rw [← h.base, ← h.base, ← h.dec_neg, neg_zero]
theorem dec_sub (a b c a' b' c' : G) : e.dec (a - a') (b - b') (c - c') = e.dec a b c - e.dec a' b' c' := by
  rw [sub_eq_add_neg, sub_eq_add_neg, sub_eq_add_neg, sub_eq_add_neg, h.add, h.dec_neg]
theorem emb_sub (a b : G) : e.emb (a - b) = e.emb a - e.emb b := by
  rw [sub_eq_add_neg, sub_eq_add_neg, h.emb_add, h.emb_neg]
theorem add_base (s a b c : G) : e.dec (s + a) b c = e.emb s + e.dec a b c := by
  rw [← h.base, ← h.add, zero_add, zero_add]
theorem base_add (s a b c : G) : e.dec (a + s) b c = e.dec a b c + e.emb s := by
  rw [add_comm a s, h.add_base, add_comm]
theorem dec_inj {a b c a' b' c' : G} (hh : e.dec a b c = e.dec a' b' c') : a = a' ∧ b = b' ∧ c = c' := by
  have := congrArg co hh
  rw [h.co_dec, h.co_dec] at this
  simpa using this
theorem smul_right (s a b c : G) : e.dec (a * s) (b * s) (c * s) = e.dec a b c * e.emb s := by
  rw [mul_comm a, mul_comm b, mul_comm c, h.smul, mul_comm]
theorem emb_inj {a b : G} (hh : e.emb a = e.emb b) : a = b := by
  rw [← h.base, ← h.base] at hh
  exact (h.dec_inj hh).1
end ExtOk

/-- what the circuit and `execute_code` agree on before the program starts: every reference of the program that is not a
temporary prints as a signal of the right number of elements that has the value `get_ref` reads -/
def LeavesOk (e : Emb G A) (lit : A → G) (nCm : Nat → Nat) (ctx : VCtx G A) (env0 : Env G) (code : List (VInstr A)) : Prop :=
  ∀ i ∈ code, ∀ r ∈ i.src, r.ty ≠ .tmp → ∀ v, getRef e ctx (fun _ => none) r = some v →
    ∃ s w, ref lit nCm r = some s ∧ look env0 s = some w ∧ leafDim r = some w.size ∧ w.val e = v

/-- the temporaries of both sides -/
structure SimT (e : Emb G A) (env0 env : Env G) (td : Nat → Option Nat) (tmp : Nat → Option A) : Prop where
  some_ : ∀ i v, tmp i = some v → ∃ w, env (.tmp i) = some w ∧ td i = some w.size ∧ w.val e = v
  none_ : ∀ i, tmp i = none → env (.tmp i) = none
  leaf : ∀ s, (∀ i, s ≠ .tmp i) → env s = env0 s

/-- an operand as both sides see it -/
structure Opd (e : Emb G A) (lit : A → G) (nCm : Nat → Nat) (env : Env G) (td : Nat → Option Nat) (r : VNode A) (v : A)
    (s : Sig G) (w : Val G) : Prop where
  dim : getDim td r = some (w.size, { r with dim := w.size })
  ref_ : ref lit nCm r = some s
  look_ : look env s = some w
  val : w.val e = v

theorem ref_dim (r : VNode A) (d : Nat) : ref lit nCm { r with dim := d } = ref lit nCm r := rfl

theorem ref_not_tmp {r : VNode A} {s : Sig G} (h : ref lit nCm r = some s) (hr : r.ty ≠ .tmp) : ∀ i, s ≠ .tmp i := by
  intro i hs
  subst hs
  unfold ref at h
  split at h <;> first | (rename_i h1; exact hr h1) | (split_ifs at h <;> simp at h; done) | (simp at h; done)

theorem look_leaf {env0 env : Env G} {s : Sig G} (h : ∀ s, (∀ i, s ≠ .tmp i) → env s = env0 s) (hs : ∀ i, s ≠ .tmp i) :
    look env s = look env0 s := by
  cases s <;> first | rfl | exact h _ hs

theorem opd {env0 env : Env G} {td : Nat → Option Nat} {tmp : Nat → Option A} {r : VNode A} {v : A}
    (hs : SimT e env0 env td tmp) (hl : r.ty ≠ .tmp → ∀ v, getRef e ctx (fun _ => none) r = some v →
      ∃ s w, ref lit nCm r = some s ∧ look env0 s = some w ∧ leafDim r = some w.size ∧ w.val e = v)
    (h : getRef e ctx tmp r = some v) : ∃ s w, Opd e lit nCm env td r v s w := by
  by_cases hr : r.ty = .tmp
  · have ht : tmp r.id = some v := by rw [getRef, hr] at h; exact h
    obtain ⟨w, h1, h2, h3⟩ := hs.some_ _ _ ht
    refine ⟨.tmp r.id, w, ⟨by rw [getDim, if_pos hr, h2]; rfl, by rw [ref, hr], h1, h3⟩⟩
  · have h' : getRef e ctx (fun _ => none) r = some v := by
      unfold getRef at h ⊢
      split at h <;> first | (rename_i h1; exact absurd h1 hr) | skip
      all_goals (rename_i h1; simpa [h1] using h)
    obtain ⟨s, w, h1, h2, h3, h4⟩ := hl hr v h'
    refine ⟨s, w, ⟨by rw [getDim, if_neg hr, h3]; rfl, h1, ?_, h4⟩⟩
    rw [look_leaf hs.leaf (ref_not_tmp h1 hr), h2]

theorem simT_update {env0 env : Env G} {td : Nat → Option Nat} {tmp : Nat → Option A} (hs : SimT e env0 env td tmp) (d : Nat)
    (w : Val G) (v : A) (hw : w.val e = v) :
    SimT e env0 (Function.update env (.tmp d) (some w)) (Function.update td d (some w.size)) (Function.update tmp d (some v)) := by
  refine ⟨fun i x hi => ?_, fun i hi => ?_, fun s h => ?_⟩
  · by_cases hd : i = d
    · subst hd
      rw [Function.update_self] at hi
      exact ⟨w, by rw [Function.update_self], by rw [Function.update_self], by rw [hw]; exact Option.some.inj hi⟩
    · rw [Function.update_of_ne hd] at hi
      rw [Function.update_of_ne hd, Function.update_of_ne (by simpa using hd)]
      exact hs.some_ i x hi
  · by_cases hd : i = d
    · subst hd
      rw [Function.update_self] at hi
      cases hi
    · rw [Function.update_of_ne hd] at hi
      rw [Function.update_of_ne (by simpa using hd)]
      exact hs.none_ i hi
  · rw [Function.update_of_ne (h d)]
    exact hs.leaf s h

/-- what one instruction does on both sides -/
theorem step_core (hE : ExtOk e co) {env0 env : Env G} {td : Nat → Option Nat} {tmp : Nat → Option A} {i : VInstr A}
    (hs : SimT e env0 env td tmp) (hd : i.dest.ty = .tmp) {vals : List A} {v : A}
    (hsrc : List.Forall₂ (fun r v => ∃ s w, Opd e lit nCm env td r v s w) i.src vals) (hv : vApply i.op vals = some v) :
    ∃ w src' stmt, opDims td i.op i.src = some (Val.size w, src') ∧
      unrollOne lit nCm ⟨i.op, { i.dest with dim := w.size }, src'⟩ = some stmt ∧ stmt.dest = .tmp i.dest.id ∧
      evalRhs e co env stmt.rhs = some w ∧ w.isThree = stmt.three ∧ w.val e = v := by
  obtain ⟨op, dest, src⟩ := i
  have hd' : ∀ d, ref lit nCm { dest with dim := d } = some (.tmp dest.id) := fun d => by
    rw [ref_dim, ref]
    rw [show dest.ty = .tmp from hd]
  dsimp only at hsrc hv ⊢
  cases op with
  | add =>
    cases hsrc with
    | nil => simp [vApply] at hv
    | @cons a x _ _ ha hsrc =>
    cases hsrc with
    | nil => simp [vApply] at hv
    | @cons b y _ _ hb hsrc =>
    obtain ⟨sa, wa, ha⟩ := ha
    obtain ⟨sb, wb, hb⟩ := hb
    have hv : x + y = v := by simpa [vApply] using hv
    simp only [opDims, ha.dim, hb.dim, Option.bind_some, Option.map_some, unrollOne, hd']
    have ra : ∀ d, ref lit nCm { a with dim := d } = some sa := fun d => ha.ref_
    have rb : ∀ d, ref lit nCm { b with dim := d } = some sb := fun d => hb.ref_
    have la := ha.look_
    have lb := hb.look_
    subst hv
    rw [← ha.val, ← hb.val]
    rcases wa with a1 | ⟨a1, a2, a3⟩ <;> rcases wb with b1 | ⟨b1, b2, b3⟩
    · exact ⟨.one (a1 + b1), _, ⟨.tmp dest.id, false, .scalar (.add (.sig sa) (.sig sb))⟩, rfl, (by simp [ra, rb, Val.size]), rfl, by simp [evalRhs, evalS, la, lb], rfl, hE.emb_add _ _⟩
    · exact ⟨.three (a1 + b1) b2 b3, _, ⟨.tmp dest.id, true, .vec (.add (.sig sa) (.at sb 0)) (.at sb 1) (.at sb 2)⟩, rfl, (by simp [ra, rb, Val.size]), rfl, by simp [evalRhs, evalS, la, lb], rfl, hE.add_base _ _ _ _⟩
    · exact ⟨.three (a1 + b1) a2 a3, _, ⟨.tmp dest.id, true, .vec (.add (.at sa 0) (.sig sb)) (.at sa 1) (.at sa 2)⟩, rfl, (by simp [ra, rb, Val.size]), rfl, by simp [evalRhs, evalS, la, lb], rfl, hE.base_add _ _ _ _⟩
    · exact ⟨.three (a1 + b1) (a2 + b2) (a3 + b3), _, ⟨.tmp dest.id, true, .vec (.add (.at sa 0) (.at sb 0)) (.add (.at sa 1) (.at sb 1)) (.add (.at sa 2) (.at sb 2))⟩, rfl, (by simp [ra, rb, Val.size]), rfl, by simp [evalRhs, evalS, la, lb], rfl, hE.add _ _ _ _ _ _⟩
  | sub =>
    cases hsrc with
    | nil => simp [vApply] at hv
    | @cons a x _ _ ha hsrc =>
    cases hsrc with
    | nil => simp [vApply] at hv
    | @cons b y _ _ hb hsrc =>
    obtain ⟨sa, wa, ha⟩ := ha
    obtain ⟨sb, wb, hb⟩ := hb
    have hv : x - y = v := by simpa [vApply] using hv
    simp only [opDims, ha.dim, hb.dim, Option.bind_some, Option.map_some, unrollOne, hd']
    have ra : ∀ d, ref lit nCm { a with dim := d } = some sa := fun d => ha.ref_
    have rb : ∀ d, ref lit nCm { b with dim := d } = some sb := fun d => hb.ref_
    have la := ha.look_
    have lb := hb.look_
    subst hv
    rw [← ha.val, ← hb.val]
    rcases wa with a1 | ⟨a1, a2, a3⟩ <;> rcases wb with b1 | ⟨b1, b2, b3⟩
    · exact ⟨.one (a1 - b1), _, ⟨.tmp dest.id, false, .scalar (.sub (.sig sa) (.sig sb))⟩, rfl, (by simp [ra, rb, Val.size]), rfl, by simp [evalRhs, evalS, la, lb], rfl, hE.emb_sub _ _⟩
    · refine ⟨.three (a1 - b1) (-b2) (-b3), _, ⟨.tmp dest.id, true, .vec (.sub (.sig sa) (.at sb 0)) (.neg (.at sb 1)) (.neg (.at sb 2))⟩, rfl, (by simp [ra, rb, Val.size]), rfl, by simp [evalRhs, evalS, la, lb], rfl, ?_⟩
      show e.dec (a1 - b1) (-b2) (-b3) = e.emb a1 - e.dec b1 b2 b3
      rw [sub_eq_add_neg, hE.add_base, hE.dec_neg, sub_eq_add_neg]
    · refine ⟨.three (a1 - b1) a2 a3, _, ⟨.tmp dest.id, true, .vec (.sub (.at sa 0) (.sig sb)) (.at sa 1) (.at sa 2)⟩, rfl, (by simp [ra, rb, Val.size]), rfl, by simp [evalRhs, evalS, la, lb], rfl, ?_⟩
      show e.dec (a1 - b1) a2 a3 = e.dec a1 a2 a3 - e.emb b1
      rw [sub_eq_add_neg, hE.base_add, hE.emb_neg, sub_eq_add_neg]
    · exact ⟨.three (a1 - b1) (a2 - b2) (a3 - b3), _, ⟨.tmp dest.id, true, .vec (.sub (.at sa 0) (.at sb 0)) (.sub (.at sa 1) (.at sb 1)) (.sub (.at sa 2) (.at sb 2))⟩, rfl, (by simp [ra, rb, Val.size]), rfl, by simp [evalRhs, evalS, la, lb], rfl, hE.dec_sub _ _ _ _ _ _⟩
  | mul =>
    cases hsrc with
    | nil => simp [vApply] at hv
    | @cons a x _ _ ha hsrc =>
    cases hsrc with
    | nil => simp [vApply] at hv
    | @cons b y _ _ hb hsrc =>
    obtain ⟨sa, wa, ha⟩ := ha
    obtain ⟨sb, wb, hb⟩ := hb
    have hv : x * y = v := by simpa [vApply] using hv
    simp only [opDims, ha.dim, hb.dim, Option.bind_some, Option.map_some, unrollOne, hd']
    have ra : ∀ d, ref lit nCm { a with dim := d } = some sa := fun d => ha.ref_
    have rb : ∀ d, ref lit nCm { b with dim := d } = some sb := fun d => hb.ref_
    have la := ha.look_
    have lb := hb.look_
    subst hv
    rw [← ha.val, ← hb.val]
    rcases wa with a1 | ⟨a1, a2, a3⟩ <;> rcases wb with b1 | ⟨b1, b2, b3⟩
    · exact ⟨.one (a1 * b1), _, ⟨.tmp dest.id, false, .scalar (.mul (.sig sa) (.sig sb))⟩, rfl, (by simp [ra, rb, Val.size]), rfl, by simp [evalRhs, evalS, la, lb], rfl, hE.emb_mul _ _⟩
    · exact ⟨.three (a1 * b1) (a1 * b2) (a1 * b3), _, ⟨.tmp dest.id, true, .vec (.mul (.sig sa) (.at sb 0)) (.mul (.sig sa) (.at sb 1)) (.mul (.sig sa) (.at sb 2))⟩, rfl, (by simp [ra, rb, Val.size]), rfl, by simp [evalRhs, evalS, la, lb], rfl, hE.smul _ _ _ _⟩
    · exact ⟨.three (a1 * b1) (a2 * b1) (a3 * b1), _, ⟨.tmp dest.id, true, .vec (.mul (.at sa 0) (.sig sb)) (.mul (.at sa 1) (.sig sb)) (.mul (.at sa 2) (.sig sb))⟩, rfl, (by simp [ra, rb, Val.size]), rfl, by simp [evalRhs, evalS, la, lb], rfl, hE.smul_right _ _ _ _⟩
    · refine ⟨.three _ _ _, _, ⟨.tmp dest.id, true, .cmul (.whole sa) (.whole sb)⟩, rfl, (by simp [ra, rb, Val.size]), rfl, by simp only [evalRhs, evalArg, la, lb, Option.bind_some, Option.map_some]; rfl, rfl, ?_⟩
      exact hE.dec_co _
  | copy =>
    cases hsrc with
    | nil => simp [vApply] at hv
    | @cons a x _ _ ha hsrc =>
    obtain ⟨sa, wa, ha⟩ := ha
    have hv : x = v := by simpa [vApply] using hv
    simp only [opDims, ha.dim, Option.bind_some, Option.map_some, unrollOne, hd']
    have ra : ∀ d, ref lit nCm { a with dim := d } = some sa := fun d => ha.ref_
    have la := ha.look_
    subst hv
    rw [← ha.val]
    rcases wa with a1 | ⟨a1, a2, a3⟩
    · exact ⟨.one a1, _, ⟨.tmp dest.id, false, .scalar (.sig sa)⟩, rfl, (by simp [ra, Val.size]), rfl, by simp [evalRhs, evalS, la], rfl, rfl⟩
    · exact ⟨.three a1 a2 a3, _, ⟨.tmp dest.id, true, .whole sa⟩, rfl, (by simp [ra, Val.size]), rfl, by simp [evalRhs, la], rfl, rfl⟩
  | muladd =>
    cases hsrc with
    | nil => simp [vApply] at hv
    | @cons a x _ _ ha hsrc =>
    cases hsrc with
    | nil => simp [vApply] at hv
    | @cons b y _ _ hb hsrc =>
    cases hsrc with
    | nil => simp [vApply] at hv
    | @cons c z _ _ hc hsrc =>
    obtain ⟨sa, wa, ha⟩ := ha
    obtain ⟨sb, wb, hb⟩ := hb
    obtain ⟨sc, wc, hc⟩ := hc
    have hv : x * y + z = v := by simpa [vApply] using hv
    simp only [opDims, ha.dim, hb.dim, hc.dim, Option.bind_some, Option.map_some, unrollOne, hd']
    have ra : ∀ d, ref lit nCm { a with dim := d } = some sa := fun d => ha.ref_
    have rb : ∀ d, ref lit nCm { b with dim := d } = some sb := fun d => hb.ref_
    have rc : ∀ d, ref lit nCm { c with dim := d } = some sc := fun d => hc.ref_
    have la := ha.look_
    have lb := hb.look_
    have lc := hc.look_
    subst hv
    rw [← ha.val, ← hb.val, ← hc.val]
    rcases wa with a1 | ⟨a1, a2, a3⟩ <;> rcases wb with b1 | ⟨b1, b2, b3⟩ <;> rcases wc with c1 | ⟨c1, c2, c3⟩
    · refine ⟨.one (a1 * b1 + c1), _, ⟨.tmp dest.id, false, .scalar (.add (.mul (.sig sa) (.sig sb)) (.sig sc))⟩, rfl, (by simp [ra, rb, rc, Val.size]), rfl, by simp [evalRhs, evalS, la, lb, lc], rfl, ?_⟩
      show e.emb (a1 * b1 + c1) = e.emb a1 * e.emb b1 + e.emb c1
      rw [hE.emb_add, hE.emb_mul]
    · refine ⟨.three (a1 * b1 + c1) c2 c3, _, ⟨.tmp dest.id, true, .vec (.add (.mul (.sig sa) (.sig sb)) (.at sc 0)) (.at sc 1) (.at sc 2)⟩, rfl, (by simp [ra, rb, rc, Val.size]), rfl, by simp [evalRhs, evalS, la, lb, lc], rfl, ?_⟩
      show e.dec (a1 * b1 + c1) c2 c3 = e.emb a1 * e.emb b1 + e.dec c1 c2 c3
      rw [hE.add_base, hE.emb_mul]
    · refine ⟨.three (a1 * b1 + c1) (a1 * b2) (a1 * b3), _, ⟨.tmp dest.id, true, .vec (.add (.mul (.sig sa) (.at sb 0)) (.sig sc)) (.mul (.sig sa) (.at sb 1)) (.mul (.sig sa) (.at sb 2))⟩, rfl, (by simp [ra, rb, rc, Val.size]), rfl, by simp [evalRhs, evalS, la, lb, lc], rfl, ?_⟩
      show e.dec (a1 * b1 + c1) (a1 * b2) (a1 * b3) = e.emb a1 * e.dec b1 b2 b3 + e.emb c1
      rw [hE.base_add, hE.smul]
    · refine ⟨.three _ _ _, _, ⟨.tmp dest.id, true, .cmuladd (.pad sa) (.whole sb) (.whole sc)⟩, rfl, (by simp [ra, rb, rc, Val.size]), rfl, by
        simp only [evalRhs, evalArg, la, lb, lc, Option.bind_some, Option.map_some, Val.size]
        rfl, rfl, ?_⟩
      show e.dec _ _ _ = e.emb a1 * e.dec b1 b2 b3 + e.dec c1 c2 c3
      rw [hE.dec_co, hE.base]
    · refine ⟨.three (a1 * b1 + c1) (a2 * b1) (a3 * b1), _, ⟨.tmp dest.id, true, .vec (.add (.mul (.at sa 0) (.sig sb)) (.sig sc)) (.mul (.at sa 1) (.sig sb)) (.mul (.at sa 2) (.sig sb))⟩, rfl, (by simp [ra, rb, rc, Val.size]), rfl, by simp [evalRhs, evalS, la, lb, lc], rfl, ?_⟩
      show e.dec (a1 * b1 + c1) (a2 * b1) (a3 * b1) = e.dec a1 a2 a3 * e.emb b1 + e.emb c1
      rw [hE.base_add, hE.smul_right]
    · refine ⟨.three _ _ _, _, ⟨.tmp dest.id, true, .cmuladd (.whole sa) (.pad sb) (.whole sc)⟩, rfl, (by simp [ra, rb, rc, Val.size]), rfl, by
        simp only [evalRhs, evalArg, la, lb, lc, Option.bind_some, Option.map_some, Val.size]
        rfl, rfl, ?_⟩
      show e.dec _ _ _ = e.dec a1 a2 a3 * e.emb b1 + e.dec c1 c2 c3
      rw [hE.dec_co, hE.base]
    · refine ⟨.three _ _ _, _, ⟨.tmp dest.id, true, .cmuladd (.whole sa) (.whole sb) (.pad sc)⟩, rfl, (by simp [ra, rb, rc, Val.size]), rfl, by
        simp only [evalRhs, evalArg, la, lb, lc, Option.bind_some, Option.map_some, Val.size]
        rfl, rfl, ?_⟩
      show e.dec _ _ _ = e.dec a1 a2 a3 * e.dec b1 b2 b3 + e.emb c1
      rw [hE.dec_co, hE.base]
    · refine ⟨.three _ _ _, _, ⟨.tmp dest.id, true, .cmuladd (.whole sa) (.whole sb) (.whole sc)⟩, rfl, (by simp [ra, rb, rc, Val.size]), rfl, by
        simp only [evalRhs, evalArg, la, lb, lc, Option.bind_some, Option.map_some, Val.size]
        rfl, rfl, ?_⟩
      exact hE.dec_co _

theorem step_sim (hE : ExtOk e co) {env0 env : Env G} {td : Nat → Option Nat} {tmp tmp' : Nat → Option A} {i : VInstr A}
    (hs : SimT e env0 env td tmp)
    (hl : ∀ r ∈ i.src, r.ty ≠ .tmp → ∀ v, getRef e ctx (fun _ => none) r = some v →
      ∃ s w, ref lit nCm r = some s ∧ look env0 s = some w ∧ leafDim r = some w.size ∧ w.val e = v)
    (hf : tmp i.dest.id = none) (h : vStep e ctx tmp i = some tmp') :
    ∃ d src' stmt env', opDims td i.op i.src = some (d, src') ∧ i.dest.ty = .tmp ∧
      unrollOne lit nCm ⟨i.op, { i.dest with dim := d }, src'⟩ = some stmt ∧ runOne e co env stmt = some env' ∧
      SimT e env0 env' (Function.update td i.dest.id (some d)) tmp' := by
  obtain ⟨vals, h1, h⟩ := Option.bind_eq_some_iff.mp h
  obtain ⟨v, h2, h⟩ := Option.bind_eq_some_iff.mp h
  split_ifs at h with hd
  obtain rfl := Option.some.inj h
  have hsrc : List.Forall₂ (fun r v => ∃ s w, Opd e lit nCm env td r v s w) i.src vals := by
    have : ∀ (l : List (VNode A)) (vs : List A), l.mapM (getRef e ctx tmp) = some vs → (∀ r ∈ l, r ∈ i.src) →
        List.Forall₂ (fun r v => ∃ s w, Opd e lit nCm env td r v s w) l vs := by
      intro l
      induction l with
      | nil => intro vs hm _; simp at hm; subst hm; exact .nil
      | cons a l ih =>
        intro vs hm hm'
        rw [List.mapM_cons] at hm
        obtain ⟨x, hx, hm⟩ := Option.bind_eq_some_iff.mp hm
        obtain ⟨xs, hxs, hm⟩ := Option.bind_eq_some_iff.mp hm
        obtain rfl := Option.some.inj hm
        exact .cons (opd hs (hl a (hm' a (by simp))) hx) (ih xs hxs fun r hr => hm' r (by simp [hr]))
    exact this _ _ h1 fun _ h => h
  obtain ⟨w, src', stmt, h3, h4, h5, h6, h7, h8⟩ := step_core hE hs hd hsrc h2
  refine ⟨w.size, src', stmt, _, h3, hd, h4, ?_, simT_update hs i.dest.id w v h8⟩
  rw [runOne, if_neg (by rw [h5]; simpa using hs.none_ _ hf), h6, Option.bind_some, if_pos h7, h5]

theorem unroll_sim (hE : ExtOk e co) {env0 : Env G} : ∀ (code : List (VInstr A)) (env : Env G) (td : Nat → Option Nat)
    (tmp tmp' : Nat → Option A), SimT e env0 env td tmp → LeavesOk e lit nCm ctx env0 code →
    (∀ i ∈ code, tmp i.dest.id = none) → (code.map fun i => i.dest.id).Nodup → code.foldlM (vStep e ctx) tmp = some tmp' →
    ∃ code' stmts env' td', setDims td code = some code' ∧ code'.mapM (unrollOne lit nCm) = some stmts ∧
      runStmts e co env stmts = some env' ∧ SimT e env0 env' td' tmp' ∧ (∀ i ∈ code, i.dest.ty = .tmp) ∧
      code'.map (fun i => (i.dest.ty, i.dest.id)) = code.map (fun i => (i.dest.ty, i.dest.id)) ∧
      (∀ i ∈ code', td' i.dest.id = some i.dest.dim) ∧ (∀ k, (∀ i ∈ code, i.dest.id ≠ k) → td' k = td k)
  | [], env, td, tmp, tmp', hs, _, _, _, h => by
    obtain rfl := Option.some.inj h
    exact ⟨[], [], env, td, rfl, rfl, rfl, hs, by simp, rfl, by simp, fun _ _ => rfl⟩
  | i :: is, env, td, tmp, tmp', hs, hl, hf, hn, h => by
    rw [List.foldlM_cons] at h
    obtain ⟨tmp1, h1, h⟩ := Option.bind_eq_some_iff.mp h
    obtain ⟨d, src', stmt, env1, a1, a2, a3, a4, a5⟩ := step_sim hE hs (hl i (by simp)) (hf i (by simp)) h1
    rw [List.map_cons, List.nodup_cons] at hn
    have hf1 : ∀ j ∈ is, tmp1 j.dest.id = none := by
      intro j hj
      obtain ⟨vals, b1, b2⟩ := Option.bind_eq_some_iff.mp h1
      obtain ⟨v, b3, b4⟩ := Option.bind_eq_some_iff.mp b2
      rw [if_pos a2] at b4
      obtain rfl := Option.some.inj b4
      rw [Function.update_of_ne]
      · exact hf j (by simp [hj])
      · intro hc
        exact hn.1 (by rw [← hc]; exact List.mem_map_of_mem hj)
    obtain ⟨code', stmts, env', td', c1, c2, c3, c4, c5, c6, c7, c8⟩ := unroll_sim hE is env1 _ tmp1 tmp' a5
      (fun j hj => hl j (by simp [hj])) hf1 hn.2 h
    refine ⟨⟨i.op, { i.dest with dim := d }, src'⟩ :: code', stmt :: stmts, env', td', ?_, ?_, ?_, c4, ?_, ?_, ?_, ?_⟩
    · rw [setDims, a1, Option.bind_some, if_pos a2, c1]; rfl
    · rw [List.mapM_cons, a3]
      show (Option.bind (some stmt) fun _ => _) = _
      rw [Option.bind_some, c2]; rfl
    · rw [runStmts, List.foldlM_cons, a4]; exact c3
    · intro j hj
      rcases List.mem_cons.mp hj with rfl | hj
      · exact a2
      · exact c5 j hj
    · rw [List.map_cons, List.map_cons, c6]
    · intro j hj
      rcases List.mem_cons.mp hj with rfl | hj
      · show td' i.dest.id = some d
        rw [c8 i.dest.id, Function.update_self]
        intro k hk hc
        exact hn.1 (by rw [← hc]; exact List.mem_map_of_mem hk)
      · exact c7 j hj
    · intro k hk
      rw [c8 k fun j hj => hk j (by simp [hj]), Function.update_of_ne]
      exact fun hc => hk i (by simp) hc.symm

/-- **C106**: for every program of the verifier that `execute_code` runs to a value `v`, whose temporaries are assigned once each
and whose references print as signals with the values `get_ref` reads: the dimensions can be computed, `unrollCode` prints the
program, the printed statements compile and determine their signals, and the signal named as the result stands for `v`; it has
as many elements as the dimension of the last instruction says. -/
theorem unrollCode_spec (hE : ExtOk e co) {code : List (VInstr A)} {env0 : Env G} {v : A}
    (hl : LeavesOk e lit nCm ctx env0 code) (hn : (code.map fun i => i.dest.id).Nodup) (h0 : ∀ i, env0 (.tmp i) = none)
    (h : executeCode e ctx code = some v) :
    ∃ code' stmts out env w, setDims (fun _ => none) code = some code' ∧ unrollCode lit nCm code' = some (stmts, out) ∧
      runStmts e co env0 stmts = some env ∧ env out = some w ∧ w.val e = v ∧
      (∀ last ∈ code'.getLast?, w.size = last.dest.dim) ∧ ∀ s, (∀ i, s ≠ .tmp i) → env s = env0 s := by
  unfold executeCode at h
  obtain ⟨last, h1, h⟩ := Option.bind_eq_some_iff.mp h
  obtain ⟨tmp, h2, h⟩ := Option.bind_eq_some_iff.mp h
  obtain ⟨code', stmts, env', td', c1, c2, c3, c4, c5, c6, c7, -⟩ := unroll_sim hE code env0 (fun _ => none) (fun _ => none) tmp
    ⟨by simp, fun i _ => h0 i, fun _ _ => rfl⟩ hl (by simp) hn h2
  have hm : last ∈ code := List.mem_of_getLast? h1
  have ht := c5 last hm
  have hv : tmp last.dest.id = some v := by rw [getRef, ht] at h; exact h
  obtain ⟨w, d1, d2, d3⟩ := c4.some_ _ _ hv
  have hlast : ∃ last', code'.getLast? = some last' ∧ last'.dest.ty = .tmp ∧ last'.dest.id = last.dest.id := by
    have := congrArg List.getLast? c6
    rw [List.getLast?_map, List.getLast?_map, h1] at this
    obtain ⟨last', e1, e2⟩ := Option.map_eq_some_iff.mp this
    exact ⟨last', e1, by rw [← ht]; exact congrArg Prod.fst e2, congrArg Prod.snd e2⟩
  obtain ⟨last', e1, e2, e3⟩ := hlast
  refine ⟨code', stmts, .tmp last.dest.id, env', w, c1, ?_, c3, d1, d3, ?_, c4.leaf⟩
  · rw [unrollCode, c2, Option.bind_some, e1, Option.bind_some, ref, e2, Option.map_some, e3]
  · intro l hl
    rw [e1] at hl
    obtain rfl := Option.some.inj hl
    have := c7 _ (List.mem_of_getLast? e1)
    rw [e3, d2] at this
    exact Option.some.inj this

end Verif.Circom
