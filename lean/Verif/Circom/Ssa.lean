import Verif.Circom.CodeProps
import Verif.Stark.VerCodeProps

/-!
# C106: every temporary of the verifier's programs is assigned once

The circuit declares a signal where it is assigned, so a second assignment of the same temporary would not compile (and
`execute_code` would overwrite it).
-/
set_option linter.unusedSectionVars false

namespace Verif.Circom
open Stark Codegen

variable {E : Type}

/-- the register an instruction writes -/
def destKey (i : Instr E) : NTy × Nat × Bool := (i.dest.ty, i.dest.id, i.dest.prime)

/-- the code of one expression while it is generated: fresh temporaries, numbered consecutively from `t` -/
def Fresh (t : Nat) (c : CodeCtx E) : Prop :=
  c.tmpUsed = t + c.code.length ∧ c.code.map destKey = (List.range c.code.length).map fun j => (.tmp, t + j, false)

theorem evalSingleOp_fresh {t : Nat} {zero : E} {p : Bool} {e : Expr E} {vals : List (Node E)} {c c' : CodeCtx E} {r : Node E}
    (h : evalSingleOp zero p e vals c = some (r, c')) (hc : Fresh t c) : Fresh t c' := by
  have hem : ∀ (op : IOp) (src : List (Node E)), emit op src c = some (r, c') → Fresh t c' := by
    intro op src h
    unfold emit at h
    simp only [Option.some.injEq, Prod.mk.injEq] at h
    obtain ⟨-, rfl⟩ := h
    refine ⟨by simp only [List.length_append, List.length_singleton]; rw [hc.1]; omega, ?_⟩
    simp only [List.map_append, List.length_append, List.length_singleton, List.range_succ, hc.2, List.map_cons, List.map_nil,
      destKey, hc.1]
  have hsame : c = c' → Fresh t c' := by rintro rfl; exact hc
  have href : ∀ ty l pr, refNode ty l pr c = some (r, c') → c = c' := by
    intro ty l pr h
    unfold refNode at h
    split at h
    · cases h
    · obtain ⟨i, -, h⟩ := Option.map_eq_some_iff.mp h
      exact (Prod.mk.inj h).2
  have hid : ∀ ty l, idNode ty l c = some (r, c') → c = c' := by
    intro ty l h
    unfold idNode at h
    obtain ⟨i, -, h⟩ := Option.map_eq_some_iff.mp h
    exact (Prod.mk.inj h).2
  unfold evalSingleOp at h
  cases ho : e.label.op <;> simp only [ho] at h
  case add | sub | mul | muladd => exact hem _ _ h
  case addc | mulc =>
    obtain ⟨a, -, h⟩ := Option.bind_eq_some_iff.mp h
    obtain ⟨k, -, h⟩ := Option.bind_eq_some_iff.mp h
    exact hem _ _ h
  case neg =>
    obtain ⟨a, -, h⟩ := Option.bind_eq_some_iff.mp h
    exact hem _ _ h
  case cm | const_ | exp | q => exact hsame (href _ _ _ h)
  case number =>
    obtain ⟨v, -, h⟩ := Option.map_eq_some_iff.mp h
    exact hsame (Prod.mk.inj h).2
  case public_ | challenge | eval => exact hsame (hid _ _ h)
  case xDivXSubXi | xDivXSubWXi | x => exact hsame (Prod.mk.inj (Option.some.inj h)).2
  case other => cases h

/-- the temporaries a program writes, in order -/
def tmpIds (code : List (Instr E)) : List Nat := code.filterMap fun i => if i.dest.ty = .tmp then some i.dest.id else none
/-- the expressions (and rows) whose registers a program writes, in order -/
def expKeys (code : List (Instr E)) : List (Bool × Nat) :=
  code.filterMap fun i => if i.dest.ty = .exp then some (i.dest.prime, i.dest.id) else none

/-- the registers written by the code generated so far: every temporary once and below `tmpUsed`, one register for each piece
of code -/
structure Once (ctx : Ctx E) : Prop where
  tmps : (tmpIds (linearCode ctx)).Nodup
  below : ∀ i ∈ linearCode ctx, i.dest.ty = .tmp → i.dest.id < ctx.tmpUsed
  exps : expKeys (linearCode ctx) = ctx.code.map fun c => (c.prime, c.expId)
  ty : ∀ i ∈ linearCode ctx, i.dest.ty = .tmp ∨ i.dest.ty = .exp

theorem genOne_once {zero : E} {exps : List (Expr E)} {ctx ctx' : Ctx E} {id : Nat} {p muladd : Bool}
    (h : genOne zero exps ctx id p none muladd = some ctx') (hO : Once ctx) : Once ctx' := by
  unfold genOne at h
  obtain ⟨e, -, h⟩ := Option.bind_eq_some_iff.mp h
  obtain ⟨e', -, h⟩ := Option.bind_eq_some_iff.mp h
  obtain ⟨⟨r, c⟩, h1, h⟩ := Option.bind_eq_some_iff.mp h
  obtain ⟨c1, h2, h⟩ := Option.bind_eq_some_iff.mp h
  obtain ⟨c2, h3, h⟩ := Option.map_eq_some_iff.mp h
  unfold addResult at h3
  cases h3
  subst h
  rw [evalExp, traverse_eq_postorder] at h1
  have hf : Fresh ctx.tmpUsed c :=
    (postorder_inv (I := fun c => Fresh ctx.tmpUsed c) (fun t rs s r s' hf hI => evalSingleOp_fresh hf hI) _).1 e'
      (Nat.le_refl _) _ _ _ h1 ⟨by simp, by simp⟩
  have hl : ∀ code, linearCode (⟨max ctx.tmpUsed c1.tmpUsed, ctx.code ++ [⟨id, p, code⟩], (p, id) :: ctx.calculated⟩ : Ctx E) =
      linearCode ctx ++ code := by
    intro code
    simp [linearCode]
  -- the code of the expression: fresh temporaries and then the register of the expression
  have hcode : ∃ init last, c1.code = init ++ [last] ∧ destKey last = (.exp, id, p) ∧
      init.map destKey = (List.range init.length).map (fun j => (.tmp, ctx.tmpUsed + j, false)) ∧
      ctx.tmpUsed + init.length ≤ c1.tmpUsed := by
    unfold finish at h2
    dsimp only at h2
    split at h2
    · obtain ⟨last, h4, rfl⟩ := Option.map_eq_some_iff.mp h2
      have hne : c.code ≠ [] := by rintro hc; simp [hc] at h4
      have hlen : 0 < c.code.length := List.length_pos_of_ne_nil hne
      refine ⟨c.code.dropLast, _, rfl, rfl, ?_, ?_⟩
      · rw [List.map_dropLast, hf.2, ← List.map_dropLast, List.length_dropLast]
        congr 1
        conv_lhs => rw [show c.code.length = c.code.length - 1 + 1 by omega, List.range_succ]
        simp
      · rw [List.length_dropLast]
        dsimp only
        rw [hf.1]
        omega
    · cases h2
      exact ⟨c.code, _, rfl, rfl, hf.2, by dsimp only; rw [hf.1]⟩
  obtain ⟨init, last, e1, e2, e3, e4⟩ := hcode
  have hinit : ∀ i ∈ init, i.dest.ty = .tmp ∧ ctx.tmpUsed ≤ i.dest.id ∧ i.dest.id < ctx.tmpUsed + init.length := by
    intro i hi
    have hm : destKey i ∈ init.map destKey := List.mem_map_of_mem hi
    rw [e3] at hm
    obtain ⟨j, hj, hk⟩ := List.mem_map.mp hm
    rw [List.mem_range] at hj
    unfold destKey at hk
    obtain ⟨k1, k2⟩ := Prod.mk.inj hk
    have k3 := (Prod.mk.inj k2).1
    exact ⟨k1.symm, by omega, by omega⟩
  have hle : ctx.tmpUsed + init.length ≤ max ctx.tmpUsed c1.tmpUsed := le_trans e4 (le_max_right _ _)
  have hty : last.dest.ty = .exp := (Prod.mk.inj e2).1
  have hid : last.dest.id = id := (Prod.mk.inj (Prod.mk.inj e2).2).1
  have hpr : last.dest.prime = p := (Prod.mk.inj (Prod.mk.inj e2).2).2
  have htmp : tmpIds init = (List.range init.length).map fun j => ctx.tmpUsed + j := by
    have h1 : tmpIds init = init.map fun i => i.dest.id := by
      rw [tmpIds, ← List.filterMap_eq_map]
      refine List.filterMap_congr fun i hi => ?_
      rw [if_pos (hinit i hi).1]
      rfl
    have h2 := congrArg (List.map fun k : NTy × Nat × Bool => k.2.1) e3
    rw [List.map_map, List.map_map] at h2
    rw [h1]
    exact h2
  have hexp : expKeys init = [] := by
    rw [expKeys, List.filterMap_eq_nil_iff]
    intro i hi
    rw [if_neg (by rw [(hinit i hi).1]; decide)]
  constructor
  · rw [hl, e1, tmpIds, List.filterMap_append, List.filterMap_append]
    show (tmpIds (linearCode ctx) ++ (tmpIds init ++ tmpIds [last])).Nodup
    rw [show tmpIds [last] = [] by simp [tmpIds, hty], List.append_nil, List.nodup_append, htmp]
    refine ⟨hO.tmps, List.Nodup.map (fun a b hab => by simpa using hab) List.nodup_range, ?_⟩
    intro a ha b hb hab
    subst hab
    obtain ⟨j, -, rfl⟩ := List.mem_map.mp hb
    obtain ⟨i, hi, h⟩ := List.mem_filterMap.mp ha
    split at h
    · rename_i ht
      have := hO.below i hi ht
      have h := Option.some.inj h
      omega
    · cases h
  · intro i hi ht
    rw [hl, e1] at hi
    rcases List.mem_append.mp hi with hi | hi
    · exact lt_of_lt_of_le (hO.below i hi ht) (le_max_left _ _)
    · rcases List.mem_append.mp hi with hi | hi
      · exact lt_of_lt_of_le (hinit i hi).2.2 hle
      · rw [List.mem_singleton] at hi
        subst hi
        rw [hty] at ht
        cases ht
  · rw [hl, e1, expKeys, List.filterMap_append, List.filterMap_append]
    show expKeys (linearCode ctx) ++ (expKeys init ++ expKeys [last]) = _
    rw [hexp, List.nil_append, show expKeys [last] = [(p, id)] by simp [expKeys, hty, hid, hpr], hO.exps, List.map_append]
    rfl
  · intro i hi
    rw [hl, e1] at hi
    rcases List.mem_append.mp hi with hi | hi
    · exact hO.ty i hi
    · rcases List.mem_append.mp hi with hi | hi
      · exact .inl (hinit i hi).1
      · rw [List.mem_singleton] at hi
        subst hi
        exact .inr hty

theorem pilCodeGen_once {zero : E} {exps : List (Expr E)} : ∀ (fuel : Nat) {ctx ctx' : Ctx E} {id : Nat} {p muladd : Bool},
    pilCodeGen zero exps fuel ctx id p none muladd = some ctx' → Once ctx → Once ctx'
  | 0, _, _, _, _, _, h, _ => by simp [pilCodeGen] at h
  | fuel + 1, ctx, ctx', id, p, muladd, h, hO => by
    rw [pilCodeGen] at h
    split at h
    · cases h; exact hO
    · obtain ⟨e, -, h⟩ := Option.bind_eq_some_iff.mp h
      obtain ⟨c1, h1, h⟩ := Option.bind_eq_some_iff.mp h
      exact genOne_once h ((calcDeps_pres (I := fun c => Once c) (fun c i q c' hg hI => pilCodeGen_once fuel hg hI) p _).1 e
        (Nat.le_refl _) _ _ h1 hO)

/-- renaming keeps registers apart -/
theorem ren_nodup {im : List Nat} {slot : Bool × Nat → Option Nat} {LR : Node E → VNode E → Prop} {T : Nat}
    (hrange : ∀ k s, slot k = some s → T ≤ s) (hinj : ∀ k k' s, slot k = some s → slot k' = some s → k = k') :
    ∀ {code : List (Instr E)} {vcode : List (VInstr E)}, List.Forall₂ (RenInstr im slot LR) code vcode →
    (∀ i ∈ code, i.dest.ty = .tmp ∧ i.dest.id < T ∨ i.dest.ty = .exp ∧ i.dest.id ∉ im) →
    (tmpIds code).Nodup → (expKeys code).Nodup →
    (∀ j ∈ vcode, j.dest.ty = .tmp) ∧ (vcode.map fun j => j.dest.id).Nodup ∧
      ∀ j ∈ vcode, (∃ t ∈ tmpIds code, j.dest.id = t ∧ t < T) ∨ ∃ k ∈ expKeys code, slot k = some j.dest.id
  | [], _, h, _, _, _ => by cases h; simp
  | i :: is, _, .cons (b := j) (l₂ := js) hi hr, hd, ht, he => by
    have ht' : (tmpIds is).Nodup := by
      unfold tmpIds at ht ⊢
      rw [List.filterMap_cons] at ht
      split at ht
      · exact ht
      · exact (List.nodup_cons.mp ht).2
    have he' : (expKeys is).Nodup := by
      unfold expKeys at he ⊢
      rw [List.filterMap_cons] at he
      split at he
      · exact he
      · exact (List.nodup_cons.mp he).2
    obtain ⟨r1, r2, r3⟩ := ren_nodup hrange hinj hr (fun i h => hd i (by simp [h])) ht' he'
    have hdest := hi.dest
    rcases hd i (by simp) with ⟨h1, h2⟩ | ⟨h1, h2⟩
    · have ek : expKeys (i :: is) = expKeys is := by simp [expKeys, h1]
      have tk : tmpIds (i :: is) = i.dest.id :: tmpIds is := by simp [tmpIds, h1]
      rw [RenNode, if_pos h1] at hdest
      rw [tk] at ht ⊢
      rw [ek]
      refine ⟨?_, ?_, ?_⟩
      · intro j' hj
        rcases List.mem_cons.mp hj with rfl | hj
        · exact hdest.1
        · exact r1 _ hj
      · rw [List.map_cons, List.nodup_cons]
        refine ⟨fun hm => ?_, r2⟩
        obtain ⟨j', hj', hid⟩ := List.mem_map.mp hm
        rcases r3 j' hj' with ⟨t, t1, t2, -⟩ | ⟨k, -, k2⟩
        · refine (List.nodup_cons.mp ht).1 ?_
          rw [← hdest.2, ← hid, t2]
          exact t1
        · have := hrange _ _ k2
          have h3 := hdest.2
          omega
      · intro j' hj
        rcases List.mem_cons.mp hj with rfl | hj
        · exact .inl ⟨_, List.mem_cons_self, hdest.2, h2⟩
        · rcases r3 j' hj with ⟨t, t1, t2⟩ | hk
          · exact .inl ⟨t, List.mem_cons_of_mem _ t1, t2⟩
          · exact .inr hk
    · have ek : expKeys (i :: is) = (i.dest.prime, i.dest.id) :: expKeys is := by simp [expKeys, h1]
      have tk : tmpIds (i :: is) = tmpIds is := by simp [tmpIds, h1]
      rw [RenNode, if_neg (by rw [h1]; decide), if_pos ⟨h1, h2⟩] at hdest
      rw [ek] at he ⊢
      rw [tk]
      refine ⟨?_, ?_, ?_⟩
      · intro j' hj
        rcases List.mem_cons.mp hj with rfl | hj
        · exact hdest.1
        · exact r1 _ hj
      · rw [List.map_cons, List.nodup_cons]
        refine ⟨fun hm => ?_, r2⟩
        obtain ⟨j', hj', hid⟩ := List.mem_map.mp hm
        rcases r3 j' hj' with ⟨t, -, t2, t3⟩ | ⟨k, k1, k2⟩
        · have := hrange _ _ hdest.2
          omega
        · refine (List.nodup_cons.mp he).1 ?_
          rw [hid] at k2
          rw [hinj _ _ _ hdest.2 k2]
          exact k1
      · intro j' hj
        rcases List.mem_cons.mp hj with rfl | hj
        · exact .inr ⟨_, List.mem_cons_self, hdest.2⟩
        · rcases r3 j' hj with hk | ⟨k, k1, k2⟩
          · exact .inl hk
          · exact .inr ⟨k, List.mem_cons_of_mem _ k1, k2⟩

variable {A : Type} [Field A] [DecidableEq A]

/-- the code of an expression that has a value writes every register once (C44) -/
theorem gen_nodup {exps : List (Expr A)} {fuel : Nat} {imS : List Nat}
    {im2cm : Nat → Option Nat} (him : ∀ k ∈ imS, k < exps.length ∧ ∃ c, im2cm k = some c) {pre : List (Bool × Nat)}
    (hpre : ∀ p k, (p, k) ∈ pre ↔ k ∈ imS) {id : Nat} (hid' : id ∉ imS)
    {σ : Codegen.Spec.Store A} (hσc : ∀ k ∈ imS, ∀ c, im2cm k = some c → ∀ p, σ .cm c p ≠ none)
    {d : Nat} {e : Expr A} {v : A} (hd : d < fuel) (he : exps[id]? = some e)
    (hv : Codegen.Spec.Val (fieldOps A) (substIm imS im2cm exps) σ d false e v) {ctx : Ctx A}
    (hg : pilCodeGen (0 : A) exps fuel ⟨0, [], pre⟩ id false none true = some ctx) :
    (ctx.code.map fun c => (c.prime, c.expId)).Nodup := by
  have hag : ∀ i, ¬(i ∈ imS) → exps[i]? = (substIm imS im2cm exps)[i]? := by
    intro i hi
    rw [substIm, List.getElem?_mapIdx]
    cases exps[i]? with
    | none => rfl
    | some e => simp [hi]
  have hcg := pilCodeGen_congr (zero := (0 : A)) hag fuel (ctx := ⟨0, [], pre⟩) (id := id) (p := false) (muladd := true) (res := none)
    (fun i hi q => (hpre q i).mpr hi)
  have hsame : ∀ t i p, t ≠ .exp → t ≠ .tmp → σ t i p = withIm σ imS im2cm t i p := by
    intro t i p h1 _
    rw [withIm, if_neg (fun h => h1 h.1)]
  have hv' := val_congr hsame hv
  refine codegen_once (K := fieldOps A) (exps := substIm imS im2cm exps)
    (σ0 := withIm σ imS im2cm) fuel 0 pre [{ id := id, muladd := true }]
    (by
      intro p k hk
      have hkim := (hpre p k).mp hk
      obtain ⟨hlt, c, hc⟩ := him k hkim
      obtain ⟨w, hw⟩ := Option.ne_none_iff_exists'.mp (hσc k hkim c hc p)
      have hx : withIm σ imS im2cm .exp k p = some w := by
        rw [withIm, if_pos ⟨rfl, hkim⟩, hc, Option.bind_some, hw]
      refine ⟨w, ⟨0, .node { op := .cm, id := im2cm k } [], ?_, ?_⟩, hx⟩
      · rw [substIm, List.getElem?_mapIdx, List.getElem?_eq_getElem hlt]
        simp [hkim]
      · refine .col (t := .cm) (i := c) rfl hc (by simp) ?_
        rw [← hsame _ _ _ (by simp) (by simp)]
        simpa using hw)
    (fun _ _ _ a b => by simp [fieldOps, add_comm])
    (by
      intro r hr
      rw [List.mem_singleton] at hr
      subst hr
      exact ⟨d, e, v, hd, by rw [← hag id hid']; exact he, hv'⟩)
    (by simp) (by simp) ctx ?_
  have : genAll (fieldOps A).zero (substIm imS im2cm exps) fuel [{ id := id, muladd := true }] ⟨0, [], pre⟩
      = pilCodeGen (0 : A) (substIm imS im2cm exps) fuel ⟨0, [], pre⟩ id false none true := by
    simp only [genAll, List.foldlM_cons, List.foldlM_nil]
    simp only [bind, pure]
    change Option.bind (pilCodeGen (0 : A) _ fuel _ id false none true) _ = _
    cases pilCodeGen (0 : A) (substIm imS im2cm exps) fuel ⟨0, [], pre⟩ id false none true <;> rfl
  rw [this, ← hcg]
  exact hg

/-- **C106**: the constraint check of the verifier (`genVerifier`) writes every temporary once -/
theorem verifier_ssa {exps : List (Expr A)} {fuel : Nat} {im : List Nat} {im2cm : Nat → Option Nat}
    (him : ∀ k ∈ im, k < exps.length ∧ ∃ c, im2cm k = some c) {cExp : Nat} (hid : cExp ∉ im) {qs : List Nat}
    {rest : List (Code A) → List (Instr A)} {op : EvKey → A} {publics chal : List A}
    {d : Nat} {e : Expr A} {v : A} (hd : d < fuel) (he : exps[cExp]? = some e)
    (hv : Codegen.Spec.Val (fieldOps A) (substIm im im2cm exps) (openEnv op publics chal) d false e v) {out : VerOut A}
    (h : genVerifier (0 : A) exps fuel im im2cm cExp qs rest = some out) :
    (∀ i ∈ out.code, i.dest.ty = .tmp) ∧ (out.code.map fun i => i.dest.id).Nodup := by
  have hpre : ∀ (p : Bool) (k : Nat), (p, k) ∈ (im.flatMap fun k => [(false, k), (true, k)]) ↔ k ∈ im := by
    intro p k
    cases p <;> simp
  unfold genVerifier at h
  obtain ⟨ctx, h1, h⟩ := Option.bind_eq_some_iff.mp h
  obtain ⟨x, h2, h⟩ := Option.bind_eq_some_iff.mp h
  obtain ⟨y, h3, rfl⟩ := Option.map_eq_some_iff.mp h
  have hO := pilCodeGen_once fuel h1 ⟨by simp [linearCode, tmpIds], by simp [linearCode], by simp [linearCode, expKeys], by simp [linearCode]⟩
  have hn := gen_nodup him hpre hid (fun _ _ _ _ _ => by simp [openEnv]) hd he hv h1
  obtain ⟨a1, a2, a3, a4, a5⟩ := fixCode_ren (leafConstraint_pass im2cm) (st' := x.2) (js := x.1) h2 (t0 := ctx.tmpUsed)
    ⟨by simp, by simp⟩ (by intro k i h; simp at h) (Nat.le_refl _)
  obtain ⟨r1, r2, -⟩ := ren_nodup (T := ctx.tmpUsed) (fun k s hs => (a1.range k s hs).1) a1.inj a5 (fun i hi => by
      rcases hO.ty i hi with ht | ht
      · exact .inl ⟨ht, hO.below i hi ht⟩
      · refine .inr ⟨ht, fun hc => ?_⟩
        rcases pilCodeGen_dest fuel h1 (fun _ h => h) (by simp [linearCode]) i hi with h | h
        · rw [ht] at h; simp at h
        · exact h.2 ((hpre _ _).mpr hc)) hO.tmps (by rw [hO.exps]; exact hn)
  exact ⟨r1, r2⟩

/-- **C106**: the query check of the verifier (`genQuery`) writes every temporary once -/
theorem query_ssa {exps : List (Expr A)} {fuel : Nat} {im : List Nat} {im2cm : Nat → Option Nat} {pos : Nat → Option ColPos}
    {friExp : Nat} (hid : friExp ∉ im) {rest : List (Code A) → List (Instr A)}
    {cm const : Nat → Option A} {evals publics chal : List A} {xd xdw : Option A}
    {d : Nat} {e : Expr A} {v : A} (hd : d < fuel) (he : exps[friExp]? = some e) (href : refs e = [])
    (hv : Codegen.Spec.Val (fieldOps A) exps (rowEnv cm const evals publics chal xd xdw) d false e v) {code : List (VInstr A)}
    (h : genQuery (0 : A) exps fuel im im2cm pos friExp rest = some code) :
    (∀ i ∈ code, i.dest.ty = .tmp) ∧ (code.map fun i => i.dest.id).Nodup := by
  have hsubst : substIm [] im2cm exps = exps := by
    apply List.ext_getElem?
    intro i
    rw [substIm, List.getElem?_mapIdx]
    cases exps[i]? <;> simp
  have hpre : ∀ (p : Bool) (k : Nat), (p, k) ∈ ([] : List (Bool × Nat)) ↔ k ∈ ([] : List Nat) := by simp
  unfold genQuery at h
  obtain ⟨ctx, h1, h⟩ := Option.bind_eq_some_iff.mp h
  obtain ⟨x, h2, h⟩ := Option.bind_eq_some_iff.mp h
  obtain ⟨y, h3, rfl⟩ := Option.map_eq_some_iff.mp h
  have hO := pilCodeGen_once fuel h1 ⟨by simp [linearCode, tmpIds], by simp [linearCode], by simp [linearCode, expKeys], by simp [linearCode]⟩
  have hn := gen_nodup (imS := []) (im2cm := im2cm) (by simp) hpre (by simp) (by simp) hd he (by rw [hsubst]; exact hv) h1
  obtain ⟨a1, a2, a3, a4, a5⟩ := fixCode_ren (leafQuery_pass im2cm pos) (st' := x.2) (js := x.1) h2 (t0 := ctx.tmpUsed)
    ⟨by simp, by simp⟩ trivial (Nat.le_refl _)
  obtain ⟨r1, r2, -⟩ := ren_nodup (T := ctx.tmpUsed) (fun k s hs => (a1.range k s hs).1) a1.inj a5 (fun i hi => by
      rcases hO.ty i hi with ht | ht
      · exact .inl ⟨ht, hO.below i hi ht⟩
      · refine .inr ⟨ht, fun hc => ?_⟩
        obtain ⟨ctx', k1, k2, k3⟩ := pilCodeGen_noRefs (c1 := []) (c2 := im.map fun k => (i.dest.prime, k)) he href (by simp)
          (by simp only [List.mem_map, Prod.mk.injEq, not_exists, not_and]
              intro k hk _ h2; exact hid (h2 ▸ hk)) h1
        have hi' : i ∈ linearCode ctx' := by rw [linearCode, k2]; exact hi
        rcases pilCodeGen_dest (S := im.map fun k => (i.dest.prime, k)) fuel k1 (fun _ h => h) (by simp [linearCode]) i hi' with h | h
        · rw [ht] at h; simp at h
        · exact h.2 (List.mem_map.mpr ⟨_, hc, rfl⟩)) hO.tmps (by rw [hO.exps]; exact hn)
  exact ⟨r1, r2⟩

end Verif.Circom
