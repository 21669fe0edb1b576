import Verif.Codegen.Props

/-!
# Syntactic facts about generated code

Which registers the generated instructions write, what the last instruction is, and that the entries of the expression list
which are marked as calculated are never looked at.
-/
namespace Verif.Codegen
open Spec

variable {E : Type}

/-! ### Invariants of the traversals -/

theorem postorder_inv {α R S : Type} {f : Tree α → List R → StateT S Option R} {I : S → Prop}
    (hf : ∀ t rs s r s', f t rs s = some (r, s') → I s → I s') :
    ∀ n, (∀ t, Tree.size t ≤ n → ∀ s r s', postorder f t s = some (r, s') → I s → I s') ∧
      (∀ ts, Tree.sizeL ts ≤ n → ∀ s r s', postorderL f ts s = some (r, s') → I s → I s') := by
  intro n
  induction n with
  | zero =>
    refine ⟨fun t ht => ?_, fun ts hts => ?_⟩
    · cases t; simp [Tree.size] at ht
    · cases ts with
      | nil => intro s r s' h hI; rw [postorderL] at h; cases h; exact hI
      | cons t ts => cases t; simp [Tree.sizeL, Tree.size] at hts
  | succ n ih =>
    have h1 : ∀ t, Tree.size t ≤ n + 1 → ∀ s r s', postorder f t s = some (r, s') → I s → I s' := by
      intro t ht s r s' h hI
      cases t with
      | node a vs =>
        simp only [Tree.size] at ht
        rw [postorder] at h
        obtain ⟨⟨rs, s1⟩, h1, h2⟩ := Option.bind_eq_some_iff.mp h
        exact hf _ _ _ _ _ h2 (ih.2 vs (by omega) _ _ _ h1 hI)
    refine ⟨h1, fun ts => ?_⟩
    induction ts with
    | nil => intro _ s r s' h hI; rw [postorderL] at h; cases h; exact hI
    | cons t ts ihts =>
      intro hts s r s' h hI
      simp only [Tree.sizeL] at hts
      rw [postorderL] at h
      obtain ⟨⟨r1, s1⟩, h2, h⟩ := Option.bind_eq_some_iff.mp h
      obtain ⟨⟨rs, s2⟩, h3, h⟩ := Option.bind_eq_some_iff.mp h
      have h' : some (r1 :: rs, s2) = some (r, s') := h
      cases h'
      exact ihts (by omega) _ _ _ h3 (h1 t (by omega) _ _ _ h2 hI)

theorem calcDeps_pres {gen : Ctx E → Nat → Bool → Option (Ctx E)} {I : Ctx E → Prop}
    (hg : ∀ c id p c', gen c id p = some c' → I c → I c') (prime : Bool) :
    ∀ n, (∀ e, Tree.size e ≤ n → ∀ c c', calcDeps gen prime e c = some c' → I c → I c') ∧
      (∀ es, Tree.sizeL es ≤ n → ∀ c c', calcDepsL gen prime es c = some c' → I c → I c') := by
  intro n
  induction n with
  | zero =>
    refine ⟨fun t ht => ?_, fun ts hts => ?_⟩
    · cases t; simp [Tree.size] at ht
    · cases ts with
      | nil => intro c c' h hI; rw [calcDepsL] at h; cases h; exact hI
      | cons t ts => cases t; simp [Tree.sizeL, Tree.size] at hts
  | succ n ih =>
    have h1 : ∀ e, Tree.size e ≤ n + 1 → ∀ c c', calcDeps gen prime e c = some c' → I c → I c' := by
      intro e he c c' h hI
      cases e with
      | node l vs =>
        simp only [Tree.size] at he
        rw [calcDeps] at h
        obtain ⟨c1, h2, h3⟩ := Option.bind_eq_some_iff.mp h
        refine ih.2 vs (by omega) _ _ h3 ?_
        split at h2
        · obtain ⟨id, _, h2⟩ := Option.bind_eq_some_iff.mp h2
          split at h2
          · cases h2
          · exact hg _ _ _ _ h2 hI
        · cases h2; exact hI
    refine ⟨h1, fun ts => ?_⟩
    induction ts with
    | nil => intro _ c c' h hI; rw [calcDepsL] at h; cases h; exact hI
    | cons t ts ihts =>
      intro hts c c' h hI
      simp only [Tree.sizeL] at hts
      rw [calcDepsL] at h
      obtain ⟨c1, h2, h3⟩ := Option.bind_eq_some_iff.mp h
      exact ihts (by omega) _ _ h3 (h1 t (by omega) _ _ h2 hI)

/-- two generators that agree on the states satisfying an invariant they preserve -/
theorem calcDeps_congr {gen gen' : Ctx E → Nat → Bool → Option (Ctx E)} {I : Ctx E → Prop}
    (hg : ∀ c id p c', gen c id p = some c' → I c → I c') (hgg : ∀ c id p, I c → gen c id p = gen' c id p) (prime : Bool) :
    ∀ n, (∀ e, Tree.size e ≤ n → ∀ c, I c → calcDeps gen prime e c = calcDeps gen' prime e c) ∧
      (∀ es, Tree.sizeL es ≤ n → ∀ c, I c → calcDepsL gen prime es c = calcDepsL gen' prime es c) := by
  intro n
  induction n with
  | zero =>
    refine ⟨fun t ht => ?_, fun ts hts => ?_⟩
    · cases t; simp [Tree.size] at ht
    · cases ts with
      | nil => intro c hI; rw [calcDepsL, calcDepsL]
      | cons t ts => cases t; simp [Tree.sizeL, Tree.size] at hts
  | succ n ih =>
    have h1 : ∀ e, Tree.size e ≤ n + 1 → ∀ c, I c → calcDeps gen prime e c = calcDeps gen' prime e c := by
      intro e he c hI
      cases e with
      | node l vs =>
        simp only [Tree.size] at he
        rw [calcDeps, calcDeps]
        by_cases ho : l.op = .exp
        · simp only [if_pos ho]
          cases hid : l.id with
          | none => rfl
          | some id =>
            simp only [Option.bind_some]
            by_cases hp : (prime && l.next) = true
            · simp [hp]
            · simp only [if_neg hp]
              rw [← hgg _ _ _ hI]
              cases hx : gen c id (prime || l.next) with
              | none => rfl
              | some c1 =>
                simp only [Option.bind_some]
                exact ih.2 vs (by omega) _ (hg _ _ _ _ hx hI)
        · simp only [if_neg ho, Option.bind_some]
          exact ih.2 vs (by omega) _ hI
    refine ⟨h1, fun ts => ?_⟩
    induction ts with
    | nil => intro _ c hI; rw [calcDepsL, calcDepsL]
    | cons t ts ihts =>
      intro hts c hI
      simp only [Tree.sizeL] at hts
      rw [calcDepsL, calcDepsL, ← h1 t (by omega) c hI]
      cases hx : calcDeps gen prime t c with
      | none => rfl
      | some c1 =>
        simp only [Option.bind_some]
        exact ihts (by omega) _ ((calcDeps_pres hg prime _).1 t (Nat.le_refl _) _ _ hx hI)

/-! ### Calculated expressions are not looked at -/

theorem genOne_calculated {zero : E} {exps : List (Expr E)} {ctx ctx' : Ctx E} {id : Nat} {p : Bool} {res : Option (NTy × Nat)}
    {muladd : Bool} (h : genOne zero exps ctx id p res muladd = some ctx') : ∀ k ∈ ctx.calculated, k ∈ ctx'.calculated := by
  unfold genOne at h
  obtain ⟨e, -, h⟩ := Option.bind_eq_some_iff.mp h
  obtain ⟨e', -, h⟩ := Option.bind_eq_some_iff.mp h
  obtain ⟨⟨r, c⟩, h1, h⟩ := Option.bind_eq_some_iff.mp h
  obtain ⟨c1, h2, h⟩ := Option.bind_eq_some_iff.mp h
  obtain ⟨c2, h3, rfl⟩ := Option.map_eq_some_iff.mp h
  intro k hk
  exact List.mem_cons_of_mem _ hk

theorem pilCodeGen_calculated {zero : E} {exps : List (Expr E)} : ∀ (fuel : Nat) {ctx ctx' : Ctx E} {id : Nat} {p muladd : Bool},
    pilCodeGen zero exps fuel ctx id p none muladd = some ctx' → ∀ k ∈ ctx.calculated, k ∈ ctx'.calculated
  | 0, _, _, _, _, _, h => by simp [pilCodeGen] at h
  | fuel + 1, ctx, ctx', id, p, muladd, h => by
    rw [pilCodeGen] at h
    split at h
    · cases h; exact fun _ h => h
    · obtain ⟨e, -, h⟩ := Option.bind_eq_some_iff.mp h
      obtain ⟨c1, h1, h⟩ := Option.bind_eq_some_iff.mp h
      intro k hk
      refine genOne_calculated h k ?_
      exact (calcDeps_pres (I := fun c => k ∈ c.calculated)
        (fun c i q c' hg hI => pilCodeGen_calculated fuel hg _ hI) p _).1 e (Nat.le_refl _) _ _ h1 hk

/-! ### Destinations -/

/-- the register an instruction of an expression writes: a temporary, or the register of an expression that is not one of
the expressions `S` available from the start -/
def DestOk (S : List (Bool × Nat)) (ins : Instr E) : Prop :=
  (ins.dest.ty = .tmp ∧ ins.dest.prime = false) ∨ (ins.dest.ty = .exp ∧ (ins.dest.prime, ins.dest.id) ∉ S)

theorem evalSingleOp_dest {S : List (Bool × Nat)} {zero : E} {p : Bool} {e : Expr E} {vals : List (Node E)} {c c' : CodeCtx E} {r : Node E}
    (h : evalSingleOp zero p e vals c = some (r, c')) (hc : ∀ ins ∈ c.code, DestOk S ins) : ∀ ins ∈ c'.code, DestOk S ins := by
  have hem : ∀ (op : IOp) (src : List (Node E)), emit op src c = some (r, c') → ∀ ins ∈ c'.code, DestOk S ins := by
    intro op src h
    unfold emit at h
    simp only [Option.some.injEq, Prod.mk.injEq] at h
    obtain ⟨-, rfl⟩ := h
    intro ins hi
    rcases List.mem_append.mp hi with hi | hi
    · exact hc ins hi
    · rw [List.mem_singleton] at hi
      subst hi
      exact .inl ⟨rfl, rfl⟩
  have hsame : c = c' → ∀ ins ∈ c'.code, DestOk S ins := by rintro rfl; exact hc
  have href : ∀ ty l pr, refNode ty l pr c = some (r, c') → c = c' := by
    intro ty l pr h
    unfold refNode at h
    split at h
    · cases h
    · obtain ⟨i, -, h⟩ := Option.map_eq_some_iff.mp h
      exact (Prod.mk.inj h).2
  have hid : ∀ ty l, idNode ty l c = some (r, c') → c = c' := by
    intro ty l h
    unfold idNode at h
    obtain ⟨i, -, h⟩ := Option.map_eq_some_iff.mp h
    exact (Prod.mk.inj h).2
  unfold evalSingleOp at h
  cases ho : e.label.op <;> simp only [ho] at h
  case add | sub | mul | muladd => exact hem _ _ h
  case addc | mulc =>
    obtain ⟨a, -, h⟩ := Option.bind_eq_some_iff.mp h
    obtain ⟨k, -, h⟩ := Option.bind_eq_some_iff.mp h
    exact hem _ _ h
  case neg =>
    obtain ⟨a, -, h⟩ := Option.bind_eq_some_iff.mp h
    exact hem _ _ h
  case cm | const_ | exp | q => exact hsame (href _ _ _ h)
  case number =>
    obtain ⟨v, -, h⟩ := Option.map_eq_some_iff.mp h
    exact hsame (Prod.mk.inj h).2
  case public_ | challenge | eval => exact hsame (hid _ _ h)
  case xDivXSubXi | xDivXSubWXi | x => exact hsame (Prod.mk.inj (Option.some.inj h)).2
  case other => cases h

theorem genOne_dest {S : List (Bool × Nat)} {zero : E} {exps : List (Expr E)} {ctx ctx' : Ctx E} {id : Nat} {p : Bool} {muladd : Bool}
    (hn : (p, id) ∉ S) (h : genOne zero exps ctx id p none muladd = some ctx') (hc : ∀ ins ∈ linearCode ctx, DestOk S ins) :
    (∀ ins ∈ linearCode ctx', DestOk S ins) ∧ ∃ init last, linearCode ctx' = init ++ [last] ∧
      last.dest.ty = .exp ∧ last.dest.id = id ∧ last.dest.prime = p := by
  unfold genOne at h
  obtain ⟨e, -, h⟩ := Option.bind_eq_some_iff.mp h
  obtain ⟨e', -, h⟩ := Option.bind_eq_some_iff.mp h
  obtain ⟨⟨r, c⟩, h1, h⟩ := Option.bind_eq_some_iff.mp h
  obtain ⟨c1, h2, h⟩ := Option.bind_eq_some_iff.mp h
  obtain ⟨c2, h3, h⟩ := Option.map_eq_some_iff.mp h
  unfold addResult at h3
  cases h3
  subst h
  rw [evalExp, traverse_eq_postorder] at h1
  have hd : ∀ ins ∈ c.code, DestOk S ins :=
    (postorder_inv (I := fun c => ∀ ins ∈ c.code, DestOk S ins) (fun t rs s r s' hf hI => evalSingleOp_dest hf hI) _).1 e'
      (Nat.le_refl _) _ _ _ h1 (by simp)
  have hl : ∀ code, linearCode (⟨max ctx.tmpUsed c1.tmpUsed, ctx.code ++ [⟨id, p, code⟩], (p, id) :: ctx.calculated⟩ : Ctx E) = linearCode ctx ++ code := by
    intro code
    simp [linearCode]
  rw [hl]
  unfold finish at h2
  dsimp only at h2
  split at h2
  · obtain ⟨last, h4, rfl⟩ := Option.map_eq_some_iff.mp h2
    refine ⟨?_, linearCode ctx ++ c.code.dropLast, { last with dest := { ty := .exp, id := id, prime := p } }, by simp, rfl, rfl, rfl⟩
    intro ins hi
    rcases List.mem_append.mp hi with hi | hi
    · exact hc ins hi
    · rcases List.mem_append.mp hi with hi | hi
      · exact hd ins (List.dropLast_subset _ hi)
      · rw [List.mem_singleton] at hi
        subst hi
        exact .inr ⟨rfl, hn⟩
  · cases h2
    refine ⟨?_, linearCode ctx ++ c.code, ⟨.copy, { ty := .exp, id := id, prime := p }, [r]⟩, by simp, rfl, rfl, rfl⟩
    intro ins hi
    rcases List.mem_append.mp hi with hi | hi
    · exact hc ins hi
    · rcases List.mem_append.mp hi with hi | hi
      · exact hd ins hi
      · rw [List.mem_singleton] at hi
        subst hi
        exact .inr ⟨rfl, hn⟩

theorem pilCodeGen_dest {S : List (Bool × Nat)} {zero : E} {exps : List (Expr E)} : ∀ (fuel : Nat) {ctx ctx' : Ctx E} {id : Nat} {p muladd : Bool},
    pilCodeGen zero exps fuel ctx id p none muladd = some ctx' → (∀ k ∈ S, k ∈ ctx.calculated) →
    (∀ ins ∈ linearCode ctx, DestOk S ins) → ∀ ins ∈ linearCode ctx', DestOk S ins
  | 0, _, _, _, _, _, h, _, _ => by simp [pilCodeGen] at h
  | fuel + 1, ctx, ctx', id, p, muladd, h, hS, hc => by
    rw [pilCodeGen] at h
    split at h
    · cases h; exact hc
    · rename_i hn
      obtain ⟨e, -, h⟩ := Option.bind_eq_some_iff.mp h
      obtain ⟨c1, h1, h⟩ := Option.bind_eq_some_iff.mp h
      refine (genOne_dest (fun hk => hn (hS _ hk)) h ?_).1
      exact ((calcDeps_pres (I := fun c => (∀ k ∈ S, k ∈ c.calculated) ∧ ∀ ins ∈ linearCode c, DestOk S ins)
        (fun c i q c' hg hI => ⟨fun k hk => pilCodeGen_calculated fuel hg k (hI.1 k hk), pilCodeGen_dest fuel hg hI.1 hI.2⟩)
        p _).1 e (Nat.le_refl _) _ _ h1 ⟨hS, hc⟩).2

/-- the last instruction of the code of a requested expression writes the register of that expression -/
theorem pilCodeGen_last {S : List (Bool × Nat)} {zero : E} {exps : List (Expr E)} {fuel : Nat} {ctx ctx' : Ctx E} {id : Nat} {p muladd : Bool}
    (hn : (p, id) ∉ ctx.calculated) (hS : ∀ k ∈ S, k ∈ ctx.calculated) (hc : ∀ ins ∈ linearCode ctx, DestOk S ins)
    (h : pilCodeGen zero exps fuel ctx id p none muladd = some ctx') :
    ∃ init last, linearCode ctx' = init ++ [last] ∧ last.dest.ty = .exp ∧ last.dest.id = id ∧ last.dest.prime = p := by
  cases fuel with
  | zero => simp [pilCodeGen] at h
  | succ fuel =>
    rw [pilCodeGen, if_neg hn] at h
    obtain ⟨e, -, h⟩ := Option.bind_eq_some_iff.mp h
    obtain ⟨c1, h1, h⟩ := Option.bind_eq_some_iff.mp h
    refine (genOne_dest (fun hk => hn (hS _ hk)) h ?_).2
    exact ((calcDeps_pres (I := fun c => (∀ k ∈ S, k ∈ c.calculated) ∧ ∀ ins ∈ linearCode c, DestOk S ins)
      (fun c i q c' hg hI => ⟨fun k hk => pilCodeGen_calculated fuel hg k (hI.1 k hk), pilCodeGen_dest fuel hg hI.1 hI.2⟩)
      p _).1 e (Nat.le_refl _) _ _ h1 ⟨hS, hc⟩).2

/-- Two lists of expressions that agree on all expressions except some that are marked as calculated (for both rows) give the
same code. -/
theorem pilCodeGen_congr {zero : E} {exps exps' : List (Expr E)} {S : Nat → Prop} (hag : ∀ i, ¬S i → exps[i]? = exps'[i]?) :
    ∀ (fuel : Nat) {ctx : Ctx E} {id : Nat} {p muladd : Bool} {res : Option (NTy × Nat)},
      (∀ i, S i → ∀ q, (q, i) ∈ ctx.calculated) →
      pilCodeGen zero exps fuel ctx id p res muladd = pilCodeGen zero exps' fuel ctx id p res muladd
  | 0, _, _, _, _, _, _ => by simp [pilCodeGen]
  | fuel + 1, ctx, id, p, muladd, res, hS => by
    simp only [pilCodeGen]
    by_cases hc : (p, id) ∈ ctx.calculated
    · rw [if_pos hc, if_pos hc]
    · rw [if_neg hc, if_neg hc]
      have hid : ¬S id := fun h => hc (hS id h p)
      rw [← hag id hid]
      cases he : exps[id]? with
      | none => rfl
      | some e =>
        simp only [Option.bind_some]
        rw [← (calcDeps_congr (I := fun c => ∀ i, S i → ∀ q, (q, i) ∈ c.calculated)
          (gen := fun c id p => pilCodeGen zero exps fuel c id p none false)
          (fun c i q c' hg hI j hj b => pilCodeGen_calculated fuel hg _ (hI j hj b))
          (fun c i q hI => pilCodeGen_congr hag fuel hI) p _).1 e (Nat.le_refl _) ctx hS]
        cases hd : calcDeps (fun c id p => pilCodeGen zero exps fuel c id p none false) p e ctx with
        | none => rfl
        | some c1 =>
          simp only [Option.bind_some]
          unfold genOne
          rw [← hag id hid]

end Verif.Codegen
