import Verif.Map.Gen
import Verif.Map.ParRows

/-!
# Values of expressions at the next row, and without the column `x`
-/
namespace Verif.Stage
open Verif.Codegen
open Verif.Codegen.Spec (Store Val ExpVal)
open Verif.Ext3 (K)
open Verif.Stark (fieldOps)
open Verif.Grand
open Verif.Map
open Verif.GL (F)

variable {exps : List (Expr K)} {R : Bool → Nat → Prop} {σ σ' : Store K}

/-- the value at the next row of a row `σ` is the value at the row `σ'` that follows it -/
theorem store_shift (hcl : Closed exps R) (hnp : NoPoint exps R)
    (hc : ∀ t k v, t = .cm ∨ t = .const_ ∨ t = .q → σ t k true = some v → σ' t k false = some v)
    (hb : ∀ t k v, t = .public_ ∨ t = .challenge ∨ t = .eval → σ t k false = some v → σ' t k false = some v) {d : Nat} {p : Bool} {e : Expr K} {v : K}
    (h : Val (fieldOps K) exps σ d p e v) : p = true →
    (∀ l, HasLabel l e → Codegen.Spec.nullTy l.op = none) → (∀ l j, HasLabel l e → l.op = .exp → l.id = some j → R true j) →
    Val (fieldOps K) exps σ' d false e v := by
  induction h with
  | add ho _ _ hz iha ihb =>
    intro hp h1 h2
    exact .add ho (iha hp (fun l h => h1 l (.child (by simp) h)) fun l j h => h2 l j (.child (by simp) h))
      (ihb hp (fun l h => h1 l (.child (by simp) h)) fun l j h => h2 l j (.child (by simp) h)) hz
  | sub ho _ _ hz iha ihb =>
    intro hp h1 h2
    exact .sub ho (iha hp (fun l h => h1 l (.child (by simp) h)) fun l j h => h2 l j (.child (by simp) h))
      (ihb hp (fun l h => h1 l (.child (by simp) h)) fun l j h => h2 l j (.child (by simp) h)) hz
  | mul ho _ _ hz iha ihb =>
    intro hp h1 h2
    exact .mul ho (iha hp (fun l h => h1 l (.child (by simp) h)) fun l j h => h2 l j (.child (by simp) h))
      (ihb hp (fun l h => h1 l (.child (by simp) h)) fun l j h => h2 l j (.child (by simp) h)) hz
  | muladd ho _ _ _ hz hz' iha ihb ihc =>
    intro hp h1 h2
    exact .muladd ho (iha hp (fun l h => h1 l (.child (by simp) h)) fun l j h => h2 l j (.child (by simp) h))
      (ihb hp (fun l h => h1 l (.child (by simp) h)) fun l j h => h2 l j (.child (by simp) h))
      (ihc hp (fun l h => h1 l (.child (by simp) h)) fun l j h => h2 l j (.child (by simp) h)) hz hz'
  | addc ho hk _ hz ih =>
    intro hp h1 h2
    exact .addc ho hk (ih hp (fun l h => h1 l (.child (by simp) h)) fun l j h => h2 l j (.child (by simp) h)) hz
  | mulc ho hk _ hz ih =>
    intro hp h1 h2
    exact .mulc ho hk (ih hp (fun l h => h1 l (.child (by simp) h)) fun l j h => h2 l j (.child (by simp) h)) hz
  | neg ho _ hz ih =>
    intro hp h1 h2
    exact .neg ho (ih hp (fun l h => h1 l (.child (by simp) h)) fun l j h => h2 l j (.child (by simp) h)) hz
  | number ho hv => exact fun _ _ _ => .number ho hv
  | @col d p l t k v ht hi hn hv =>
    intro hp _ _
    subst hp
    have hnx : l.next = false := by simpa using hn
    rw [hnx] at hv
    refine .col ht hi (by simp) ?_
    rw [hnx]
    obtain ⟨lo, _⟩ := l
    cases lo <;> simp [Codegen.Spec.colTy] at ht <;> subst ht <;> exact hc _ _ _ (by simp) hv
  | @byId d p l t k v ht hi hv =>
    intro _ _ _
    refine .byId ht hi ?_
    obtain ⟨lo, _⟩ := l
    cases lo <;> simp [Codegen.Spec.idTy] at ht <;> subst ht <;> exact hb _ _ _ (by simp) hv
  | @nullary d p l t v ht hv =>
    intro _ h1 _
    rw [h1 l .here] at ht
    cases ht
  | @exp d p l k e v ho hi hn he hv ih =>
    intro hp _ h2
    subst hp
    have hnx : l.next = false := by simpa using hn
    have hR : R true k := h2 l k .here ho hi
    refine .exp ho hi (by simp) he ?_
    rw [hnx]
    exact ih (by simp) (fun l' h => hnp k e l' hR he h) fun l' j h ho' hj => by
      have := hcl true k e l' j hR he h ho' hj
      simpa using this

theorem expVal_shift (hcl : Closed exps R) (hnp : NoPoint exps R)
    (hc : ∀ t k v, t = .cm ∨ t = .const_ ∨ t = .q → σ t k true = some v → σ' t k false = some v)
    (hb : ∀ t k v, t = .public_ ∨ t = .challenge ∨ t = .eval → σ t k false = some v → σ' t k false = some v) {id : Nat} {v : K} (hR : R true id)
    (h : ExpVal (fieldOps K) exps σ true id v) : ExpVal (fieldOps K) exps σ' false id v := by
  obtain ⟨d, e, he, h⟩ := h
  exact ⟨d, e, he, store_shift hcl hnp hc hb h rfl (fun l hl => hnp id e l hR he hl) fun l j hl ho hj => by
    have := hcl true id e l j hR he hl ho hj
    simpa using this⟩

/-- an expression that does not depend on `x` has the same value without it -/
theorem store_noX {Q : Nat → Prop} (hcl : ∀ k e l j, Q k → exps[k]? = some e → HasLabel l e → l.op = .exp → l.id = some j → Q j)
    (hnx : ∀ k e, Q k → exps[k]? = some e → NoX e)
    (hc : ∀ t k p v, t ≠ .x → σ t k p = some v → σ' t k p = some v) {d : Nat} {p : Bool} {e : Expr K} {v : K}
    (h : Val (fieldOps K) exps σ d p e v) :
    NoX e → (∀ l j, HasLabel l e → l.op = .exp → l.id = some j → Q j) → Val (fieldOps K) exps σ' d p e v := by
  induction h with
  | add ho _ _ hz iha ihb =>
    intro h1 h2
    exact .add ho (iha (fun l h => h1 l (.child (by simp) h)) fun l j h => h2 l j (.child (by simp) h))
      (ihb (fun l h => h1 l (.child (by simp) h)) fun l j h => h2 l j (.child (by simp) h)) hz
  | sub ho _ _ hz iha ihb =>
    intro h1 h2
    exact .sub ho (iha (fun l h => h1 l (.child (by simp) h)) fun l j h => h2 l j (.child (by simp) h))
      (ihb (fun l h => h1 l (.child (by simp) h)) fun l j h => h2 l j (.child (by simp) h)) hz
  | mul ho _ _ hz iha ihb =>
    intro h1 h2
    exact .mul ho (iha (fun l h => h1 l (.child (by simp) h)) fun l j h => h2 l j (.child (by simp) h))
      (ihb (fun l h => h1 l (.child (by simp) h)) fun l j h => h2 l j (.child (by simp) h)) hz
  | muladd ho _ _ _ hz hz' iha ihb ihc =>
    intro h1 h2
    exact .muladd ho (iha (fun l h => h1 l (.child (by simp) h)) fun l j h => h2 l j (.child (by simp) h))
      (ihb (fun l h => h1 l (.child (by simp) h)) fun l j h => h2 l j (.child (by simp) h))
      (ihc (fun l h => h1 l (.child (by simp) h)) fun l j h => h2 l j (.child (by simp) h)) hz hz'
  | addc ho hk _ hz ih =>
    intro h1 h2
    exact .addc ho hk (ih (fun l h => h1 l (.child (by simp) h)) fun l j h => h2 l j (.child (by simp) h)) hz
  | mulc ho hk _ hz ih =>
    intro h1 h2
    exact .mulc ho hk (ih (fun l h => h1 l (.child (by simp) h)) fun l j h => h2 l j (.child (by simp) h)) hz
  | neg ho _ hz ih =>
    intro h1 h2
    exact .neg ho (ih (fun l h => h1 l (.child (by simp) h)) fun l j h => h2 l j (.child (by simp) h)) hz
  | number ho hv => exact fun _ _ => .number ho hv
  | @col d p l t k v ht hi hn hv =>
    intro _ _
    refine .col ht hi hn (hc _ _ _ _ ?_ hv)
    obtain ⟨lo, _⟩ := l
    cases lo <;> simp [Codegen.Spec.colTy] at ht <;> subst ht <;> simp
  | @byId d p l t k v ht hi hv =>
    intro _ _
    refine .byId ht hi (hc _ _ _ _ ?_ hv)
    obtain ⟨lo, _⟩ := l
    cases lo <;> simp [Codegen.Spec.idTy] at ht <;> subst ht <;> simp
  | @nullary d p l t v ht hv =>
    intro h1 _
    rw [h1 l .here] at ht
    cases ht
  | @exp d p l k e v ho hi hn he hv ih =>
    intro _ h2
    exact .exp ho hi hn he (ih (hnx k e (h2 l k .here ho hi) he) fun l' j h ho' hj => hcl k e l' j (h2 l k .here ho hi) he h ho' hj)

end Verif.Stage
