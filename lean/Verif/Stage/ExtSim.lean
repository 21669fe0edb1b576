import Verif.Map.Program
import Verif.Interp.ParProps

/-!
# The programs of the extended domain on the prover's buffers: one row

Steps 4 and 5 of `stark_gen` run a program whose instructions write temporaries, except the last one, which writes a column of `q_2ns` or `f_2ns`
(starkinfo_cp_prover.rs L92-112, starkinfo_fri_prover.rs L85-97, after `fix_prover_code`, starkinfo_map.rs L250-251).  Here: the temporaries follow
the registers of the generated code (`Codegen.Spec.exec`), at one row.
-/
set_option linter.unusedSectionVars false

namespace Verif.Stage
open Verif.Codegen (NTy IOp)
open Verif.Codegen.Spec (Store readN exec)
open Verif.Interp (NodeTy OpTy Dom Sec Info algF3)
open Verif.Interp.Spec (Col cell readCol writeCol nodeCol rowOf meaning store stepI run)
open Verif.Ext3 (F3G K coord val WF ofF)
open Verif.Stark (fieldOps)
open Verif.GL (F)
open Verif.Map (Lay Rel fixNode fixInstr fixOp sameTy)

noncomputable section

/-- the buffers with other temporaries -/
def tmpIs (c : Interp.Ctx F3G F) (l : List F3G) : Interp.Ctx F3G F := { c with mem := Function.update c.mem .tmp l }

theorem tmpIs_idem (c : Interp.Ctx F3G F) (l l' : List F3G) : tmpIs (tmpIs c l) l' = tmpIs c l' := by
  unfold tmpIs
  simp

theorem tmpIs_tmp (c : Interp.Ctx F3G F) (l : List F3G) : (tmpIs c l).mem .tmp = l := by simp [tmpIs]

theorem tmpIs_self (c : Interp.Ctx F3G F) : tmpIs c (c.mem .tmp) = c := by simp [tmpIs]

/-- the buffers agree except for the temporaries and the section `out` -/
structure Agree (out : Sec) (c0 c : Interp.Ctx F3G F) : Prop where
  xXi : c.xXi = c0.xXi
  xWXi : c.xWXi = c0.xWXi
  Zi : c.Zi = c0.Zi
  mem : ∀ t, t ≠ .tmp → t ≠ out → c.mem t = c0.mem t

theorem Agree.refl (out : Sec) (c : Interp.Ctx F3G F) : Agree out c c := ⟨rfl, rfl, rfl, fun _ _ _ => rfl⟩

theorem Agree.tmp {out : Sec} {c0 c : Interp.Ctx F3G F} (h : Agree out c0 c) (l : List F3G) : Agree out c0 (tmpIs c l) :=
  ⟨h.xXi, h.xWXi, h.Zi, fun t h1 h2 => by rw [← h.mem t h1 h2]; exact Function.update_of_ne h1 _ _⟩

/-- the instructions of the program, the last one excepted: temporaries below `t0`; the expressions that have no column (`Occ`) are written -/
structure InsE (L : Lay) (t0 : Nat) (Occ : Bool → Nat → Prop) (ins : Codegen.Instr K) : Prop where
  op : ins.op ≠ .muladd
  src : ∀ r ∈ ins.src, r.ty ≠ .f ∧ (r.ty = .tmp → r.prime = false ∧ r.id < t0) ∧ (r.ty = .exp → L.tgt r.id = none → Occ r.prime r.id)
  dest : (ins.dest.ty = .tmp ∧ ins.dest.prime = false ∧ ins.dest.id < t0) ∨
    (ins.dest.ty = .exp ∧ L.tgt ins.dest.id = none ∧ Occ ins.dest.prime ins.dest.id)

/-- where the registers without a column are -/
structure TmpE (L : Lay) (t0 n : Nat) (Occ : Bool → Nat → Prop) : Prop where
  le : t0 ≤ n
  occ : ∀ p id, Occ p id → L.tgt id = none ∧ t0 ≤ L.em p id ∧ L.em p id < n
  inj : ∀ p id p' id', Occ p id → Occ p' id' → L.em p id = L.em p' id' → p = p' ∧ id = id'

/-- the temporaries hold the registers -/
structure RegE (L : Lay) (t0 D : Nat) (Occ : Bool → Nat → Prop) (σ0 σ : Store K) (ts : List F3G) : Prop where
  tmp : ∀ t v, t < t0 → σ .tmp t false = some v → ∃ w, ts[t]? = some w ∧ Rel v w D
  un : ∀ p id v, Occ p id → σ .exp id p = some v → ∃ w, ts[L.em p id]? = some w ∧ Rel v w D
  leaf : ∀ t k p, t ≠ .tmp → ¬(t = .exp ∧ L.tgt k = none) → t ≠ .f → σ t k p = σ0 t k p

/-- reading an operand that is not a temporary gives its value at row `i`, whatever the temporaries and the section `out` contain -/
def LeafE (L : Lay) (out : Sec) (D : Nat) (code : List (Codegen.Instr K)) (c0 : Interp.Ctx F3G F) (σ0 : Store K) (i : Nat) : Prop :=
  ∀ ins ∈ code, ∀ r ∈ ins.src, r.ty ≠ .tmp → ¬(r.ty = .exp ∧ L.tgt r.id = none) → ∀ v, readN σ0 r = some v →
    ∃ w, Rel v w D ∧ ∀ c, Agree out c0 c → meaning algF3 L.s L.dom L.N L.step c i (fixNode L.tgt L.lit L.em r) = some w

variable {L : Lay} {t0 n D : Nat} {Occ : Bool → Nat → Prop} {out : Sec} {c0 : Interp.Ctx F3G F} {σ0 : Store K} {i : Nat}

theorem meaningE {σ : Store K} {c : Interp.Ctx F3G F} (hS : RegE L t0 D Occ σ0 σ (c.mem .tmp)) (hA : Agree out c0 c) {r : Codegen.Node K} {v : K}
    (h1 : r.ty ≠ .f) (h2 : r.ty = .tmp → r.prime = false ∧ r.id < t0) (h3 : r.ty = .exp → L.tgt r.id = none → Occ r.prime r.id)
    (hleaf : r.ty ≠ .tmp → ¬(r.ty = .exp ∧ L.tgt r.id = none) → ∀ v, readN σ0 r = some v →
      ∃ w, Rel v w D ∧ ∀ c, Agree out c0 c → meaning algF3 L.s L.dom L.N L.step c i (fixNode L.tgt L.lit L.em r) = some w)
    (hv : readN σ r = some v) : ∃ w, meaning algF3 L.s L.dom L.N L.step c i (fixNode L.tgt L.lit L.em r) = some w ∧ Rel v w D := by
  by_cases ht : r.ty = .tmp
  · obtain ⟨hp, hlt⟩ := h2 ht
    unfold readN at hv
    rw [if_neg (by rw [ht]; decide), ht, hp] at hv
    obtain ⟨w, hw, hr⟩ := hS.tmp _ _ hlt hv
    refine ⟨w, ?_, hr⟩
    unfold fixNode meaning
    simp only [ht, sameTy]
    exact hw
  by_cases he : r.ty = .exp ∧ L.tgt r.id = none
  · obtain ⟨he, htg⟩ := he
    unfold readN at hv
    rw [if_neg (by rw [he]; decide), he] at hv
    obtain ⟨w, hw, hr⟩ := hS.un _ _ _ (h3 he htg) hv
    refine ⟨w, ?_, hr⟩
    unfold fixNode meaning
    simp only [he, htg]
    exact hw
  · have hr0 : readN σ0 r = some v := by
      unfold readN at hv ⊢
      split_ifs at hv ⊢ with hn
      · exact hv
      · rw [← hS.leaf _ _ _ ht he h1]
        exact hv
    obtain ⟨w, hw, hm⟩ := hleaf ht he v hr0
    exact ⟨w, hm c hA, hw⟩

theorem mapM_rel {α : Type} {f : α → Option K} {g : α → Option F3G} : ∀ (rs : List α) (vs : List K),
    (∀ r ∈ rs, ∀ v, f r = some v → ∃ w, g r = some w ∧ Rel v w D) → rs.mapM f = some vs →
    ∃ ws, rs.mapM g = some ws ∧ List.Forall₂ (fun v w => Rel v w D) vs ws
  | [], vs, _, h => by
    simp at h
    subst h
    exact ⟨[], by simp, .nil⟩
  | r :: rs, vs, hr, h => by
    rw [List.mapM_cons] at h
    obtain ⟨v, h1, h⟩ := Option.bind_eq_some_iff.mp h
    obtain ⟨vs', h2, h⟩ := Option.bind_eq_some_iff.mp h
    obtain rfl := Option.some.inj h
    obtain ⟨w, g1, g2⟩ := hr r (by simp) v h1
    obtain ⟨ws, g3, g4⟩ := mapM_rel rs vs' (fun x hx => hr x (by simp [hx])) h2
    refine ⟨w :: ws, ?_, .cons g2 g4⟩
    rw [List.mapM_cons, g1, Option.bind_eq_bind, Option.bind_some, g3]
    rfl

theorem maxTag_replicate (hD : 1 ≤ D) : ∀ k, Map.maxTag (List.replicate k D) ≤ D
  | 0 => hD
  | k + 1 => by
    rw [List.replicate_succ, Map.maxTag]
    exact max_le (le_refl _) (maxTag_replicate hD k)

theorem forall_zip : ∀ {vs : List K} {ws : List F3G}, List.Forall₂ (fun v w => Rel v w D) vs ws →
    List.Forall₂ (fun v (wd : F3G × Nat) => Rel v wd.1 wd.2) vs (ws.zip (List.replicate ws.length D))
  | _, _, .nil => .nil
  | _, _, .cons h t => by
    rw [List.length_cons, List.replicate_succ, List.zip_cons_cons]
    exact .cons h (forall_zip t)

theorem apply_relD {op : IOp} (hop : op ≠ .muladd) (hD : 1 ≤ D) {vs : List K} {ws : List F3G} {v : K} (hl : List.Forall₂ (fun v w => Rel v w D) vs ws)
    (h : Codegen.Spec.apply (fieldOps K) op vs = some v) : ∃ w, Interp.Spec.apply algF3 (fixOp op) ws = some w ∧ Rel v w D := by
  obtain ⟨w, h1, h2⟩ := Map.apply_rel hop (forall_zip hl) (by simp) h
  exact ⟨w, h1, h2.mono (maxTag_replicate hD _)⟩

/-- one instruction -/
theorem stepE (hT : TmpE L t0 n Occ) (hD : 1 ≤ D) {ins : Codegen.Instr K} (hin : InsE L t0 Occ ins)
    (hleaf : ∀ r ∈ ins.src, r.ty ≠ .tmp → ¬(r.ty = .exp ∧ L.tgt r.id = none) → ∀ v, readN σ0 r = some v →
      ∃ w, Rel v w D ∧ ∀ c, Agree out c0 c → meaning algF3 L.s L.dom L.N L.step c i (fixNode L.tgt L.lit L.em r) = some w)
    {σ σ' : Store K} {c : Interp.Ctx F3G F} (hS : RegE L t0 D Occ σ0 σ (c.mem .tmp)) (hA : Agree out c0 c) (hlen : (c.mem .tmp).length = n)
    (h : Codegen.Spec.step (fieldOps K) σ ins = some σ') :
    ∃ l, stepI algF3 L.s L.dom L.N L.step i c (fixInstr L.tgt L.lit L.em ins) = some (tmpIs c l) ∧ l.length = n ∧ RegE L t0 D Occ σ0 σ' l := by
  unfold Codegen.Spec.step at h
  obtain ⟨vs, h1, h⟩ := Option.bind_eq_some_iff.mp h
  obtain ⟨v, h2, rfl⟩ := Option.map_eq_some_iff.mp h
  obtain ⟨ws, g1, g2⟩ := mapM_rel (D := D) (f := readN σ) (g := fun r => meaning algF3 L.s L.dom L.N L.step c i (fixNode L.tgt L.lit L.em r)) ins.src vs
    (fun r hr v hv => by
      obtain ⟨a, b, d⟩ := hin.src r hr
      exact meaningE hS hA a b d (hleaf r hr) hv) h1
  obtain ⟨w, g3, g4⟩ := apply_relD hin.op hD g2 h2
  have hsrc : (ins.src.map (fixNode L.tgt L.lit L.em)).mapM (meaning algF3 L.s L.dom L.N L.step c i) = some ws := by
    rw [List.mapM_map]
    exact g1
  have hstep : ∀ t, (fixNode L.tgt L.lit L.em ins.dest).ty = .tmp → (fixNode L.tgt L.lit L.em ins.dest).id = t → t < n →
      stepI algF3 L.s L.dom L.N L.step i c (fixInstr L.tgt L.lit L.em ins) = some (tmpIs c ((c.mem .tmp).set t w)) := by
    rintro t e1 rfl hlt
    unfold stepI
    show ((ins.src.map (fixNode L.tgt L.lit L.em)).mapM (meaning algF3 L.s L.dom L.N L.step c i)).bind _ = _
    rw [hsrc, Option.bind_some]
    show (Interp.Spec.apply algF3 (fixOp ins.op) ws).bind _ = _
    rw [g3, Option.bind_some]
    show store algF3 L.s L.dom L.N L.step c i (fixNode L.tgt L.lit L.em ins.dest) w = _
    unfold store
    rw [e1]
    simp only
    rw [if_pos (by omega)]
    rfl
  rcases hin.dest with ⟨d1, d2, d3⟩ | ⟨d1, d2, d3⟩
  · have hty : (fixNode L.tgt L.lit L.em ins.dest).ty = .tmp ∧ (fixNode L.tgt L.lit L.em ins.dest).id = ins.dest.id := by
      unfold fixNode
      simp [d1, sameTy]
    refine ⟨_, hstep _ hty.1 hty.2 (by have := hT.le; omega), by rw [List.length_set]; exact hlen, ?_⟩
    refine ⟨fun t v' ht hv' => ?_, fun p id v' ho hv' => ?_, fun t k p e1 e2 e3 => ?_⟩
    · unfold Store.set at hv'
      by_cases e : t = ins.dest.id
      · subst e
        rw [if_pos ⟨d1.symm, rfl, d2.symm⟩] at hv'
        obtain rfl := Option.some.inj hv'
        exact ⟨w, List.getElem?_set_self (by have := hT.le; omega), g4⟩
      · rw [if_neg (fun hh => e hh.2.1)] at hv'
        obtain ⟨w', a, b⟩ := hS.tmp t v' ht hv'
        exact ⟨w', by rw [List.getElem?_set_ne (fun hh => e hh.symm)]; exact a, b⟩
    · unfold Store.set at hv'
      rw [if_neg (fun hh => by rw [d1] at hh; cases hh.1)] at hv'
      obtain ⟨w', a, b⟩ := hS.un p id v' ho hv'
      have := (hT.occ p id ho).2.1
      exact ⟨w', by rw [List.getElem?_set_ne (by omega)]; exact a, b⟩
    · unfold Store.set
      rw [if_neg (fun hh => e1 (hh.1.trans d1))]
      exact hS.leaf t k p e1 e2 e3
  · have hty : (fixNode L.tgt L.lit L.em ins.dest).ty = .tmp ∧ (fixNode L.tgt L.lit L.em ins.dest).id = L.em ins.dest.prime ins.dest.id := by
      unfold fixNode
      simp [d1, d2]
    obtain ⟨-, o1, o2⟩ := hT.occ _ _ d3
    refine ⟨_, hstep _ hty.1 hty.2 o2, by rw [List.length_set]; exact hlen, ?_⟩
    refine ⟨fun t v' ht hv' => ?_, fun p id v' ho hv' => ?_, fun t k p e1 e2 e3 => ?_⟩
    · unfold Store.set at hv'
      rw [if_neg (fun hh => by rw [d1] at hh; cases hh.1)] at hv'
      obtain ⟨w', a, b⟩ := hS.tmp t v' ht hv'
      exact ⟨w', by rw [List.getElem?_set_ne (by omega)]; exact a, b⟩
    · unfold Store.set at hv'
      by_cases e : id = ins.dest.id ∧ p = ins.dest.prime
      · rw [if_pos ⟨d1.symm, e⟩] at hv'
        obtain rfl := Option.some.inj hv'
        obtain ⟨rfl, rfl⟩ := e
        exact ⟨w, List.getElem?_set_self (by omega), g4⟩
      · rw [if_neg (fun hh => e hh.2)] at hv'
        obtain ⟨w', a, b⟩ := hS.un p id v' ho hv'
        refine ⟨w', ?_, b⟩
        rw [List.getElem?_set_ne]
        · exact a
        · intro hh
          obtain ⟨x1, x2⟩ := hT.inj _ _ _ _ d3 ho hh
          exact e ⟨x2.symm, x1.symm⟩
    · unfold Store.set
      rw [if_neg (fun hh => e2 ⟨hh.1.trans d1, by rw [hh.2.1]; exact d2⟩)]
      exact hS.leaf t k p e1 e2 e3

/-- the instructions of one row -/
theorem execE (hT : TmpE L t0 n Occ) (hD : 1 ≤ D) : ∀ (code : List (Codegen.Instr K)), (∀ ins ∈ code, InsE L t0 Occ ins) → LeafE L out D code c0 σ0 i →
    ∀ (σ σ' : Store K) (c : Interp.Ctx F3G F), RegE L t0 D Occ σ0 σ (c.mem .tmp) → Agree out c0 c → (c.mem .tmp).length = n →
    exec (fieldOps K) code σ = some σ' →
    ∃ l, run algF3 L.s L.dom L.N L.step (code.map (fixInstr L.tgt L.lit L.em)) c i = some (tmpIs c l) ∧ l.length = n ∧ RegE L t0 D Occ σ0 σ' l
  | [], _, _, σ, σ', c, hS, _, hlen, h => by
    simp only [exec, List.foldlM_nil, Option.pure_def, Option.some.injEq] at h
    subst h
    exact ⟨c.mem .tmp, by rw [tmpIs_self]; rfl, hlen, hS⟩
  | ins :: code, hin, hleaf, σ, σ', c, hS, hA, hlen, h => by
    unfold exec at h
    rw [List.foldlM_cons] at h
    obtain ⟨σ1, h1, h2⟩ := Option.bind_eq_some_iff.mp h
    obtain ⟨l, g1, g2, g3⟩ := stepE hT hD (hin ins (by simp)) (hleaf ins (by simp)) hS hA hlen h1
    obtain ⟨l', k1, k2, k3⟩ := execE hT hD code (fun x hx => hin x (by simp [hx])) (fun x hx => hleaf x (by simp [hx])) σ1 σ' (tmpIs c l)
      (by rw [tmpIs_tmp]; exact g3) (hA.tmp l) (by rw [tmpIs_tmp]; exact g2) h2
    refine ⟨l', ?_, k2, k3⟩
    unfold run at k1 ⊢
    rw [List.map_cons, List.foldlM_cons, g1, Option.bind_eq_bind, Option.bind_some, k1, tmpIs_idem]

end

end Verif.Stage
