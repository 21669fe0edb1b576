import Verif.Stage.ExtSim
import Verif.Stark.ProverQuot

/-!
# The programs of the extended domain on the prover's buffers: all rows, in parallel
-/
set_option linter.unusedSectionVars false

namespace Verif.Stage
open Verif.Codegen (NTy IOp)
open Verif.Codegen.Spec (Store readN exec)
open Verif.Interp (NodeTy OpTy Dom Sec Info algF3 execInfo setWidth cleared calcPar modOf nextOf CodeOk)
open Verif.Interp.Spec (Col cell readCol writeCol nodeCol rowOf meaning store stepI run)
open Verif.Ext3 (F3G K coord val WF ofF)
open Verif.Stark (fieldOps)
open Verif.Fri (encK)
open Verif.GL (F)
open Verif.Map (Lay Rel fixNode fixInstr fixOp sameTy Hold Blank)

noncomputable section

variable {L : Lay} {t0 n D : Nat} {Occ : Bool → Nat → Prop} {out : Sec} {c0 : Interp.Ctx F3G F} {code : List (Codegen.Instr K)} {fin : Interp.Instr F3G}

/-- the cells of `N` values, `D` coordinates each -/
def cellsE (D N : Nat) (X : Nat → K) : List F3G := (List.range (N * D)).map fun x => ofF ((encK.enc (X (x / D))).getD (x % D) 0)

/-- the column of the result -/
def outCol (out : Sec) (D : Nat) : Col := ⟨out, 0, D, D⟩

theorem hold_cellsE (hD : D = 1 ∨ D = 3) {m : Sec → List F3G} {N : Nat} {X : Nat → K} (hlen : (m out).length = N * D)
    (h : ∀ r < N, Hold m (outCol out D) r (X r)) : m out = cellsE D N X := by
  have hD0 : 0 < D := by omega
  refine List.ext_getElem? fun x => ?_
  by_cases hx : x < N * D
  · unfold cellsE
    rw [List.getElem?_map, List.getElem?_range hx, Option.map_some]
    have hr : x / D < N := (Nat.div_lt_iff_lt_mul hD0).mpr hx
    have hH := h _ hr
    have hxe : x / D * D + x % D = x := by rw [Nat.mul_comm]; exact Nat.div_add_mod x D
    have hk : x % D < D := Nat.mod_lt _ hD0
    unfold Hold outCol at hH
    dsimp only at hH
    unfold cell at hH
    rcases hD with rfl | rfl
    · rw [if_pos rfl] at hH
      obtain ⟨a, h1, h2⟩ := hH
      rw [← h2, ← Stark.coord_base, Stark.enc_coord]
      have h0 : x % 1 = 0 := Nat.mod_one x
      rw [h0] at hxe ⊢
      rw [hxe] at h1
      rw [h1]
      rfl
    · rw [if_neg (by omega)] at hH
      obtain ⟨a, b, d, h1, h2, h3, h4⟩ := hH
      rw [← h4, Stark.enc_coord]
      generalize hkk : x % 3 = k at hxe hk ⊢
      generalize x / 3 = r at hxe h1 h2 h3
      subst hxe
      have : k = 0 ∨ k = 1 ∨ k = 2 := by omega
      rcases this with rfl | rfl | rfl
      · rw [h1]; rfl
      · rw [show r * 3 + 1 = r * 3 + (0 + 1) from rfl, h2]; rfl
      · rw [show r * 3 + 2 = r * 3 + (0 + 2) from rfl, h3]; rfl
  · rw [List.getElem?_eq_none (by omega), List.getElem?_eq_none (by simp [cellsE]; omega)]

/-- the last instruction computes the value of the row -/
def FinE (L : Lay) (t0 D : Nat) (Occ : Bool → Nat → Prop) (out : Sec) (code : List (Codegen.Instr K)) (fin : Interp.Instr F3G) (c0 : Interp.Ctx F3G F) (σ0 : Store K)
    (i : Nat) (x : K) : Prop :=
  ∃ σ', exec (fieldOps K) code σ0 = some σ' ∧ ∀ c, RegE L t0 D Occ σ0 σ' (c.mem .tmp) → Agree out c0 c →
    ∃ ws w, fin.src.mapM (meaning algF3 L.s L.dom L.N L.step c i) = some ws ∧ Interp.Spec.apply algF3 fin.op ws = some w ∧ Rel x w D

/-- the buffers after the rows below `i` -/
structure RowsE (out : Sec) (D n N : Nat) (X : Nat → K) (c0 : Interp.Ctx F3G F) (i : Nat) (c : Interp.Ctx F3G F) : Prop where
  agree : Agree out c0 c
  tmps : (c.mem .tmp).length = n
  len : (c.mem out).length = N * D
  done : ∀ r < i, Hold c.mem (outCol out D) r (X r)
  todo : ∀ r, i ≤ r → r < N → Blank c.mem (outCol out D) r

theorem rowE (hT : TmpE L t0 n Occ) (hD : D = 1 ∨ D = 3) (hout : out ≠ .tmp) (hin : ∀ ins ∈ code, InsE L t0 Occ ins) {X : Nat → K} {σ0 : Store K} {i : Nat}
    (hfd : fin.dest.ty = .q ∨ fin.dest.ty = .f) (hfc : nodeCol L.s L.dom fin.dest = some (outCol out D))
    (hσt : ∀ t p, σ0 .tmp t p = none) (hσe : ∀ p id, Occ p id → σ0 .exp id p = none) (hleaf : LeafE L out D code c0 σ0 i)
    (hfin : FinE L t0 D Occ out code fin c0 σ0 i (X i)) (hi : i < L.N) {c : Interp.Ctx F3G F} (h : RowsE out D n L.N X c0 i c) :
    ∃ c', run algF3 L.s L.dom L.N L.step (code.map (fixInstr L.tgt L.lit L.em) ++ [fin]) c i = some c' ∧ RowsE out D n L.N X c0 (i + 1) c' := by
  obtain ⟨σ', hex, hf⟩ := hfin
  have hS : RegE L t0 D Occ σ0 σ0 (c.mem .tmp) :=
    ⟨fun t v _ hv => (by rw [hσt] at hv; cases hv), fun p id v ho hv => (by rw [hσe p id ho] at hv; cases hv), fun _ _ _ _ _ _ => rfl⟩
  obtain ⟨l, g1, g2, g3⟩ := execE hT (by omega) code hin hleaf σ0 σ' c hS h.agree h.tmps hex
  obtain ⟨ws, w, k1, k2, k3⟩ := hf (tmpIs c l) (by rw [tmpIs_tmp]; exact g3) (h.agree.tmp l)
  have hmo : ∀ t, t ≠ .tmp → (tmpIs c l).mem t = c.mem t := fun t ht => Function.update_of_ne ht _ _
  have hbl : Blank (tmpIs c l).mem (outCol out D) i := by
    have := h.todo i (le_refl _) hi
    unfold Blank outCol at this ⊢
    dsimp only at this ⊢
    rw [hmo out hout]
    exact this
  obtain ⟨m', w1, w2, w3⟩ := Map.write_hold (m := (tmpIs c l).mem) (col := outCol out D) (r := i) (N := L.N) k3 hD (by simp [outCol])
    (by show L.N * D ≤ ((tmpIs c l).mem out).length; rw [hmo out hout, h.len]) hi (.inl hbl)
  have hother := fun (r' : Nat) (hr' : r' ≠ i) => Map.write_other (col' := outCol out D) (r' := r') w1 (by simp [outCol]) (by simp [outCol]) (.inr ⟨rfl, hr'⟩)
  have hframe : ∀ t, t ≠ out → m' t = (tmpIs c l).mem t := by
    intro t ht
    refine List.ext_getElem? fun k => ?_
    exact Interp.writeCol_frame algF3 w1 t k (fun hh => ht hh.1)
  refine ⟨{ tmpIs c l with mem := m' }, ?_, ⟨⟨h.agree.xXi, h.agree.xWXi, h.agree.Zi, fun t e1 e2 => ?_⟩, ?_, ?_, fun r hr => ?_, fun r hr1 hr2 => ?_⟩⟩
  · unfold run at g1 ⊢
    rw [List.foldlM_append, g1, Option.bind_eq_bind, Option.bind_some, List.foldlM_cons]
    have : stepI algF3 L.s L.dom L.N L.step i (tmpIs c l) fin = some { tmpIs c l with mem := m' } := by
      unfold stepI
      show (fin.src.mapM (meaning algF3 L.s L.dom L.N L.step (tmpIs c l) i)).bind _ = _
      rw [k1, Option.bind_some]
      show (Interp.Spec.apply algF3 fin.op ws).bind _ = _
      rw [k2, Option.bind_some]
      unfold store
      rcases hfd with hfd | hfd
      · rw [hfd]
        simp only
        rw [hfc, Option.bind_some, w1]
        rfl
      · rw [hfd]
        simp only
        rw [hfc, Option.bind_some, w1]
        rfl
    rw [this]
    rfl
  · show m' t = c0.mem t
    rw [hframe t e2, hmo t e1]
    exact h.agree.mem t e1 e2
  · show (m' .tmp).length = n
    rw [hframe .tmp hout.symm, tmpIs_tmp]
    exact g2
  · show (m' out).length = _
    rw [w3 out, hmo out hout]
    exact h.len
  · by_cases e : r = i
    · subst e
      exact w2
    · refine Map.Hold.congr (m := (tmpIs c l).mem) hD (hother r e) ?_
      have := h.done r (by omega)
      unfold Hold outCol at this ⊢
      dsimp only at this ⊢
      rw [hmo out hout]
      exact this
  · refine Map.Blank.congr (m := (tmpIs c l).mem) (hother r (by omega)) ?_
    have := h.todo r (by omega) hr2
    unfold Blank outCol at this ⊢
    dsimp only at this ⊢
    rw [hmo out hout]
    exact this

/-- all rows, one after the other -/
theorem rowsE (hT : TmpE L t0 n Occ) (hD : D = 1 ∨ D = 3) (hout : out ≠ .tmp) (hin : ∀ ins ∈ code, InsE L t0 Occ ins) {X : Nat → K} {σ : Nat → Store K}
    (hfd : fin.dest.ty = .q ∨ fin.dest.ty = .f) (hfc : nodeCol L.s L.dom fin.dest = some (outCol out D))
    (hσt : ∀ i t p, σ i .tmp t p = none) (hσe : ∀ i p id, Occ p id → σ i .exp id p = none) (hleaf : ∀ i < L.N, LeafE L out D code c0 (σ i) i)
    (hfin : ∀ i < L.N, FinE L t0 D Occ out code fin c0 (σ i) i (X i)) {c : Interp.Ctx F3G F} (h : RowsE out D n L.N X c0 0 c) :
    ∀ m ≤ L.N, ∃ c', (List.range m).foldlM (run algF3 L.s L.dom L.N L.step (code.map (fixInstr L.tgt L.lit L.em) ++ [fin])) c = some c' ∧ RowsE out D n L.N X c0 m c'
  | 0, _ => ⟨c, by simp, h⟩
  | m + 1, hm => by
    obtain ⟨c1, h1, h2⟩ := rowsE hT hD hout hin hfd hfc hσt hσe hleaf hfin h m (by omega)
    obtain ⟨c2, h3, h4⟩ := rowE hT hD hout hin hfd hfc (hσt m) (hσe m) (hleaf m (by omega)) (hfin m (by omega)) (by omega) h2
    refine ⟨c2, ?_, h4⟩
    rw [List.range_succ, List.foldlM_append, h1]
    simp [h3]

/-- the operands satisfy the conditions of the parallel evaluation: temporaries are written before they are read, because the code runs -/
theorem codeOkE {ex : Interp.Exec} {all tail : List (Interp.Instr F3G)} : ∀ (code : List (Codegen.Instr K)), (∀ ins ∈ code, InsE L t0 Occ ins) →
    (∀ ins ∈ code, ∀ r ∈ ins.src, r.ty ≠ .tmp → ¬(r.ty = .exp ∧ L.tgt r.id = none) → ∀ defd, Interp.SrcOk L.s ex all defd (fixNode L.tgt L.lit L.em r)) →
    ∀ (σ σ' : Store K) (defd : List Nat), exec (fieldOps K) code σ = some σ' → (∀ t v, σ .tmp t false = some v → t ∈ defd) →
    (∀ p id v, Occ p id → σ .exp id p = some v → L.em p id ∈ defd) →
    (∀ defd', (∀ p id v, Occ p id → σ' .exp id p = some v → L.em p id ∈ defd') → CodeOk L.s ex all defd' tail) →
    CodeOk L.s ex all defd (code.map (fixInstr L.tgt L.lit L.em) ++ tail)
  | [], _, _, σ, σ', defd, h, _, he, htail => by
    simp only [exec, List.foldlM_nil, Option.pure_def, Option.some.injEq] at h
    subst h
    exact htail defd he
  | ins :: code, hin, hcols, σ, σ', defd, h, ht, he, htail => by
    unfold exec at h
    rw [List.foldlM_cons] at h
    obtain ⟨σ1, h1, h2⟩ := Option.bind_eq_some_iff.mp h
    unfold Codegen.Spec.step at h1
    obtain ⟨vs, g1, h1⟩ := Option.bind_eq_some_iff.mp h1
    obtain ⟨v, g2, rfl⟩ := Option.map_eq_some_iff.mp h1
    have hI := hin ins (by simp)
    have hread : ∀ r ∈ ins.src, ∃ v, readN σ r = some v := by
      have : ∀ (rs : List (Codegen.Node K)) (vs : List K), rs.mapM (readN σ) = some vs → ∀ r ∈ rs, ∃ v, readN σ r = some v := by
        intro rs
        induction rs with
        | nil => intro vs _ r hr; cases hr
        | cons a rs ih =>
          intro vs hh r hr
          rw [List.mapM_cons] at hh
          obtain ⟨x, x1, hh⟩ := Option.bind_eq_some_iff.mp hh
          obtain ⟨xs, x2, hh⟩ := Option.bind_eq_some_iff.mp hh
          rcases List.mem_cons.mp hr with rfl | hr
          · exact ⟨x, x1⟩
          · exact ih xs x2 r hr
      exact this _ _ g1
    rw [List.map_cons, List.cons_append]
    refine ⟨fun r hr => ?_, ?_, ?_⟩
    · obtain ⟨r0, hr0, rfl⟩ := List.mem_map.mp hr
      obtain ⟨s1, s2, s3⟩ := hI.src r0 hr0
      obtain ⟨v', hv'⟩ := hread r0 hr0
      by_cases e1 : r0.ty = .tmp
      · obtain ⟨p1, p2⟩ := s2 e1
        unfold readN at hv'
        rw [if_neg (by rw [e1]; decide), e1, p1] at hv'
        have := ht _ _ hv'
        unfold Interp.SrcOk fixNode
        simp only [e1, sameTy]
        exact this
      by_cases e2 : r0.ty = .exp ∧ L.tgt r0.id = none
      · unfold readN at hv'
        rw [if_neg (by rw [e2.1]; decide), e2.1] at hv'
        have := he _ _ _ (s3 e2.1 e2.2) hv'
        unfold Interp.SrcOk fixNode
        simp only [e2.1, e2.2]
        exact this
      · exact hcols ins (by simp) r0 hr0 e1 e2 defd
    · left
      show (fixNode L.tgt L.lit L.em ins.dest).ty = .tmp
      rcases hI.dest with ⟨d1, -, -⟩ | ⟨d1, d2, -⟩
      · unfold fixNode; simp [d1, sameTy]
      · unfold fixNode; simp [d1, d2]
    · have hty : (fixInstr L.tgt L.lit L.em ins).dest.ty = .tmp := by
        show (fixNode L.tgt L.lit L.em ins.dest).ty = .tmp
        rcases hI.dest with ⟨d1, -, -⟩ | ⟨d1, d2, -⟩
        · unfold fixNode; simp [d1, sameTy]
        · unfold fixNode; simp [d1, d2]
      rw [if_pos hty]
      have hid : ∀ (x : Nat), (ins.dest.ty = .tmp → x = ins.dest.id) → (ins.dest.ty = .exp → x = L.em ins.dest.prime ins.dest.id) →
          x = (fixInstr L.tgt L.lit L.em ins).dest.id := by
        intro x x1 x2
        show x = (fixNode L.tgt L.lit L.em ins.dest).id
        rcases hI.dest with ⟨d1, -, -⟩ | ⟨d1, d2, -⟩
        · rw [x1 d1]; unfold fixNode; simp [d1]
        · rw [x2 d1]; unfold fixNode; simp [d1, d2]
      refine codeOkE code (fun x hx => hin x (by simp [hx])) (fun x hx => hcols x (by simp [hx])) _ σ' _ h2 ?_ ?_ htail
      · intro t v' hv'
        unfold Store.set at hv'
        split_ifs at hv' with e
        · rw [hid t (fun _ => e.2.1) (fun hh => by rw [← e.1] at hh; cases hh)]
          exact List.mem_cons_self
        · exact List.mem_cons_of_mem _ (ht t v' hv')
      · intro p id v' ho hv'
        unfold Store.set at hv'
        split_ifs at hv' with e
        · rw [hid (L.em p id) (fun hh => by rw [← e.1] at hh; cases hh) (fun _ => by rw [e.2.1, e.2.2])]
          exact List.mem_cons_self
        · exact List.mem_cons_of_mem _ (he p id v' ho hv')

/-- The parallel evaluation leaves the values of all rows in the section `out` and changes nothing else. -/
theorem parE (hT : TmpE L t0 n Occ) (hD : D = 1 ∨ D = 3) (hin : ∀ ins ∈ code, InsE L t0 Occ ins) {X : Nat → K} {σ : Nat → Store K}
    {st : Interp.Step} {c : Interp.Ctx F3G F} {zi : Nat → Nat → Option F3G} {workers : Nat}
    (hst : (execInfo L.s st).out = [out]) (hst' : out ∉ (execInfo L.s st).inp) (hwd : setWidth L.s out = D)
    (hdom : L.dom = (execInfo L.s st).dom) (hN : L.N = modOf c.nbits c.nbitsExt L.dom) (hstep : L.step = nextOf c.nbits c.nbitsExt L.dom)
    (hle : L.step ≤ L.N) (hle' : L.step ≤ 2048) (hw1 : 1 ≤ workers) (hw : workers ≤ 2048) (hzi : ∀ off j, zi off j = c.Zi (off + j))
    (hlen : ∀ x ∈ (execInfo L.s st).inp ++ (execInfo L.s st).out, (c.mem x).length = L.N * setWidth L.s x)
    (hbase : (execInfo L.s st).inBase = true → c.xXi.length = L.N * 3 ∧ c.xWXi.length = L.N * 3)
    (hfd : fin.dest.ty = .q ∨ fin.dest.ty = .f) (hfp : fin.dest.prime = false) (hfc : nodeCol L.s L.dom fin.dest = some (outCol out D))
    (hσt : ∀ i t p, σ i .tmp t p = none) (hσe : ∀ i p id, Occ p id → σ i .exp id p = none) (hleaf : ∀ i < L.N, LeafE L out D code c (σ i) i)
    (hfin : ∀ i < L.N, FinE L t0 D Occ out code fin c (σ i) i (X i))
    (hcols : ∀ ins ∈ code, ∀ r ∈ ins.src, r.ty ≠ .tmp → ¬(r.ty = .exp ∧ L.tgt r.id = none) →
      ∀ defd, Interp.SrcOk L.s (execInfo L.s st) (code.map (fixInstr L.tgt L.lit L.em) ++ [fin]) defd (fixNode L.tgt L.lit L.em r))
    (hfs : ∀ σ', exec (fieldOps K) code (σ 0) = some σ' → ∀ defd, (∀ p id v, Occ p id → σ' .exp id p = some v → L.em p id ∈ defd) →
      ∀ r ∈ fin.src, Interp.SrcOk L.s (execInfo L.s st) (code.map (fixInstr L.tgt L.lit L.em) ++ [fin]) defd r) :
    ∃ c', calcPar algF3 L.s zi (code.map (fixInstr L.tgt L.lit L.em) ++ [fin]) n workers st c = some c' ∧ c'.mem out = cellsE D L.N X ∧
      ∀ x, x ≠ .tmp → x ≠ out → c'.mem x = c.mem x := by
  have hpos : 0 < L.N := by
    rw [hN]
    unfold modOf
    split <;> exact Nat.two_pow_pos _
  have hout : out ≠ .tmp := by
    have := (Interp.execOk L.s st).outMem out (by rw [hst]; simp)
    exact this.1
  have hwx : ∀ x, (execInfo L.s st).width x = setWidth L.s x := by cases st <;> exact fun _ => rfl
  have hcm : ∀ x, x ≠ out → (cleared algF3 (execInfo L.s st) L.N c).mem x = c.mem x := by
    intro x hx
    unfold cleared
    simp [hst, hx]
  have hco : (cleared algF3 (execInfo L.s st) L.N c).mem out = List.replicate (L.N * D) Ext3.ZERO := by
    unfold cleared
    simp only [hst, List.mem_singleton, true_and]
    rw [if_pos hst', hwx, hwd]
    rfl
  have h0 : RowsE out D n L.N X c 0 (tmpIs (cleared algF3 (execInfo L.s st) L.N c) (List.replicate n Ext3.ZERO)) := by
    have hmo : ∀ t, t ≠ .tmp → (tmpIs (cleared algF3 (execInfo L.s st) L.N c) (List.replicate n Ext3.ZERO)).mem t = (cleared algF3 (execInfo L.s st) L.N c).mem t :=
      fun t ht => Function.update_of_ne ht _ _
    refine ⟨⟨rfl, rfl, rfl, fun t e1 e2 => by rw [hmo t e1, hcm t e2]⟩, by rw [tmpIs_tmp]; simp, by rw [hmo out hout, hco]; simp, by simp, fun r _ hr => ?_⟩
    unfold Blank outCol
    dsimp only
    rw [hmo out hout, hco]
    intro h3
    subst h3
    have : r * 3 + 2 < L.N * 3 := by omega
    unfold cell
    exact ⟨by rw [List.getElem?_replicate, if_pos (by omega)], by rw [List.getElem?_replicate, if_pos (by omega)]⟩
  obtain ⟨cs, hs1, hs2⟩ := rowsE hT hD hout hin hfd hfc hσt hσe hleaf hfin h0 L.N (le_refl _)
  obtain ⟨σ', hex, -⟩ := hfin 0 hpos
  have hok : CodeOk L.s (execInfo L.s st) (code.map (fixInstr L.tgt L.lit L.em) ++ [fin]) [] (code.map (fixInstr L.tgt L.lit L.em) ++ [fin]) := by
    refine codeOkE code hin hcols (σ 0) σ' [] hex (fun t v hv => by rw [hσt] at hv; cases hv) (fun p id v ho hv => by rw [hσe 0 p id ho] at hv; cases hv) ?_
    intro defd hdefd
    refine ⟨hfs σ' hex defd hdefd, .inr ⟨hfp, fun col hc => ?_⟩, trivial⟩
    rw [← hdom, hfc] at hc
    obtain rfl := Option.some.inj hc
    refine ⟨by rw [hst]; simp [outCol], ?_, by simp [outCol]⟩
    show D = (execInfo L.s st).width out
    rw [hwx, hwd]
  obtain ⟨-, c', h1, h2⟩ := Interp.calcPar_spec (s := L.s) (code := code.map (fixInstr L.tgt L.lit L.em) ++ [fin]) (n := L.N) (next := L.step) algF3 zi st c cs n workers hw1 hw
    (by rw [← hdom]; exact hN) (by rw [← hdom]; exact hstep) hle' hle (fun x hx => by rw [hwx]; exact hlen x hx) hbase hzi hok (by rw [← hdom]; exact hs1)
  refine ⟨c', h1, ?_, fun x e1 e2 => ?_⟩
  · rw [h2 out hout]
    exact hold_cellsE hD hs2.len hs2.done
  · rw [h2 x e1, hs2.agree.mem x e1 e2]

end

end Verif.Stage
