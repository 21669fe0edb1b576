import Verif.Stage.ExtProg

/-!
# The programs of the extended domain: generated code, rewritten, on all rows
-/
set_option linter.unusedSectionVars false

namespace Verif.Stage
open Verif.Codegen (NTy IOp Expr Label linearCode pilCodeGen genOne addResult)
open Verif.Codegen.Spec (Store readN exec)
open Verif.Interp (NodeTy OpTy Dom Sec Info algF3 execInfo setWidth cleared calcPar modOf nextOf CodeOk)
open Verif.Interp.Spec (Col cell readCol writeCol nodeCol rowOf meaning store stepI run readBase)
open Verif.Ext3 (F3G K coord val WF ofF)
open Verif.Stark (fieldOps Run Setup Trace ColPos extStore width4 xExt colVal zhInv im2cmOf imDone withIm)
open Verif.FFT (mgK shiftK)
open Verif.Fri (encK)
open Verif.GL (F)
open Verif.Map (Lay Rel fixNode fixInstr fixOp sameTy Hold Blank tgtOf sec2 HasLabel leafOf Needed ProgOk fixProverCode)

noncomputable section

/-- the expression `id` at the row itself -/
def reqOf (id : Nat) : Codegen.Req := { id := id, prime := false, res := none, muladd := false }

/-- the code of an expression that has not been computed ends with its register -/
theorem code_last {exps : List (Expr K)} {fuel id : Nat} {c ctx : Codegen.Ctx K} (hgen : pilCodeGen 0 exps fuel c id false none false = some ctx)
    (hid : (false, id) ∉ c.calculated) : ∃ init last, linearCode ctx = init ++ [last] ∧ last.dest = { ty := .exp, id := id } := by
  cases fuel with
  | zero => simp [pilCodeGen] at hgen
  | succ fuel =>
    rw [pilCodeGen, if_neg hid] at hgen
    obtain ⟨e, he, h⟩ := Option.bind_eq_some_iff.mp hgen
    obtain ⟨c1, h1, h⟩ := Option.bind_eq_some_iff.mp h
    obtain ⟨e', init, last, -, hc, -, hd, -⟩ := Map.genOne_lin h
    refine ⟨linearCode c1 ++ init, last, ?_, hd⟩
    unfold linearCode
    rw [hc]
    simp

/-- the code with a result is the code without, and a copy -/
theorem code_res {exps : List (Expr K)} {fuel id : Nat} {c ctx' : Codegen.Ctx K} {ty : NTy} {rid : Nat} (hgen : pilCodeGen 0 exps fuel c id false (some (ty, rid)) false = some ctx')
    (hid : (false, id) ∉ c.calculated) : ∃ ctx, pilCodeGen 0 exps fuel c id false none false = some ctx ∧
      linearCode ctx' = linearCode ctx ++ [⟨.copy, { ty := ty, id := rid }, [{ ty := .exp, id := id }]⟩] ∧ ctx'.tmpUsed = ctx.tmpUsed := by
  cases fuel with
  | zero => simp [pilCodeGen] at hgen
  | succ fuel =>
    rw [pilCodeGen, if_neg hid] at hgen
    obtain ⟨e, he, h⟩ := Option.bind_eq_some_iff.mp hgen
    obtain ⟨c1, h1, h⟩ := Option.bind_eq_some_iff.mp h
    unfold genOne at h
    obtain ⟨e0, g0, h⟩ := Option.bind_eq_some_iff.mp h
    obtain ⟨e1, g1, h⟩ := Option.bind_eq_some_iff.mp h
    obtain ⟨rc, g2, h⟩ := Option.bind_eq_some_iff.mp h
    obtain ⟨c2, g3, h⟩ := Option.bind_eq_some_iff.mp h
    obtain ⟨c3, g4, h⟩ := Option.map_eq_some_iff.mp h
    subst h
    unfold addResult at g4
    simp only [Bool.false_eq_true, if_false, Option.some.injEq] at g4
    subst g4
    refine ⟨{ tmpUsed := max c1.tmpUsed c2.tmpUsed, code := c1.code ++ [⟨id, false, c2.code⟩], calculated := (false, id) :: c1.calculated }, ?_, ?_, rfl⟩
    · rw [pilCodeGen, if_neg hid, he, Option.bind_some, h1, Option.bind_some]
      unfold genOne
      rw [g0, Option.bind_some, g1, Option.bind_some, g2, Option.bind_some, g3, Option.bind_some]
      rfl
    · unfold linearCode
      simp

/-- what is known about an operand of the program -/
def LeafOk (R : Run) (im2cm : Nat → Option Nat) (lit : K → F3G) (mt D : Nat) (ex : Interp.Exec) (r : Codegen.Node K) : Prop :=
  LeafTree R im2cm mt r ∧ LeafDim R im2cm lit D r ∧ (r.ty = .x → .x_2ns ∈ ex.inp) ∧ (r.ty = .xDivXSubXi ∨ r.ty = .xDivXSubWXi → ex.inBase = true)

theorem exec_read {code : List (Codegen.Instr K)} : ∀ {σ σ' : Store K}, exec (fieldOps K) code σ = some σ' → ∀ ins ∈ code, ∀ r ∈ ins.src,
    ∃ σ1 v, readN σ1 r = some v ∧ ∀ t k p, (∀ ins ∈ code, ¬(t = ins.dest.ty ∧ k = ins.dest.id ∧ p = ins.dest.prime)) → σ1 t k p = σ t k p := by
  induction code with
  | nil => intro _ _ _ ins h; cases h
  | cons a code ih =>
    intro σ σ' h ins hins r hr
    unfold exec at h
    rw [List.foldlM_cons] at h
    obtain ⟨σ1, h1, h2⟩ := Option.bind_eq_some_iff.mp h
    unfold Codegen.Spec.step at h1
    obtain ⟨vs, g1, h1⟩ := Option.bind_eq_some_iff.mp h1
    obtain ⟨v, g2, rfl⟩ := Option.map_eq_some_iff.mp h1
    rcases List.mem_cons.mp hins with rfl | hins
    · have : ∀ (rs : List (Codegen.Node K)) (vs : List K), rs.mapM (readN σ) = some vs → ∀ r ∈ rs, ∃ v, readN σ r = some v := by
        intro rs
        induction rs with
        | nil => intro vs _ r hr; cases hr
        | cons a rs ih =>
          intro vs hh r hr
          rw [List.mapM_cons] at hh
          obtain ⟨x, x1, hh⟩ := Option.bind_eq_some_iff.mp hh
          obtain ⟨xs, x2, hh⟩ := Option.bind_eq_some_iff.mp hh
          rcases List.mem_cons.mp hr with rfl | hr
          · exact ⟨x, x1⟩
          · exact ih xs x2 r hr
      obtain ⟨v', hv'⟩ := this _ _ g1 r hr
      exact ⟨σ, v', hv', fun _ _ _ _ => rfl⟩
    · obtain ⟨σ2, v', hv', hs⟩ := ih h2 ins hins r hr
      refine ⟨σ2, v', hv', fun t k p hn => ?_⟩
      rw [hs t k p fun x hx => hn x (by simp [hx])]
      unfold Store.set
      rw [if_neg (hn a (by simp))]

section par

variable {R : Run} {U : Setup K} {T : Trace} {s : Info} {mt : Nat} {cells : Nat → List F} {fixed : List F} {chal evals xd xdw : List K} {c0 : Interp.Ctx F3G F}
  {im : List Nat} {im2cm : Nat → Option Nat} {tmpexps : List (Nat × Nat)} {em : Bool → Nat → Nat} {lit : K → F3G} {out : Sec} {D : Nat} {σ : Nat → Store K}

theorem ext_par {exps : List (Expr K)} {fuel t id tU : Nat} {pre : List (Bool × Nat)} {ctx : Codegen.Ctx K} {st : Interp.Step} {zi : Nat → Nat → Option F3G} {workers : Nat}
    {fin : Interp.Instr F3G} {extra : List (Interp.Node F3G)} {X : Nat → K}
    (hgen : pilCodeGen 0 exps fuel ⟨t, [], pre⟩ id false none false = some ctx) (hid : (false, id) ∉ pre) (hpre : ∀ p k, (p, k) ∉ pre → k ∉ im)
    (hops : ∀ p id' e l, Needed exps [reqOf id] p id' → exps[id']? = some e → HasLabel l e → l.op ≠ .muladd)
    (hleaf : ∀ p id' e l r, Needed exps [reqOf id] p id' → exps[id']? = some e → HasLabel l e → leafOf 0 p l = some r → LeafOk R im2cm lit mt D (execInfo s st) r)
    (htu : ctx.tmpUsed ≤ tU)
    (hem : ∀ c ∈ linearCode ctx, ∀ r ∈ c.dest :: c.src, r.ty = .exp → tgtOf im im2cm tmpexps .ns2 r.id = none → ctx.tmpUsed ≤ em r.prime r.id ∧ em r.prime r.id < tU ∧
        ∀ c' ∈ linearCode ctx, ∀ r' ∈ c'.dest :: c'.src, r'.ty = .exp → tgtOf im im2cm tmpexps .ns2 r'.id = none → em r.prime r.id = em r'.prime r'.id → r.prime = r'.prime ∧ r.id = r'.id)
    (hB : ExtBufs R U T s mt cells fixed chal evals xd xdw c0) (hL : ExtLay R U T s) (hlit : ∀ v, WF (lit v) ∧ val (lit v) = v) (hD : D = 1 ∨ D = 3)
    (hout : out = .q_2ns ∨ out = .f_2ns) (hst : (execInfo s st).out = [out]) (hst' : out ∉ (execInfo s st).inp) (hdom : (execInfo s st).dom = .ns2)
    (hsec : ∀ t, 1 ≤ t → t ≤ mt → sec2 t ∈ (execInfo s st).inp) (hconst : .const_2ns ∈ (execInfo s st).inp) (hwd : setWidth s out = D)
    (hlen : ∀ x ∈ (execInfo s st).inp ++ (execInfo s st).out, (c0.mem x).length = 2 ^ (R.nb + R.ext) * setWidth s x)
    (hbase : (execInfo s st).inBase = true → c0.xXi.length = 2 ^ (R.nb + R.ext) * 3 ∧ c0.xWXi.length = 2 ^ (R.nb + R.ext) * 3)
    (hext : R.ext ≤ 11) (hw1 : 1 ≤ workers) (hw : workers ≤ 2048) (hzi : ∀ off j, zi off j = c0.Zi (off + j))
    (hfd : fin.dest.ty = .q ∨ fin.dest.ty = .f) (hfp : fin.dest.prime = false) (hfc : nodeCol s .ns2 fin.dest = some (outCol out D))
    (hfs : fin.src = { ty := .tmp, id := em false id } :: extra) (hextra : ∀ r ∈ extra, r.ty = .Zi)
    (hσ : ∀ i, Start0 R U T cells fixed chal evals xd xdw im2cm i (σ i)) (hσt : ∀ i t p, σ i .tmp t p = none)
    (hσe : ∀ i k p, k ∉ im → σ i .exp k p = none)
    (hval : ∀ i < 2 ^ (R.nb + R.ext), ∃ σ' v, exec (fieldOps K) (linearCode ctx) (σ i) = some σ' ∧ σ' .exp id false = some v ∧
      ∀ c, Agree out c0 c → ∀ w, Rel v w D → ∃ ws w', extra.mapM (meaning algF3 s .ns2 (2 ^ (R.nb + R.ext)) (2 ^ R.ext) c i) = some ws ∧
        Interp.Spec.apply algF3 fin.op (w :: ws) = some w' ∧ Rel (X i) w' D) :
    ∃ c', calcPar algF3 s zi ((linearCode ctx).map (fixInstr (tgtOf im im2cm tmpexps .ns2) lit em) ++ [fin]) tU workers st c0 = some c' ∧
      c'.mem out = cellsE D (2 ^ (R.nb + R.ext)) X ∧ ∀ x, x ≠ .tmp → x ≠ out → c'.mem x = c0.mem x := by
  have hnone : ∀ k, k ∉ im → tgtOf im im2cm tmpexps .ns2 k = none := by
    intro k hk
    unfold tgtOf
    rw [if_neg hk, if_neg (by decide)]
  have hP : ProgOk exps (Needed exps [reqOf id]) (fun _ => 3) (fun _ => 3) pre ctx :=
    ProgOk.gen (fun _ _ _ _ _ => ⟨by omega, fun l r _ _ => by split <;> exact le_refl _⟩) (Map.needed_closed _ _) fuel (.req (List.mem_singleton.mpr rfl)) hgen .nil
  obtain ⟨init, last, hil, hld⟩ := code_last hgen hid
  have hlast : last ∈ linearCode ctx := by rw [hil]; simp
  set Occ : Bool → Nat → Prop := fun p k => ∃ c ∈ linearCode ctx, ∃ r ∈ c.dest :: c.src, r.ty = .exp ∧ tgtOf im im2cm tmpexps .ns2 r.id = none ∧ r.prime = p ∧ r.id = k with hOcc
  have hoid : Occ false id := by
    refine ⟨last, hlast, last.dest, List.mem_cons_self, ?_⟩
    rw [hld]
    exact ⟨rfl, hnone id (hpre false id hid), rfl, rfl⟩
  have hinE : ∀ ins ∈ linearCode ctx, InsE (lay2 R s im im2cm tmpexps em lit) ctx.tmpUsed Occ ins := by
    intro ins hi
    refine ⟨fun ho => ?_, fun r hr => ?_, ?_⟩
    · obtain ⟨p, id', e, l, h1, h2, h3, h4⟩ := hP.op ins hi ho
      exact hops p id' e l h1 h2 h3 h4
    · refine ⟨?_, ?_, fun h1 h2 => ⟨ins, hi, r, List.mem_cons_of_mem _ hr, h1, h2, rfl, rfl⟩⟩
      · rcases hP.src ins hi r hr with ⟨a, -, -⟩ | ⟨id', e, p, h1, h2, e', he', l, h3, h4⟩
        · rw [a]; decide
        · exact (Map.leafOf_ty h4).2
      · intro ht
        rcases hP.src ins hi r hr with ⟨-, b, c⟩ | ⟨id', e, p, h1, h2, e', he', l, h3, h4⟩
        · exact ⟨b, c⟩
        · exact absurd ht (Map.leafOf_ty h4).1
    · rcases hP.dest ins hi with h | ⟨h1, -, -, h4⟩
      · exact .inl h
      · exact .inr ⟨h1, hnone _ (hpre _ _ h4), ins, hi, ins.dest, List.mem_cons_self, h1, hnone _ (hpre _ _ h4), rfl, rfl⟩
  have hT : TmpE (lay2 R s im im2cm tmpexps em lit) ctx.tmpUsed tU Occ := by
    refine ⟨htu, ?_, ?_⟩
    · rintro p k ⟨c, hc, r, hr, h1, h2, rfl, rfl⟩
      obtain ⟨g1, g2, -⟩ := hem c hc r hr h1 h2
      exact ⟨h2, g1, g2⟩
    · rintro p k p' k' ⟨c, hc, r, hr, h1, h2, rfl, rfl⟩ ⟨c', hc', r', hr', h1', h2', rfl, rfl⟩ he
      exact (hem c hc r hr h1 h2).2.2 c' hc' r' hr' h1' h2' he
  -- the operands that are not temporaries
  have hlf : ∀ ins ∈ linearCode ctx, ∀ r ∈ ins.src, r.ty ≠ .tmp → LeafOk R im2cm lit mt D (execInfo s st) r := by
    intro ins hi r hr ht
    rcases hP.src ins hi r hr with ⟨a, -, -⟩ | ⟨id', e, p, h1, h2, e', he', l, h3, h4⟩
    · exact absurd a ht
    · rw [List.mem_singleton] at he'
      subst he'
      exact hleaf p id' e' l r h1 h2 h3 h4
  have hread : ∀ i < 2 ^ (R.nb + R.ext), ∀ ins ∈ linearCode ctx, ∀ r ∈ ins.src, r.ty ≠ .tmp → ¬(r.ty = .exp ∧ tgtOf im im2cm tmpexps .ns2 r.id = none) → ∃ v, readN (σ i) r = some v := by
    intro i hi ins hins r hr ht hne
    obtain ⟨σ', v, h1, -⟩ := hval i hi
    obtain ⟨σ1, v1, g1, g2⟩ := exec_read h1 ins hins r hr
    refine ⟨v1, ?_⟩
    unfold readN at g1 ⊢
    split_ifs at g1 ⊢ with hn
    · exact g1
    · rw [← g2 r.ty r.id r.prime]
      · exact g1
      · rintro x hx ⟨e1, e2, e3⟩
        rcases hP.dest x hx with ⟨d1, -, -⟩ | ⟨d1, -, -, d4⟩
        · exact ht (e1.trans d1)
        · refine hne ⟨e1.trans d1, ?_⟩
          rw [e2]
          exact hnone _ (hpre _ _ d4)
  have hpos : 0 < 2 ^ (R.nb + R.ext) := Nat.two_pow_pos _
  have hwx : ∀ x, (execInfo s st).width x = setWidth s x := by cases st <;> exact fun _ => rfl
  have hall : ∀ ins ∈ (linearCode ctx).map (fixInstr (tgtOf im im2cm tmpexps .ns2) lit em) ++ [fin], ∀ col, nodeCol s .ns2 ins.dest = some col → col.sec = out := by
    intro ins hins col hcol
    rcases List.mem_append.mp hins with hins | hins
    · obtain ⟨x, hx, rfl⟩ := List.mem_map.mp hins
      have : (fixNode (tgtOf im im2cm tmpexps .ns2) lit em x.dest).ty = .tmp := by
        rcases (hinE x hx).dest with ⟨d1, -, -⟩ | ⟨d1, d2, -⟩
        · unfold fixNode; simp [d1, sameTy]
        · have d2 : tgtOf im im2cm tmpexps .ns2 x.dest.id = none := d2
          unfold fixNode; simp [d1, d2]
      unfold nodeCol fixInstr at hcol
      dsimp only at hcol
      rw [this] at hcol
      cases hcol
    · rw [List.mem_singleton] at hins
      subst hins
      rw [hfc] at hcol
      obtain rfl := Option.some.inj hcol
      rfl
  have hmod : modOf c0.nbits c0.nbitsExt .ns2 = 2 ^ (R.nb + R.ext) := by rw [hB.nbits, hB.nbitsExt]; rfl
  have hnext : nextOf c0.nbits c0.nbitsExt .ns2 = 2 ^ R.ext := by rw [hB.nbits, hB.nbitsExt]; simp [nextOf]
  have hno : ∀ i p k, Occ p k → σ i .exp k p = none := by
    rintro i p k ⟨c, hc, r, hr, h1, h2, rfl, rfl⟩
    by_cases hk : r.id ∈ im
    · cases hs : σ i .exp r.id r.prime with
      | none => rfl
      | some v =>
        obtain ⟨m, hm, -⟩ := (hσ i).exp _ _ _ hs
        have h2 : tgtOf im im2cm tmpexps .ns2 r.id = none := h2
        unfold tgtOf at h2
        rw [if_pos hk, hm] at h2
        cases h2
    · exact hσe i _ _ hk
  exact parE (L := lay2 R s im im2cm tmpexps em lit) (D := D) (n := tU) (code := linearCode ctx) (fin := fin) (X := X) (σ := σ) (c := c0) (st := st) (Occ := Occ)
    hT hD hinE hst hst' hwd hdom.symm (by show 2 ^ (R.nb + R.ext) = _; rw [← hmod]; rfl) (by show 2 ^ R.ext = _; rw [← hnext]; rfl)
    (Nat.pow_le_pow_right (by omega) (by omega)) (le_trans (Nat.pow_le_pow_right (by omega) hext) (by norm_num)) hw1 hw hzi hlen hbase hfd hfp hfc hσt hno
    (fun i hi ins hins r hr h1 h2 v hv => leafE hB hL hlit hD hout hi (hσ i) h1 h2 (hlf ins hins r hr h1).1 (hlf ins hins r hr h1).2.1 hv)
    (fun i hi => by
      obtain ⟨σ', v, h1, h2, h3⟩ := hval i hi
      refine ⟨σ', h1, fun c hS hA => ?_⟩
      obtain ⟨w, w1, w2⟩ := hS.un false id v hoid h2
      obtain ⟨ws, w', g1, g2, g3⟩ := h3 c hA w w2
      refine ⟨w :: ws, w', ?_, g2, g3⟩
      rw [hfs, List.mapM_cons]
      show (meaning algF3 s .ns2 (2 ^ (R.nb + R.ext)) (2 ^ R.ext) c i { ty := .tmp, id := em false id }).bind _ = _
      have : meaning algF3 s .ns2 (2 ^ (R.nb + R.ext)) (2 ^ R.ext) c i { ty := .tmp, id := em false id } = some w := w1
      rw [this, Option.bind_some]
      show (extra.mapM (meaning algF3 s .ns2 (2 ^ (R.nb + R.ext)) (2 ^ R.ext) c i)).bind _ = _
      rw [g1]
      rfl)
    (fun ins hins r hr h1 h2 defd => by
      obtain ⟨v, hv⟩ := hread 0 hpos ins hins r hr h1 h2
      obtain ⟨l1, -, l3, l4⟩ := hlf ins hins r hr h1
      exact srcE hL hdom hwx hsec hconst hout hall (hσ 0) h1 h2 l1 l3 l4 hv defd)
    (fun σ' hex defd hdefd r hr => by
      rw [hfs] at hr
      rcases List.mem_cons.mp hr with rfl | hr
      · obtain ⟨σ'', v, h1, h2, -⟩ := hval 0 hpos
        rw [hex] at h1
        obtain rfl := Option.some.inj h1
        exact hdefd false id v hoid h2
      · unfold Interp.SrcOk
        simp only [hextra r hr])

end par

end

end Verif.Stage
