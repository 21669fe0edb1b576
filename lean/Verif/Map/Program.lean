import Verif.Map.Blocks

/-!
# From expressions to columns

`pil_code_gen`, `build_code`, `fix_prover_code`, `compile_code` and `calculate_exps` together: running the program generated for a list
of expressions on the prover's buffers leaves the value of every requested expression in its column, at every row, and changes nothing
but the columns of expressions.
-/
namespace Verif.Map
open Verif.Codegen
open Verif.Codegen.Spec (Store readN exec Val ExpVal)
open Verif.Interp (Dom Sec Info algF3)
open Verif.Interp.Spec (Col rowOf meaning nodeCol)
open Verif.Ext3 (F3G K)
open Verif.Stark (fieldOps)
open Verif.GL (F)

noncomputable section

/-- the buffers with `n` new temporaries (`calculate_exps` starts like this, interpreter.rs) -/
def withTmp (c : Interp.Ctx F3G F) (n : Nat) : Interp.Ctx F3G F := { c with mem := Function.update c.mem .tmp (List.replicate n Ext3.ZERO) }

/-- The columns of the expressions lie inside the buffers and do not overlap; `T` is their dimension. -/
structure PlaceOk (L : Lay) (T : Nat → Nat) (m : Sec → List F3G) : Prop where
  tgtTy : ∀ id t k, L.tgt id = some (t, k) → (t = .cm ∨ t = .tmpExp) ∧ ∃ col, L.col .exp id = some col
  dim : ∀ ty id col, L.col ty id = some col → col.dim = 1 ∨ col.dim = 3
  sec : ∀ ty id col, L.col ty id = some col → col.sec ≠ .tmp
  fit : ∀ ty id col, L.col ty id = some col → col.pos + col.dim ≤ col.width ∧ L.N * col.width ≤ (m col.sec).length
  disj : ∀ ty id col ty' id' col', L.col ty id = some col → L.col ty' id' = some col' → ¬(ty = ty' ∧ id = id') →
    col.sec ≠ col'.sec ∨ (col.width = col'.width ∧ (col.pos + col.dim ≤ col'.pos ∨ col'.pos + col'.dim ≤ col.pos))
  tag : ∀ id col, L.col .exp id = some col → T id = col.dim

/-- The buffers represent the registers `σ0 i` of row `i`: reading a leaf of one of the expressions `R` gives its value, whatever the
columns of expressions contain. -/
def LeavesOk (L : Lay) (exps : List (Expr K)) (R : Bool → Nat → Prop) (tg : Node K → Nat) (c0 : Interp.Ctx F3G F) (σ0 : Store K) (i : Nat) : Prop :=
  ∀ c, Frame L c0 c → ∀ id e p l r, R p id → exps[id]? = some e → HasLabel l e → leafOf 0 p l = some r → r.ty ≠ .exp → ∀ v, readN σ0 r = some v →
    ∃ w, meaning algF3 L.s L.dom L.N L.step c i (fixNode L.tgt L.lit L.em r) = some w ∧ Rel v w (tg r)

/-- the prover's code has no `muladd` and does not read `q` -/
def PlainOps (exps : List (Expr K)) (R : Bool → Nat → Prop) : Prop := ∀ p id e l, R p id → exps[id]? = some e → HasLabel l e → l.op ≠ .muladd ∧ l.op ≠ .q

variable {L : Lay} {T : Nat → Nat} {X : NTy → Nat → Nat → K} {tg : Node K → Nat} {exps : List (Expr K)} {R : Bool → Nat → Prop}

theorem leafOf_q {zero : K} {p : Bool} {l : Label K} {r : Node K} (h : leafOf zero p l = some r) (ho : l.op ≠ .q) : r.ty ≠ .q := by
  unfold leafOf at h
  split at h
  all_goals first
    | contradiction
    | (obtain ⟨i, -, rfl⟩ := Option.map_eq_some_iff.mp h; simp)
    | (cases h; simp)

theorem fixNode_em {tgt : Nat → Option (Interp.NodeTy × Nat)} {lit : K → F3G} {em em' : Bool → Nat → Nat} {r : Node K} (h : r.ty ≠ .exp) :
    fixNode tgt lit em r = fixNode tgt lit em' r := by
  unfold fixNode
  split
  · contradiction
  · rfl
  · rfl

/-- The program generated for the expressions `reqs`, rewritten by `fix_prover_code` and run by `calculate_exps` on the first `m` rows of buffers of
`L.N` rows (a chunk of `calculate_exps_parallel`, or all rows). -/
theorem program_part {c : Interp.Ctx F3G F} {σ0 : Nat → Store K} {fuel t n m nCols tU : Nat} {pre : List (Bool × Nat)} {reqs : List Req} {ctx : Codegen.Ctx K}
    {out : List (Interp.Instr F3G)}
    -- the program
    (hgen : genAll 0 exps fuel reqs ⟨t, [], pre⟩ = some ctx) (hfix : fixProverCode L.tgt nCols L.lit ctx.tmpUsed (linearCode ctx) = some (out, tU)) (hn : tU ≤ n)
    (hreqs : ∀ r ∈ reqs, R r.prime r.id ∧ r.res = none ∧ r.muladd = false)
    -- the expressions
    (hcl : Closed exps R) (hops : PlainOps exps R) (hdim : DimOk exps R T tg)
    -- the buffers
    (hm : m ≤ L.N) (hpos : 0 < m) (hN : m ≤ Interp.modOf c.nbits c.nbitsExt L.dom)
    (hrow : ∀ i < m, ∀ p, rowOf L.N L.step p i = rowOf (Interp.modOf c.nbits c.nbitsExt L.dom) (Interp.nextOf c.nbits c.nbitsExt L.dom) p i)
    (hplace : PlaceOk L T c.mem) (hfresh : Fresh L X c.mem)
    (hleaf : ∀ i < m, LeavesOk L exps R tg (withTmp c n) (σ0 i) i)
    -- the values
    (hstart : ∀ i < m, Start L X ctx.tmpUsed c (σ0 i) i)
    (hpre : ∀ i < m, ∀ p id, (p, id) ∈ pre → ∃ v, ExpVal (fieldOps K) exps (σ0 i) p id v ∧ σ0 i .exp id p = some v)
    (hval : ∀ i < m, ∀ r ∈ reqs, ∃ d e v, d < fuel ∧ exps[r.id]? = some e ∧ Val (fieldOps K) exps (σ0 i) d r.prime e v)
    (hX : ∀ i < m, ∀ id p v col, R p id → L.col .exp id = some col → ExpVal (fieldOps K) exps (σ0 i) p id v → v = X .exp id (rowOf L.N L.step p i)) :
    ∃ c', Interp.calculateExps algF3 L.s out n L.dom m c = some c' ∧ Frame L (withTmp c n) c' ∧
      KeepsCols L X c.mem c'.mem ∧
      ∀ r ∈ reqs, ∀ col, L.col .exp r.id = some col → ∀ i < m, ∀ v, ExpVal (fieldOps K) exps (σ0 i) r.prime r.id v →
        Hold c'.mem col (rowOf L.N L.step r.prime i) v := by
  obtain ⟨em, hout, htU, hem, hcm⟩ := fixProverCode_spec hfix
  subst hout
  have hprog := ProgOk.all (pre := pre) hdim hcl reqs hreqs hgen ProgOk.nil
  -- the semantics of the generated code, at every row
  have hsem : ∀ i, ∃ σf : Store K, i < m → exec (fieldOps K) (linearCode ctx) (σ0 i) = some σf ∧ (ctx.code.map fun c => (c.prime, c.expId)).Nodup ∧
      (∀ p id, (p, id) ∈ ctx.calculated → ∃ v, ExpVal (fieldOps K) exps (σ0 i) p id v ∧ σf .exp id p = some v) ∧ ∀ r ∈ reqs, (r.prime, r.id) ∈ ctx.calculated := by
    intro i
    by_cases hi : i < m
    · have hI : Inv (fieldOps K) exps (σ0 i) pre [] t ⟨t, [], pre⟩ (σ0 i) :=
        ⟨rfl, fun _ _ _ _ _ _ => rfl, hpre i hi, fun p id h => .inl h, by simp, by simp, by simp, by simp, le_refl _⟩
      obtain ⟨ctx', σf, U, h1, h2, -, h4, -, -⟩ := genAll_inv (K := fieldOps K) reqs [] _ _ hI (fun r hr h => by rw [(hreqs r hr).2.2] at h; cases h) (hval i hi)
        (fun r hr i hi => by rw [(hreqs r hr).2.1] at hi; cases hi) (by
          have : reqs.filterMap Req.res = [] := by
            rw [List.filterMap_eq_nil_iff]
            exact fun r hr => (hreqs r hr).2.1
          rw [this]; simp)
      have e : ctx' = ctx := by
        have h1' : genAll 0 exps fuel reqs ⟨t, [], pre⟩ = some ctx' := h1
        rw [hgen] at h1'
        exact (Option.some.inj h1').symm
      subst e
      exact ⟨σf, fun _ => ⟨trace_exec h2.trace, h2.nodup, h2.known, h4⟩⟩
    · exact ⟨σ0 i, fun h => absurd h hi⟩
  choose σf hσ using hsem
  -- the layout, with the temporaries of `fix_prover_code`
  let L' : Lay := { L with em := em }
  have hcol : ∀ ty id, L'.col ty id = L.col ty id := fun ty id => rfl
  let Occ : Bool → Nat → Prop := fun p id => ∃ ins ∈ linearCode ctx, ∃ r ∈ ins.dest :: ins.src, r.ty = .exp ∧ L.tgt r.id = none ∧ r.prime = p ∧ r.id = id
  have hsecmem : ∀ s : Sec, s ≠ .tmp → (withTmp c n).mem s = c.mem s := fun s hs => Function.update_of_ne hs _ _
  have htmplen : ((withTmp c n).mem .tmp).length = n := by
    show (Function.update c.mem .tmp (List.replicate n Ext3.ZERO) .tmp).length = n
    rw [Function.update_self, List.length_replicate]
  have hcell : ∀ ty id col, L.col ty id = some col → (withTmp c n).mem col.sec = c.mem col.sec := fun ty id col h => hsecmem _ (hplace.sec _ _ _ h)
  have hhold : ∀ ty id col r v, L.col ty id = some col → (Hold (withTmp c n).mem col r v ↔ Hold c.mem col r v) := by
    intro ty id col r v h
    unfold Hold
    rw [hcell _ _ _ h]
  have hL : LayOk L' T ctx.tmpUsed tU Occ (withTmp c n).mem := by
    refine ⟨hplace.tgtTy, hplace.dim, hplace.sec, fun ty id col h => ?_, hplace.disj, hplace.tag, by rw [htmplen]; exact hn, htU, ?_, ?_⟩
    · rw [hcell _ _ _ h]
      exact hplace.fit ty id col h
    · rintro p id ⟨ins, hi, r, hr, h1, h2, rfl, rfl⟩
      have := hem ins hi r hr h1 h2
      exact ⟨this.1, this.2.1⟩
    · rintro p id p' id' ⟨ins, hi, r, hr, h1, h2, rfl, rfl⟩ ⟨ins', hi', r', hr', h1', h2', rfl, rfl⟩ he
      exact (hem ins hi r hr h1 h2).2.2 ins' hi' r' hr' h1' h2' he
  have hinsok : ∀ ins ∈ linearCode ctx, InsOk L' ctx.tmpUsed Occ ins := by
    intro ins hi
    refine ⟨fun ho => ?_, fun s hs => ?_, ?_⟩
    · obtain ⟨p, id, e, l, h1, h2, h3, h4⟩ := hprog.op ins hi ho
      exact (hops p id e l h1 h2 h3).1 h4
    · have hocc : s.ty = .exp → L'.tgt s.id = none → Occ s.prime s.id := fun h1 h2 => ⟨ins, hi, s, by simp [hs], h1, h2, rfl, rfl⟩
      rcases hprog.src ins hi s hs with ⟨h1, h2, h3⟩ | ⟨id, e, p, h1, h2, e', he', l, h4, h5⟩
      · exact ⟨by rw [h1]; decide, by rw [h1]; decide, fun _ => ⟨h2, h3⟩, hocc⟩
      · rw [List.mem_singleton] at he'
        subst he'
        have := leafOf_ty h5
        exact ⟨this.2, leafOf_q h5 (hops p id _ l h1 h2 h4).2, fun h => absurd h this.1, hocc⟩
    · rcases hprog.dest ins hi with ⟨h1, h2, h3⟩ | ⟨h1, -⟩
      · exact .inl ⟨h1, h2, h3⟩
      · exact .inr (.inl ⟨h1, fun h2 => ⟨ins, hi, ins.dest, by simp, h1, h2, rfl, rfl⟩⟩)
  have honce : Once (linearCode ctx) := once_of_nodup _ hprog.blocks (hσ 0 hpos).2.1
  obtain ⟨c', g1, g2, g3, g4⟩ := calculate_part (L := L') (m := m) (X := X) (tg := tg) (T := T) (t0 := ctx.tmpUsed) (t1 := tU) (Occ := Occ) (c0 := withTmp c n) (c := c) (tmpUsed := n)
    (σ0 := σ0) (σf := σf) (code := linearCode ctx) (τ := fun _ => 0) rfl hm hpos hN hrow hL
    (by
      intro ty id col h r hr
      rcases hfresh ty id col h r hr with hb | hh
      · refine .inl ?_
        unfold Blank at hb ⊢
        rw [hcell _ _ _ h]
        exact hb
      · exact .inr ((hhold _ _ _ _ _ h).mpr hh))
    hinsok honce (hprog.tagged _)
    (by
      intro i hi d hd ins hins s hs h1 h2 v hv
      rcases hprog.src ins hins s hs with ⟨h3, -⟩ | ⟨id, e, p, h3, h4, e', he', l, h5, h6⟩
      · exact absurd h3 h1
      · rw [List.mem_singleton] at he'
        subst he'
        obtain ⟨w, hw, hr⟩ := hleaf i hi d ⟨hd.nbits, hd.nbitsExt, hd.xXi, hd.xWXi, hd.Zi, hd.len, hd.cells⟩ id _ p l s h3 h4 h5 h6 h2 v hv
        refine ⟨w, ?_, hr⟩
        rw [fixNode_em (em' := L.em) h2]
        exact hw)
    (fun i hi => ⟨(hstart i hi).tmp, (hstart i hi).un, fun ty id p v col h hv => by
      obtain ⟨a, b⟩ := (hstart i hi).reg ty id p v col h hv
      exact ⟨(hhold _ _ _ _ _ h).mpr a, b⟩⟩)
    (fun i hi => (hσ i hi).1)
    (by
      intro i hi ty id p v col h hv
      by_cases hd : ∃ ins ∈ linearCode ctx, ins.dest.ty = ty ∧ ins.dest.id = id ∧ ins.dest.prime = p
      · obtain ⟨ins, hins, e1, e2, e3⟩ := hd
        rcases hprog.dest ins hins with ⟨h1, -⟩ | ⟨h1, h2, h3, -⟩
        · rw [← e1, h1] at h
          cases h
        · have ht : ty = .exp := by rw [← e1, h1]
          subst ht
          rw [e2, e3] at h2 h3
          obtain ⟨v', h4, h5⟩ := (hσ i hi).2.2.1 p id h3
          rw [hv] at h5
          obtain rfl := Option.some.inj h5
          exact hX i hi id p v col h2 h h4
      · rw [exec_keep _ _ _ (hσ i hi).1 ty id p fun ins hins hh => hd ⟨ins, hins, hh⟩] at hv
        exact ((hstart i hi).reg ty id p v col h hv).2)
  refine ⟨c', g1, ⟨g2.nbits, g2.nbitsExt, g2.xXi, g2.xWXi, g2.Zi, g2.len, g2.cells⟩, fun ty id col r h hr => ?_, ?_⟩
  · rcases g3 ty id col r h hr with hs | hh
    · refine .inl fun j hj => (hs j hj).trans ?_
      rw [hcell _ _ _ h]
    · exact .inr hh
  intro r hr col h i hi v hv
  obtain ⟨v', h1, h2⟩ := (hσ i hi).2.2.1 r.prime r.id ((hσ i hi).2.2.2 r hr)
  rw [expVal_unique hv h1]
  exact g4 i hi .exp r.id r.prime v' col h h2

/-- **C97** The program generated for the expressions `reqs`, rewritten by `fix_prover_code` and run by `calculate_exps` on all rows. -/
theorem program_spec {c : Interp.Ctx F3G F} {σ0 : Nat → Store K} {fuel t n nCols tU : Nat} {pre : List (Bool × Nat)} {reqs : List Req} {ctx : Codegen.Ctx K}
    {out : List (Interp.Instr F3G)}
    -- the program
    (hgen : genAll 0 exps fuel reqs ⟨t, [], pre⟩ = some ctx) (hfix : fixProverCode L.tgt nCols L.lit ctx.tmpUsed (linearCode ctx) = some (out, tU)) (hn : tU ≤ n)
    (hreqs : ∀ r ∈ reqs, R r.prime r.id ∧ r.res = none ∧ r.muladd = false)
    -- the expressions
    (hcl : Closed exps R) (hops : PlainOps exps R) (hdim : DimOk exps R T tg)
    -- the buffers
    (hN : L.N = Interp.modOf c.nbits c.nbitsExt L.dom) (hstep : L.step = Interp.nextOf c.nbits c.nbitsExt L.dom) (hpos : 0 < L.N)
    (hplace : PlaceOk L T c.mem) (hfresh : Fresh L X c.mem)
    (hleaf : ∀ i < L.N, LeavesOk L exps R tg (withTmp c n) (σ0 i) i)
    -- the values
    (hstart : ∀ i < L.N, Start L X ctx.tmpUsed c (σ0 i) i)
    (hpre : ∀ i < L.N, ∀ p id, (p, id) ∈ pre → ∃ v, ExpVal (fieldOps K) exps (σ0 i) p id v ∧ σ0 i .exp id p = some v)
    (hval : ∀ i < L.N, ∀ r ∈ reqs, ∃ d e v, d < fuel ∧ exps[r.id]? = some e ∧ Val (fieldOps K) exps (σ0 i) d r.prime e v)
    (hX : ∀ i < L.N, ∀ id p v col, R p id → L.col .exp id = some col → ExpVal (fieldOps K) exps (σ0 i) p id v → v = X .exp id (rowOf L.N L.step p i)) :
    ∃ c', Interp.calculateExps algF3 L.s out n L.dom L.N c = some c' ∧ Frame L (withTmp c n) c' ∧
      KeepsCols L X c.mem c'.mem ∧
      ∀ r ∈ reqs, ∀ col, L.col .exp r.id = some col → ∀ i < L.N, ∀ v, ExpVal (fieldOps K) exps (σ0 i) r.prime r.id v →
        Hold c'.mem col (rowOf L.N L.step r.prime i) v :=
  program_part hgen hfix hn hreqs hcl hops hdim (le_refl _) hpos (le_of_eq hN) (fun i _ p => by rw [← hN, ← hstep]) hplace hfresh hleaf hstart hpre hval hX

end

end Verif.Map
