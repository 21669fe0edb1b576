import Verif.Map.Model
import Verif.Interp.Model
import Verif.Codegen.Spec

/-!
# `fix_prover_code`: references become columns and temporaries (starky/src/starkinfo_map.rs L427-488)

The generated code names the value of an expression by its number (`exp`); the prover stores it in a committed column, in a column of
`tmpexp_n` or in a temporary.  `Node.p`, `Node.exp_id` and `Node.dim` are not read by the interpreter and are left out.
-/
namespace Verif.Map
open Verif.Codegen (NTy IOp)
open Verif.Interp (NodeTy OpTy Dom)

variable {E E' : Type}

/-- `ContextF.exp_map` (the latest entry first) and `ContextF.tmp_used`, starkinfo_codegen.rs L26-31 -/
structure FixSt where
  em : List ((Bool × Nat) × Nat)
  tmpUsed : Nat

/-- where the prover stores expression `id` (L455-464): `im_exps_list` and `im_exp2cm`, the local map `tmpexps` of `map` -/
def tgtOf (imList : List Nat) (im2cm : Nat → Option Nat) (tmpexps : List (Nat × Nat)) (dom : Dom) (id : Nat) : Option (NodeTy × Nat) :=
  if id ∈ imList then (im2cm id).map fun k => (.cm, k)
  else if dom = .n then (tmpexps.lookup id).map fun k => (.tmpExp, k)
  else none

/-- the type of a node that is not changed (L476-479) -/
def sameTy : NTy → NodeTy
  | .tmp => .tmp
  | .exp => .other
  | .cm => .cm
  | .const_ => .const_
  | .q => .q
  | .number => .number
  | .public_ => .public_
  | .challenge => .challenge
  | .eval => .eval
  | .xDivXSubXi => .xDivXSubXi
  | .xDivXSubWXi => .xDivXSubWXi
  | .x => .x
  | .f => .f

/-- `fix_ref`, L443-484: `tgt` is `tgtOf ..`, `nCols` the length of `cm_n`/`cm_2ns` (L446-450), `lit` the parser of numbers -/
def fixRef (tgt : Nat → Option (NodeTy × Nat)) (nCols : Nat) (lit : E → E') (st : FixSt) (r : Codegen.Node E) : Option (Interp.Node E' × FixSt) :=
  match r.ty with
  | .cm => if r.id < nCols then some ({ ty := .cm, id := r.id, prime := r.prime }, st) else none
  | .exp =>
    match tgt r.id with
    | some (t, k) => some ({ ty := t, id := k, prime := r.prime }, st)
    | none =>
      match st.em.lookup (r.prime, r.id) with
      | some t => some ({ ty := .tmp, id := t, prime := r.prime }, st)
      | none => some ({ ty := .tmp, id := st.tmpUsed, prime := r.prime }, ⟨((r.prime, r.id), st.tmpUsed) :: st.em, st.tmpUsed + 1⟩)
  | t => some ({ ty := sameTy t, id := r.id, prime := r.prime, value := r.value.map lit }, st)

/-- the operation of a section; the interpreter has no `muladd` -/
def fixOp : IOp → OpTy
  | .add => .add
  | .sub => .sub
  | .mul => .mul
  | .copy => .copy
  | .muladd => .other

/-- the operands of one section -/
def fixRefs (tgt : Nat → Option (NodeTy × Nat)) (nCols : Nat) (lit : E → E') : FixSt → List (Codegen.Node E) → Option (List (Interp.Node E') × FixSt)
  | st, [] => some ([], st)
  | st, r :: rs => (fixRef tgt nCols lit st r).bind fun a => (fixRefs tgt nCols lit a.2 rs).map fun b => (a.1 :: b.1, b.2)

/-- `iterate_code`, starkinfo_codegen.rs L651-668: for every section first the operands, then the destination (`i` and `last` of a
segment are empty or a copy of `first` that the prover does not run) -/
def fixCode (tgt : Nat → Option (NodeTy × Nat)) (nCols : Nat) (lit : E → E') : FixSt → List (Codegen.Instr E) → Option (List (Interp.Instr E') × FixSt)
  | st, [] => some ([], st)
  | st, c :: cs => (fixRefs tgt nCols lit st c.src).bind fun a => (fixRef tgt nCols lit a.2 c.dest).bind fun d =>
      (fixCode tgt nCols lit d.2 cs).map fun b => (⟨fixOp c.op, d.1, a.1⟩ :: b.1, b.2)

/-- `fix_prover_code`, L427-488: the code and the new `segment.tmp_used` -/
def fixProverCode (tgt : Nat → Option (NodeTy × Nat)) (nCols : Nat) (lit : E → E') (tmpUsed : Nat) (code : List (Codegen.Instr E)) :
    Option (List (Interp.Instr E') × Nat) :=
  (fixCode tgt nCols lit ⟨[], tmpUsed⟩ code).map fun r => (r.1, r.2.tmpUsed)

/-! ### The rewriting as a function -/

/-- Specification: the rewriting of a node when the temporary of an expression that is not stored in a column is known. -/
def fixNode (tgt : Nat → Option (NodeTy × Nat)) (lit : E → E') (em : Bool → Nat → Nat) (r : Codegen.Node E) : Interp.Node E' :=
  match r.ty with
  | .exp =>
    match tgt r.id with
    | some (t, k) => { ty := t, id := k, prime := r.prime }
    | none => { ty := .tmp, id := em r.prime r.id, prime := r.prime }
  | .cm => { ty := .cm, id := r.id, prime := r.prime }
  | t => { ty := sameTy t, id := r.id, prime := r.prime, value := r.value.map lit }

/-- Specification: the rewriting of an instruction. -/
def fixInstr (tgt : Nat → Option (NodeTy × Nat)) (lit : E → E') (em : Bool → Nat → Nat) (c : Codegen.Instr E) : Interp.Instr E' :=
  ⟨fixOp c.op, fixNode tgt lit em c.dest, c.src.map (fixNode tgt lit em)⟩

/-! ### Proofs -/

/-- `a` extends the map `b` -/
structure FixExt (a b : FixSt) : Prop where
  keep : ∀ k t, a.em.lookup k = some t → b.em.lookup k = some t
  le : a.tmpUsed ≤ b.tmpUsed

/-- allocated temporaries are distinct and in the new range -/
structure FixOk (t0 : Nat) (a : FixSt) : Prop where
  range : ∀ k t, a.em.lookup k = some t → t0 ≤ t ∧ t < a.tmpUsed
  inj : ∀ k k' t, a.em.lookup k = some t → a.em.lookup k' = some t → k = k'
  le : t0 ≤ a.tmpUsed

theorem FixExt.refl (a : FixSt) : FixExt a a := ⟨fun _ _ h => h, le_refl _⟩
theorem FixExt.trans {a b c : FixSt} (h : FixExt a b) (h' : FixExt b c) : FixExt a c :=
  ⟨fun k t hk => h'.keep k t (h.keep k t hk), le_trans h.le h'.le⟩

/-- the final map as a function -/
def emOf (st : FixSt) (p : Bool) (id : Nat) : Nat := (st.em.lookup (p, id)).getD 0

variable {tgt : Nat → Option (NodeTy × Nat)} {nCols : Nat} {lit : E → E'} {t0 : Nat}

theorem lookup_cons' {k k' : Bool × Nat} {v : Nat} {l : List ((Bool × Nat) × Nat)} : ((k', v) :: l).lookup k = if k = k' then some v else l.lookup k := by
  rw [List.lookup_cons]
  by_cases h : k = k'
  · simp [h]
  · have : (k == k') = false := by simpa using h
    rw [this, if_neg h]

theorem fixRef_spec {st st' : FixSt} {r : Codegen.Node E} {n : Interp.Node E'} (h : fixRef tgt nCols lit st r = some (n, st')) (hok : FixOk t0 st) :
    FixExt st st' ∧ FixOk t0 st' ∧ (r.ty = .cm → r.id < nCols) ∧
      (r.ty = .exp → tgt r.id = none → ∃ t, st'.em.lookup (r.prime, r.id) = some t) ∧
      ∀ fin, FixExt st' fin → n = fixNode tgt lit (emOf fin) r := by
  unfold fixRef at h
  split at h
  · rename_i hty
    split_ifs at h with hlt
    obtain ⟨rfl, rfl⟩ := Prod.mk.inj (Option.some.inj h)
    refine ⟨.refl _, hok, fun _ => hlt, by simp [hty], fun fin _ => ?_⟩
    unfold fixNode
    simp [hty]
  · rename_i hty
    split at h
    · rename_i t k htgt
      obtain ⟨rfl, rfl⟩ := Prod.mk.inj (Option.some.inj h)
      refine ⟨.refl _, hok, by simp [hty], by simp [htgt], fun fin _ => ?_⟩
      unfold fixNode
      simp [hty, htgt]
    · rename_i htgt
      split at h
      · rename_i t hl
        obtain ⟨rfl, rfl⟩ := Prod.mk.inj (Option.some.inj h)
        refine ⟨.refl _, hok, by simp [hty], fun _ _ => ⟨t, hl⟩, fun fin hf => ?_⟩
        unfold fixNode emOf
        simp [hty, htgt, hf.keep _ _ hl]
      · rename_i hl
        obtain ⟨rfl, rfl⟩ := Prod.mk.inj (Option.some.inj h)
        have hself : (((r.prime, r.id), st.tmpUsed) :: st.em).lookup (r.prime, r.id) = some st.tmpUsed := by rw [lookup_cons', if_pos rfl]
        refine ⟨⟨fun k t hk => ?_, by simp⟩, ⟨fun k t hk => ?_, fun k k' t hk hk' => ?_, ?_⟩, by simp [hty], fun _ _ => ⟨_, hself⟩, fun fin hf => ?_⟩
        · rw [lookup_cons', if_neg]
          · exact hk
          · rintro rfl
            rw [hl] at hk; cases hk
        · dsimp only at hk ⊢
          rw [lookup_cons'] at hk
          split_ifs at hk with hk1
          · obtain rfl := Option.some.inj hk
            exact ⟨hok.le, by omega⟩
          · have := hok.range k t hk
            omega
        · dsimp only at hk hk'
          rw [lookup_cons'] at hk hk'
          split_ifs at hk hk' with h1 h2 h2
          · rw [h1, h2]
          · obtain rfl := Option.some.inj hk
            have := (hok.range _ _ hk').2
            omega
          · obtain rfl := Option.some.inj hk'
            have := (hok.range _ _ hk).2
            omega
          · exact hok.inj k k' t hk hk'
        · dsimp only
          have := hok.le
          omega
        · unfold fixNode emOf
          have h3 := hf.keep _ _ hself
          simp [hty, htgt, h3]
  · rename_i hty1 hty2
    obtain ⟨rfl, rfl⟩ := Prod.mk.inj (Option.some.inj h)
    refine ⟨.refl _, hok, fun h => absurd h hty1, fun h => absurd h hty2, fun fin _ => ?_⟩
    unfold fixNode
    split
    · rename_i h1; exact absurd h1 hty2
    · rename_i h1; exact absurd h1 hty1
    · rfl

theorem fixRefs_spec : ∀ (rs : List (Codegen.Node E)) (st st' : FixSt) (ns : List (Interp.Node E')), fixRefs tgt nCols lit st rs = some (ns, st') →
    FixOk t0 st → FixExt st st' ∧ FixOk t0 st' ∧ (∀ r ∈ rs, r.ty = .cm → r.id < nCols) ∧
      (∀ r ∈ rs, r.ty = .exp → tgt r.id = none → ∃ t, st'.em.lookup (r.prime, r.id) = some t) ∧
      ∀ fin, FixExt st' fin → ns = rs.map (fixNode tgt lit (emOf fin))
  | [], st, st', ns, h, hok => by
    rw [fixRefs] at h
    obtain ⟨rfl, rfl⟩ := Prod.mk.inj (Option.some.inj h)
    exact ⟨.refl _, hok, by simp, by simp, fun _ _ => rfl⟩
  | r :: rs, st, st', ns, h, hok => by
    rw [fixRefs] at h
    obtain ⟨⟨n, s1⟩, h1, h⟩ := Option.bind_eq_some_iff.mp h
    obtain ⟨⟨ns', s2⟩, h2, h⟩ := Option.map_eq_some_iff.mp h
    obtain ⟨rfl, rfl⟩ := Prod.mk.inj h
    obtain ⟨a1, a2, a3, a4, a5⟩ := fixRef_spec h1 hok
    obtain ⟨b1, b2, b3, b4, b5⟩ := fixRefs_spec rs _ _ _ h2 a2
    refine ⟨a1.trans b1, b2, ?_, ?_, fun fin hf => ?_⟩
    · intro x hx
      rcases List.mem_cons.mp hx with rfl | hx
      · exact a3
      · exact b3 x hx
    · intro x hx
      rcases List.mem_cons.mp hx with rfl | hx
      · intro g1 g2
        obtain ⟨t, ht⟩ := a4 g1 g2
        exact ⟨t, b1.keep _ _ ht⟩
      · exact b4 x hx
    · rw [List.map_cons, ← a5 fin (b1.trans hf), ← b5 fin hf]

theorem fixCode_spec : ∀ (cs : List (Codegen.Instr E)) (st st' : FixSt) (is : List (Interp.Instr E')), fixCode tgt nCols lit st cs = some (is, st') →
    FixOk t0 st → FixExt st st' ∧ FixOk t0 st' ∧ (∀ c ∈ cs, ∀ r ∈ c.dest :: c.src, r.ty = .cm → r.id < nCols) ∧
      (∀ c ∈ cs, ∀ r ∈ c.dest :: c.src, r.ty = .exp → tgt r.id = none → ∃ t, st'.em.lookup (r.prime, r.id) = some t) ∧
      ∀ fin, FixExt st' fin → is = cs.map (fixInstr tgt lit (emOf fin))
  | [], st, st', is, h, hok => by
    rw [fixCode] at h
    obtain ⟨rfl, rfl⟩ := Prod.mk.inj (Option.some.inj h)
    exact ⟨.refl _, hok, by simp, by simp, fun _ _ => rfl⟩
  | c :: cs, st, st', is, h, hok => by
    rw [fixCode] at h
    obtain ⟨⟨ns, s1⟩, h1, h⟩ := Option.bind_eq_some_iff.mp h
    obtain ⟨⟨d, s2⟩, h2, h⟩ := Option.bind_eq_some_iff.mp h
    obtain ⟨⟨is', s3⟩, h3, h⟩ := Option.map_eq_some_iff.mp h
    obtain ⟨rfl, rfl⟩ := Prod.mk.inj h
    obtain ⟨a1, a2, a3, a4, a5⟩ := fixRefs_spec _ _ _ _ h1 hok
    obtain ⟨b1, b2, b3, b4, b5⟩ := fixRef_spec h2 a2
    obtain ⟨c1, c2, c3, c4, c5⟩ := fixCode_spec cs _ _ _ h3 b2
    dsimp only at b1 b2 b3 b4 b5 c1 c2 c3 c4 c5
    refine ⟨a1.trans (b1.trans c1), c2, ?_, ?_, fun fin hf => ?_⟩
    · intro x hx r hr
      rcases List.mem_cons.mp hx with rfl | hx
      · rcases List.mem_cons.mp hr with rfl | hr
        · exact b3
        · exact a3 r hr
      · exact c3 x hx r hr
    · intro x hx r hr
      rcases List.mem_cons.mp hx with rfl | hx
      · rcases List.mem_cons.mp hr with rfl | hr
        · intro g1 g2
          obtain ⟨t, ht⟩ := b4 g1 g2
          exact ⟨t, c1.keep _ _ ht⟩
        · intro g1 g2
          obtain ⟨t, ht⟩ := a4 r hr g1 g2
          exact ⟨t, (b1.trans c1).keep _ _ ht⟩
      · exact c4 x hx r hr
    · rw [List.map_cons, ← c5 fin hf]
      congr 1
      unfold fixInstr
      rw [← a5 fin ((b1.trans c1).trans hf), ← b5 fin (c1.trans hf)]

/-- **C96** `fix_prover_code` replaces every reference to an expression that has a column by that column and every other one by a
temporary; the temporaries are new, and two references get the same temporary exactly when they name the same expression at the
same row; nothing else changes. -/
theorem fixProverCode_spec {tmpUsed tmpUsed' : Nat} {code : List (Codegen.Instr E)} {out : List (Interp.Instr E')}
    (h : fixProverCode tgt nCols lit tmpUsed code = some (out, tmpUsed')) :
    ∃ em : Bool → Nat → Nat, out = code.map (fixInstr tgt lit em) ∧ tmpUsed ≤ tmpUsed' ∧
      (∀ c ∈ code, ∀ r ∈ c.dest :: c.src, r.ty = .exp → tgt r.id = none → tmpUsed ≤ em r.prime r.id ∧ em r.prime r.id < tmpUsed' ∧
        ∀ c' ∈ code, ∀ r' ∈ c'.dest :: c'.src, r'.ty = .exp → tgt r'.id = none → em r.prime r.id = em r'.prime r'.id → r.prime = r'.prime ∧ r.id = r'.id) ∧
      ∀ c ∈ code, ∀ r ∈ c.dest :: c.src, r.ty = .cm → r.id < nCols := by
  unfold fixProverCode at h
  obtain ⟨⟨is, st⟩, h1, h⟩ := Option.map_eq_some_iff.mp h
  obtain ⟨rfl, rfl⟩ := Prod.mk.inj h
  obtain ⟨-, a2, a3, a4, a5⟩ := fixCode_spec (t0 := tmpUsed) code _ _ _ h1 ⟨by simp, by simp, le_refl _⟩
  refine ⟨emOf st, a5 st (.refl _), a2.le, fun c hc r hr h1 h2 => ?_, a3⟩
  obtain ⟨t, ht⟩ := a4 c hc r hr h1 h2
  have e : emOf st r.prime r.id = t := by unfold emOf; rw [ht]; rfl
  refine ⟨by rw [e]; exact (a2.range _ _ ht).1, by rw [e]; exact (a2.range _ _ ht).2, fun c' hc' r' hr' h1' h2' he => ?_⟩
  obtain ⟨t', ht'⟩ := a4 c' hc' r' hr' h1' h2'
  have e' : emOf st r'.prime r'.id = t' := by unfold emOf; rw [ht']; rfl
  rw [e, e'] at he
  subst he
  exact Prod.mk.inj (a2.inj _ _ _ ht ht')

/-- It only panics on a column that does not exist. -/
theorem fixProverCode_total {tmpUsed : Nat} {code : List (Codegen.Instr E)} (h : ∀ c ∈ code, ∀ r ∈ c.dest :: c.src, r.ty = .cm → r.id < nCols) :
    ∃ out t, fixProverCode tgt nCols lit tmpUsed code = some (out, t) := by
  have h1 : ∀ (st : FixSt) (r : Codegen.Node E), (r.ty = .cm → r.id < nCols) → ∃ n st', fixRef tgt nCols lit st r = some (n, st') := by
    intro st r hr
    unfold fixRef
    split
    · rename_i hty
      rw [if_pos (hr hty)]
      exact ⟨_, _, rfl⟩
    · split
      · exact ⟨_, _, rfl⟩
      · split <;> exact ⟨_, _, rfl⟩
    · exact ⟨_, _, rfl⟩
  have h2 : ∀ (rs : List (Codegen.Node E)) (st : FixSt), (∀ r ∈ rs, r.ty = .cm → r.id < nCols) → ∃ n st', fixRefs tgt nCols lit st rs = some (n, st') := by
    intro rs
    induction rs with
    | nil => intro st _; exact ⟨_, _, rfl⟩
    | cons r rs ih =>
      intro st hr
      obtain ⟨n, s1, e1⟩ := h1 st r (hr r (by simp))
      obtain ⟨ns, s2, e2⟩ := ih s1 fun x hx => hr x (by simp [hx])
      rw [fixRefs, e1, Option.bind_some, e2]
      exact ⟨_, _, rfl⟩
  have h3 : ∀ (cs : List (Codegen.Instr E)) (st : FixSt), (∀ c ∈ cs, ∀ r ∈ c.dest :: c.src, r.ty = .cm → r.id < nCols) →
      ∃ n st', fixCode tgt nCols lit st cs = some (n, st') := by
    intro cs
    induction cs with
    | nil => intro st _; exact ⟨_, _, rfl⟩
    | cons c cs ih =>
      intro st hr
      obtain ⟨n, s1, e1⟩ := h2 c.src st fun r hx => hr c (by simp) r (by simp [hx])
      obtain ⟨d, s2, e2⟩ := h1 s1 c.dest (hr c (by simp) _ (by simp))
      obtain ⟨is, s3, e3⟩ := ih s2 fun x hx => hr x (by simp [hx])
      rw [fixCode, e1, Option.bind_some, e2, Option.bind_some, e3]
      exact ⟨_, _, rfl⟩
  obtain ⟨is, st, e⟩ := h3 code ⟨[], tmpUsed⟩ h
  exact ⟨is, st.tmpUsed, by unfold fixProverCode; rw [e]; rfl⟩

end Verif.Map
