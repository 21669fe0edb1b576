import Verif.Gadget.OnCodeProps

/-!
# C120: the printed programs of the on-chain circuit compute what the native verifier computes
-/
set_option linter.unusedSectionVars false

namespace Verif.Gadget.OnCode
open Verif.GL (F)
open Verif.Ext3 (K coord)
open Stark Codegen Circom

noncomputable local instance : DecidableEq K := Classical.decEq _

variable {r : Nat} {lit : K → ZMod r} {nCm : Nat → Nat} {ctx : VCtx F K}

/-- the signals of the template the program reads stand for the values the native verifier reads, within `ivLeaf` -/
def LeavesRep (lit : K → ZMod r) (nCm : Nat → Nat) (ctx : VCtx F K) (env : Env (ZMod r)) (code : List (VInstr K)) : Prop :=
  ∀ i ∈ code, ∀ x ∈ i.src, x.ty ≠ .tmp → ∀ v, getRef extK ctx (fun _ => none) x = some v →
    ∃ s w, ref lit nCm x = some s ∧ look env s = some w ∧ leafDim x = some w.size ∧ RV (ivLeaf x.ty).1 (ivLeaf x.ty).2 w v

/-- the temporaries stand for the native temporaries -/
def Inv (env : Env (ZMod r)) (td : Nat → Option Nat) (iv : Nat → Option (Nat × Nat)) (tmp : Nat → Option K) : Prop :=
  ∀ k v, tmp k = some v → ∃ w p, env (.tmp k) = some w ∧ td k = some (Val.size w) ∧ iv k = some p ∧ RV p.1 p.2 w v

theorem opd {env : Env (ZMod r)} {td : Nat → Option Nat} {iv : Nat → Option (Nat × Nat)} {tmp : Nat → Option K} {x : VNode K} {v : K}
    (hs : Inv env td iv tmp) (hl : x.ty ≠ .tmp → ∀ v, getRef extK ctx (fun _ => none) x = some v →
      ∃ s w, ref lit nCm x = some s ∧ look env s = some w ∧ leafDim x = some w.size ∧ RV (ivLeaf x.ty).1 (ivLeaf x.ty).2 w v)
    (h : getRef extK ctx tmp x = some v) : ∃ s w p, Opd lit nCm env td iv x v s w p := by
  by_cases hx : x.ty = .tmp
  · have ht : tmp x.id = some v := by rw [getRef, hx] at h; exact h
    obtain ⟨w, p, h1, h2, h3, h4⟩ := hs _ _ ht
    exact ⟨.tmp x.id, w, p, by rw [getDim, if_pos hx, h2]; rfl, by rw [ref, hx], h1, by rw [ivRef, if_pos hx, h3], h4⟩
  · have h' : getRef extK ctx (fun _ => none) x = some v := by
      unfold getRef at h ⊢
      split at h <;> first | (rename_i h1; exact absurd h1 hx) | skip
      all_goals (rename_i h1; simpa [h1] using h)
    obtain ⟨s, w, h1, h2, h3, h4⟩ := hl hx v h'
    exact ⟨s, w, ivLeaf x.ty, by rw [getDim, if_neg hx, h3]; rfl, h1, h2, by rw [ivRef, if_neg hx], h4⟩

theorem inv_update {env : Env (ZMod r)} {td : Nat → Option Nat} {iv : Nat → Option (Nat × Nat)} {tmp : Nat → Option K}
    (h : Inv env td iv tmp) {d : Nat} {w : Val (ZMod r)} {p : Nat × Nat} {v : K} (hw : env (.tmp d) = some w) (hv : RV p.1 p.2 w v) :
    Inv env (Function.update td d (some w.size)) (Function.update iv d (some p)) (Function.update tmp d (some v)) := by
  intro k x hk
  by_cases hd : k = d
  · subst hd
    rw [Function.update_self] at hk
    obtain rfl := Option.some.inj hk
    exact ⟨w, p, hw, by rw [Function.update_self], by rw [Function.update_self], hv⟩
  · rw [Function.update_of_ne hd] at hk
    rw [Function.update_of_ne hd, Function.update_of_ne hd]
    exact h k x hk

theorem step [Fact r.Prime] (hr : 2 ^ 250 < r) {lim : Nat × Nat} (hl : lim.1 ≤ 2 ^ 50 ∧ lim.2 ≤ 2 ^ 50) {env : Env (ZMod r)}
    {td : Nat → Option Nat} {iv : Nat → Option (Nat × Nat)} {tmp tmp1 : Nat → Option K} {i : VInstr K} (hs : Inv env td iv tmp)
    (hleaf : ∀ x ∈ i.src, x.ty ≠ .tmp → ∀ v, getRef extK ctx (fun _ => none) x = some v →
      ∃ s w, ref lit nCm x = some s ∧ look env s = some w ∧ leafDim x = some w.size ∧ RV (ivLeaf x.ty).1 (ivLeaf x.ty).2 w v)
    (h : vStep extK ctx tmp i = some tmp1) :
    i.dest.ty = .tmp ∧ ∃ v d src', tmp1 = Function.update tmp i.dest.id (some v) ∧ opDims td i.op i.src = some (d, src') ∧
      ∀ x stmt, ivOne lim iv ⟨i.op, { i.dest with dim := d }, src'⟩ = some x →
      unrollOne lit nCm ⟨i.op, { i.dest with dim := d }, src'⟩ = some stmt → stmt.dest = .tmp i.dest.id ∧
      (∀ w, RhsRel env stmt.rhs w → w.size = d ∧ RV x.1 x.2 w v) ∧
      (lim.1 ≤ 16 → lim.2 ≤ 48 → ∃ w, RhsRel env stmt.rhs w ∧ w.isThree = stmt.three) := by
  obtain ⟨vals, h1, h⟩ := Option.bind_eq_some_iff.mp h
  obtain ⟨v, h2, h⟩ := Option.bind_eq_some_iff.mp h
  split_ifs at h with hd
  obtain rfl := Option.some.inj h
  have hsrc : List.Forall₂ (fun x v => ∃ s w p, Opd lit nCm env td iv x v s w p) i.src vals := by
    have : ∀ (l : List (VNode K)) (vs : List K), l.mapM (getRef extK ctx tmp) = some vs → (∀ x ∈ l, x ∈ i.src) →
        List.Forall₂ (fun x v => ∃ s w p, Opd lit nCm env td iv x v s w p) l vs := by
      intro l
      induction l with
      | nil => intro vs hm _; simp at hm; subst hm; exact .nil
      | cons a l ih =>
        intro vs hm hm'
        rw [List.mapM_cons] at hm
        obtain ⟨x, hx, hm⟩ := Option.bind_eq_some_iff.mp hm
        obtain ⟨xs, hxs, hm⟩ := Option.bind_eq_some_iff.mp hm
        obtain rfl := Option.some.inj hm
        exact .cons (opd hs (hleaf a (hm' a (by simp))) hx) (ih xs hxs fun r hr => hm' r (by simp [hr]))
    exact this _ _ h1 fun _ h => h
  obtain ⟨d, src', h3, h4⟩ := step_core hr hl hd hsrc h2
  exact ⟨hd, v, d, src', rfl, h3, h4⟩

/-- every assignment that satisfies the printed statements gives the temporaries the native values -/
theorem run_sound [Fact r.Prime] (hr : 2 ^ 250 < r) {lim : Nat × Nat} (hl : lim.1 ≤ 2 ^ 50 ∧ lim.2 ≤ 2 ^ 50) {env : Env (ZMod r)} :
    ∀ (code : List (VInstr K)) (td : Nat → Option Nat) (iv iv' : Nat → Option (Nat × Nat)) (tmp tmp' : Nat → Option K)
      (code' : List (VInstr K)) (stmts : List (Stmt (ZMod r))), Inv env td iv tmp → LeavesRep lit nCm ctx env code →
      setDims td code = some code' → code'.mapM (unrollOne lit nCm) = some stmts → ivals lim iv code' = some iv' →
      (∀ s ∈ stmts, Sat env s) → code.foldlM (vStep extK ctx) tmp = some tmp' →
      ∃ td', Inv env td' iv' tmp' ∧ (code' = [] → td' = td) ∧ code'.map (fun i => (i.dest.ty, i.dest.id)) = code.map (fun i => (i.dest.ty, i.dest.id)) ∧
        ∀ last ∈ code'.getLast?, td' last.dest.id = some last.dest.dim ∧ last.dest.ty = .tmp
  | [], td, iv, iv', tmp, tmp', code', stmts, hs, _, h1, h2, h3, _, h5 => by
    obtain rfl := Option.some.inj h1
    obtain rfl := Option.some.inj h3
    obtain rfl := Option.some.inj h5
    exact ⟨td, hs, fun _ => rfl, rfl, by simp⟩
  | i :: is, td, iv, iv', tmp, tmp', code', stmts, hs, hleaf, h1, h2, h3, h4, h5 => by
    rw [List.foldlM_cons] at h5
    obtain ⟨tmp1, g1, h5⟩ := Option.bind_eq_some_iff.mp h5
    obtain ⟨hd, v, d, src', rfl, g2, g3⟩ := step hr hl hs (hleaf i (by simp)) g1
    rw [setDims, g2, Option.bind_some, if_pos hd] at h1
    obtain ⟨is', k1, rfl⟩ := Option.map_eq_some_iff.mp h1
    rw [List.mapM_cons] at h2
    obtain ⟨st, k2, h2⟩ := Option.bind_eq_some_iff.mp h2
    obtain ⟨sts, k3, h2⟩ := Option.bind_eq_some_iff.mp h2
    obtain rfl := Option.some.inj h2
    rw [ivals] at h3
    obtain ⟨x, k4, h3⟩ := Option.bind_eq_some_iff.mp h3
    obtain ⟨e1, e2, -⟩ := g3 x st k4 k2
    obtain ⟨w, s1, s2, s3⟩ := h4 st (by simp)
    obtain ⟨w1, w2⟩ := e2 w s1
    rw [e1] at s3
    have hs1 := inv_update hs s3 w2
    rw [w1] at hs1
    obtain ⟨td', t1, t0, t2, t3⟩ := run_sound hr hl is _ _ iv' _ tmp' is' sts hs1 (fun j hj => hleaf j (by simp [hj])) k1 k3 h3
      (fun s hs => h4 s (by simp [hs])) h5
    refine ⟨td', t1, by simp, by simp [t2], ?_⟩
    intro last hlast
    cases is' with
    | nil =>
      obtain rfl := Option.some.inj hlast
      exact ⟨by rw [t0 rfl]; exact Function.update_self .., hd⟩
    | cons j js => exact t3 last (by simpa [List.getLast?_cons_cons] using hlast)

/-! ### Existence of an assignment -/

/-- more signals have values -/
def Le (env env' : Env (ZMod r)) : Prop := ∀ s v, env s = some v → env' s = some v

theorem look_mono {env env' : Env (ZMod r)} (h : Le env env') {s : Sig (ZMod r)} {v : Val (ZMod r)} (hs : look env s = some v) :
    look env' s = some v := by
  cases s <;> first | exact hs | exact h _ _ hs

theorem evalS_mono {env env' : Env (ZMod r)} (h : Le env env') : ∀ {e : SE (ZMod r)} {g : ZMod r}, evalS env e = some g → evalS env' e = some g
  | .sig s, g, he => by
    obtain ⟨v, h1, h2⟩ := Option.bind_eq_some_iff.mp he
    exact Option.bind_eq_some_iff.mpr ⟨v, look_mono h h1, h2⟩
  | .at s k, g, he => by
    obtain ⟨v, h1, h2⟩ := Option.bind_eq_some_iff.mp he
    exact Option.bind_eq_some_iff.mpr ⟨v, look_mono h h1, h2⟩
  | .add a b, g, he => by
    obtain ⟨x, h1, h2⟩ := Option.bind_eq_some_iff.mp he
    obtain ⟨y, h3, rfl⟩ := Option.map_eq_some_iff.mp h2
    rw [evalS, evalS_mono h h1, evalS_mono h h3]
    rfl
  | .sub a b, g, he => by
    obtain ⟨x, h1, h2⟩ := Option.bind_eq_some_iff.mp he
    obtain ⟨y, h3, rfl⟩ := Option.map_eq_some_iff.mp h2
    rw [evalS, evalS_mono h h1, evalS_mono h h3]
    rfl
  | .neg a, g, he => by
    obtain ⟨y, h3, rfl⟩ := Option.map_eq_some_iff.mp he
    rw [evalS, evalS_mono h h3]
    rfl
  | .mul a b, g, he => by
    obtain ⟨x, h1, h2⟩ := Option.bind_eq_some_iff.mp he
    obtain ⟨y, h3, rfl⟩ := Option.map_eq_some_iff.mp h2
    rw [evalS, evalS_mono h h1, evalS_mono h h3]
    rfl

theorem evalArg_mono {env env' : Env (ZMod r)} (h : Le env env') {a : Arg (ZMod r)} {x : ZMod r × ZMod r × ZMod r}
    (ha : evalArg env a = some x) : evalArg env' a = some x := by
  cases a <;>
  · obtain ⟨v, h1, h2⟩ := Option.bind_eq_some_iff.mp ha
    exact Option.bind_eq_some_iff.mpr ⟨v, look_mono h h1, h2⟩

theorem rhsRel_mono {env env' : Env (ZMod r)} (h : Le env env') {e : Rhs (ZMod r)} {v : Val (ZMod r)} (hr : RhsRel env e v) :
    RhsRel env' e v := by
  cases e <;> cases v <;> try exact hr.elim
  · exact evalS_mono h hr
  · exact ⟨evalS_mono h hr.1, evalS_mono h hr.2.1, evalS_mono h hr.2.2⟩
  · exact look_mono h hr
  · obtain ⟨u, v, h1, h2, h3⟩ := hr
    exact ⟨u, v, evalArg_mono h h1, evalArg_mono h h2, h3⟩
  · obtain ⟨u, v, w, h1, h2, h3, h4⟩ := hr
    exact ⟨u, v, w, evalArg_mono h h1, evalArg_mono h h2, evalArg_mono h h3, h4⟩
  · obtain ⟨u, v, w, h1, h2, h3, h4⟩ := hr
    exact ⟨u, v, w, look_mono h h1, look_mono h h2, look_mono h h3, h4⟩

theorem sat_mono {env env' : Env (ZMod r)} (h : Le env env') {s : Stmt (ZMod r)} (hs : Sat env s) : Sat env' s := by
  obtain ⟨v, h1, h2, h3⟩ := hs
  exact ⟨v, rhsRel_mono h h1, h2, h _ _ h3⟩

theorem leaves_mono {env env' : Env (ZMod r)} (h : Le env env') {code : List (VInstr K)} (hl : LeavesRep lit nCm ctx env code) :
    LeavesRep lit nCm ctx env' code := by
  intro i hi x hx ht v hv
  obtain ⟨s, w, h1, h2, h3, h4⟩ := hl i hi x hx ht v hv
  exact ⟨s, w, h1, look_mono h h2, h3, h4⟩

theorem inv_mono {env env' : Env (ZMod r)} (h : Le env env') {td : Nat → Option Nat} {iv : Nat → Option (Nat × Nat)}
    {tmp : Nat → Option K} (hi : Inv env td iv tmp) : Inv env' td iv tmp := by
  intro k v hk
  obtain ⟨w, p, h1, h2⟩ := hi k v hk
  exact ⟨w, p, h _ _ h1, h2⟩

theorem run_complete [Fact r.Prime] (hr : 2 ^ 250 < r) {lim : Nat × Nat} (hl : lim.1 ≤ 16 ∧ lim.2 ≤ 48) :
    ∀ (code : List (VInstr K)) (env : Env (ZMod r)) (td : Nat → Option Nat) (iv iv' : Nat → Option (Nat × Nat))
      (tmp tmp' : Nat → Option K) (code' : List (VInstr K)) (stmts : List (Stmt (ZMod r))), Inv env td iv tmp →
      (∀ k, tmp k = none → env (.tmp k) = none) → LeavesRep lit nCm ctx env code →
      (∀ i ∈ code, tmp i.dest.id = none) → (code.map fun i => i.dest.id).Nodup →
      setDims td code = some code' → code'.mapM (unrollOne lit nCm) = some stmts → ivals lim iv code' = some iv' →
      code.foldlM (vStep extK ctx) tmp = some tmp' →
      ∃ env', Le env env' ∧ (∀ s, (∀ i, s ≠ .tmp i) → env' s = env s) ∧ ∀ s ∈ stmts, Sat env' s
  | [], env, td, iv, iv', tmp, tmp', code', stmts, _, _, _, _, _, h1, h2, _, _ => by
    obtain rfl := Option.some.inj h1
    obtain rfl : [] = stmts := Option.some.inj h2
    exact ⟨env, fun _ _ h => h, fun _ _ => rfl, by simp⟩
  | i :: is, env, td, iv, iv', tmp, tmp', code', stmts, hs, hn, hleaf, hf, hnd, h1, h2, h3, h5 => by
    rw [List.foldlM_cons] at h5
    obtain ⟨tmp1, g1, h5⟩ := Option.bind_eq_some_iff.mp h5
    obtain ⟨hd, v, d, src', rfl, g2, g3⟩ := step (lim := lim) hr (by omega) hs (hleaf i (by simp)) g1
    rw [setDims, g2, Option.bind_some, if_pos hd] at h1
    obtain ⟨is', k1, rfl⟩ := Option.map_eq_some_iff.mp h1
    rw [List.mapM_cons] at h2
    obtain ⟨st, k2, h2⟩ := Option.bind_eq_some_iff.mp h2
    obtain ⟨sts, k3, h2⟩ := Option.bind_eq_some_iff.mp h2
    obtain rfl := Option.some.inj h2
    rw [ivals] at h3
    obtain ⟨x, k4, h3⟩ := Option.bind_eq_some_iff.mp h3
    obtain ⟨e1, e2, e3⟩ := g3 x st k4 k2
    obtain ⟨w, w1, w2⟩ := e3 hl.1 hl.2
    obtain ⟨w3, w4⟩ := e2 w w1
    rw [List.map_cons, List.nodup_cons] at hnd
    have hfresh := hn _ (hf i (by simp))
    set env1 : Env (ZMod r) := Function.update env (.tmp i.dest.id) (some w) with henv1
    have hle : Le env env1 := by
      intro s u hu
      by_cases hsd : s = .tmp i.dest.id
      · subst hsd
        rw [hfresh] at hu
        cases hu
      · rw [henv1, Function.update_of_ne hsd, hu]
    have hat : env1 (.tmp i.dest.id) = some w := Function.update_self ..
    have hs1 := inv_update (inv_mono hle hs) hat w4
    rw [w3] at hs1
    obtain ⟨env', t1, t2, t3⟩ := run_complete hr hl is env1 _ _ iv' _ tmp' is' sts hs1
      (fun k hk => by
        by_cases hkd : k = i.dest.id
        · subst hkd; rw [Function.update_self] at hk; cases hk
        · rw [Function.update_of_ne hkd] at hk
          rw [henv1, Function.update_of_ne (by simpa using hkd)]
          exact hn k hk)
      (leaves_mono hle fun j hj => hleaf j (by simp [hj]))
      (fun j hj => by
        have : j.dest.id ≠ i.dest.id := fun e => hnd.1 (e ▸ List.mem_map_of_mem hj)
        rw [Function.update_of_ne this]
        exact hf j (by simp [hj]))
      hnd.2 k1 k3 h3 h5
    refine ⟨env', fun s u hu => t1 s u (hle s u hu), fun s hsn => ?_, ?_⟩
    · rw [t2 s hsn, henv1, Function.update_of_ne (hsn _)]
    · intro s hsm
      rcases List.mem_cons.mp hsm with rfl | hsm
      · exact sat_mono t1 ⟨w, rhsRel_mono hle w1, w2, by rw [e1]; exact hat⟩
      · exact t3 s hsm

/-! ### C120 -/

/-- every assignment of the signals that satisfies the printed statements gives the result the value the native verifier computes,
whenever the unreduced values stay below 2^50 p at multiplications -/
theorem onCode_sound [Fact r.Prime] (hr : 2 ^ 250 < r) {code code' : List (VInstr K)} {stmts : List (Stmt (ZMod r))} {out : Sig (ZMod r)}
    {iv : Nat → Option (Nat × Nat)} {v : K} {env : Env (ZMod r)} (hd : setDims (fun _ => none) code = some code')
    (hu : unrollCode lit nCm code' = some (stmts, out)) (hi : ivals (2 ^ 50, 2 ^ 50) (fun _ => none) code' = some iv)
    (hleaf : LeavesRep lit nCm ctx env code) (hs : ∀ s ∈ stmts, Sat env s) (hx : executeCode extK ctx code = some v) :
    ∃ last w p, code'.getLast? = some last ∧ env out = some w ∧ w.size = last.dest.dim ∧ iv last.dest.id = some p ∧ RV p.1 p.2 w v := by
  obtain ⟨last0, l1, hx⟩ := Option.bind_eq_some_iff.mp hx
  obtain ⟨tmp, l2, hx⟩ := Option.bind_eq_some_iff.mp hx
  obtain ⟨stmts', u1, hu⟩ := Option.bind_eq_some_iff.mp hu
  obtain ⟨last, u2, hu⟩ := Option.bind_eq_some_iff.mp hu
  obtain ⟨s, u3, hu⟩ := Option.map_eq_some_iff.mp hu
  obtain ⟨rfl, rfl⟩ := Prod.mk.inj hu
  obtain ⟨td', t1, -, t2, t3⟩ := run_sound hr (lim := (2 ^ 50, 2 ^ 50)) ⟨le_rfl, le_rfl⟩ code _ _ iv _ tmp code' stmts'
    (env := env) (fun k v h => by cases h) hleaf hd u1 hi hs l2
  obtain ⟨t4, t5⟩ := t3 last u2
  have h0 : (last0.dest.ty, last0.dest.id) = (last.dest.ty, last.dest.id) := by
    have := congrArg List.getLast? t2
    rw [List.getLast?_map, List.getLast?_map, u2, l1] at this
    exact (Option.some.inj this).symm
  obtain ⟨h01, h02⟩ := Prod.mk.inj h0
  have hv : tmp last.dest.id = some v := by rw [getRef, h01, t5, h02] at hx; exact hx
  obtain ⟨w, p, w1, w2, w3, w4⟩ := t1 _ _ hv
  rw [w2] at t4
  rw [ref, t5] at u3
  obtain rfl := Option.some.inj u3
  exact ⟨last, w, p, u2, w1, Option.some.inj t4, w3, w4⟩

/-- the printed statements can be satisfied, whenever the unreduced values stay within `[-16p, 48p)` at multiplications -/
theorem onCode_complete [Fact r.Prime] (hr : 2 ^ 250 < r) {code code' : List (VInstr K)} {stmts : List (Stmt (ZMod r))}
    {out : Sig (ZMod r)} {iv : Nat → Option (Nat × Nat)} {v : K} {env : Env (ZMod r)} (hd : setDims (fun _ => none) code = some code')
    (hu : unrollCode lit nCm code' = some (stmts, out)) (hi : ivals (16, 48) (fun _ => none) code' = some iv)
    (hleaf : LeavesRep lit nCm ctx env code) (h0 : ∀ k, env (.tmp k) = none) (hn : (code.map fun i => i.dest.id).Nodup)
    (hx : executeCode extK ctx code = some v) :
    ∃ env', (∀ s, (∀ i, s ≠ .tmp i) → env' s = env s) ∧ ∀ s ∈ stmts, Sat env' s := by
  obtain ⟨last0, l1, hx⟩ := Option.bind_eq_some_iff.mp hx
  obtain ⟨tmp, l2, hx⟩ := Option.bind_eq_some_iff.mp hx
  obtain ⟨stmts', u1, hu⟩ := Option.bind_eq_some_iff.mp hu
  obtain ⟨last, u2, hu⟩ := Option.bind_eq_some_iff.mp hu
  obtain ⟨s, u3, hu⟩ := Option.map_eq_some_iff.mp hu
  obtain ⟨rfl, rfl⟩ := Prod.mk.inj hu
  obtain ⟨env', t1, t2, t3⟩ := run_complete hr (lim := (16, 48)) ⟨le_rfl, le_rfl⟩ code env _ _ iv _ tmp code' stmts'
    (fun k v h => by cases h) (fun k _ => h0 k) hleaf (fun _ _ => rfl) hn hd u1 hi l2
  exact ⟨env', t2, t3⟩

/-- narrower limits at multiplications are limits -/
theorem ivals_mono {lim lim' : Nat × Nat} (h1 : lim.1 ≤ lim'.1) (h2 : lim.2 ≤ lim'.2) : ∀ {code : List (VInstr K)}
    {iv iv' : Nat → Option (Nat × Nat)}, ivals lim iv code = some iv' → ivals lim' iv code = some iv'
  | [], iv, iv', h => h
  | i :: is, iv, iv', h => by
    rw [ivals] at h ⊢
    obtain ⟨x, hx, h⟩ := Option.bind_eq_some_iff.mp h
    have : ivOne lim' iv i = some x := by
      revert hx
      unfold ivOne
      split <;> try exact id
      · intro hx
        obtain ⟨a, ha, hx⟩ := Option.bind_eq_some_iff.mp hx
        obtain ⟨b, hb, hx⟩ := Option.bind_eq_some_iff.mp hx
        split_ifs at hx with hc
        rw [ha, Option.bind_some, hb, Option.bind_some, if_pos (by omega), hx]
      · intro hx
        obtain ⟨a, ha, hx⟩ := Option.bind_eq_some_iff.mp hx
        obtain ⟨b, hb, hx⟩ := Option.bind_eq_some_iff.mp hx
        obtain ⟨c, hc, hx⟩ := Option.bind_eq_some_iff.mp hx
        split_ifs at hx with hcc
        obtain ⟨q1, q2, q3, q4, q5, q6, q7⟩ := hcc
        rw [ha, Option.bind_some, hb, Option.bind_some, hc, Option.bind_some,
          if_pos ⟨by omega, by omega, by omega, by omega, by omega, by omega, q7⟩, hx]
    rw [this, Option.bind_some]
    exact ivals_mono h1 h2 h

end Verif.Gadget.OnCode
