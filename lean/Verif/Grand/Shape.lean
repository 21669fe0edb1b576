import Verif.Grand.Sem

/-!
# What the generation appends
-/
set_option linter.unusedSectionVars false

namespace Verif.Grand
open Codegen Codegen.Spec Stark

variable {A : Type} [One A]

/-- the second state extends the first -/
def Ext (st st' : PilSt A) : Prop := st.exps <+: st'.exps ∧ st.ids <+: st'.ids

theorem Ext.refl (st : PilSt A) : Ext st st := ⟨List.prefix_refl _, List.prefix_refl _⟩
theorem Ext.trans {a b c : PilSt A} (h : Ext a b) (h' : Ext b c) : Ext a c := ⟨h.1.trans h'.1, h.2.trans h'.2⟩

theorem Ext.exp {st st' : PilSt A} (h : Ext st st') {i : Nat} {e : Expr A} (he : st.exps[i]? = some e) : st'.exps[i]? = some e := by
  obtain ⟨m, hm⟩ := h.1
  rw [← hm, List.getElem?_append_left (List.getElem?_eq_some_iff.mp he).1]
  exact he

theorem Ext.id {st st' : PilSt A} (h : Ext st st') {i : Nat} (hi : i ∈ st.ids) : i ∈ st'.ids := h.2.subset hi

/-- the loop: every iteration is found back in the result, and its state is extended to the final one -/
theorem runAll_spec {X Y : Type} {one : PilSt A → X → Option (PilSt A × Y)} {k : Nat}
    (h1 : ∀ st x st1 y, one st x = some (st1, y) → Ext st st1 ∧ st1.nCm = st.nCm + k) :
    ∀ (xs : List X) (st st' : PilSt A) (ys : List Y), runAll one st xs = some (st', ys) →
      Ext st st' ∧ st'.nCm = st.nCm + k * xs.length ∧ ys.length = xs.length ∧
      ∀ n x, xs[n]? = some x → ∃ sn s1 y, one sn x = some (s1, y) ∧ Ext st sn ∧ Ext s1 st' ∧ sn.nCm = st.nCm + k * n ∧ ys[n]? = some y
  | [], st, st', ys, h => by
    simp only [runAll, Option.some.injEq, Prod.mk.injEq] at h
    obtain ⟨rfl, rfl⟩ := h
    exact ⟨Ext.refl _, by simp, rfl, by simp⟩
  | x :: xs, st, st', ys, h => by
    rw [runAll] at h
    obtain ⟨⟨s1, y⟩, ha, h⟩ := Option.bind_eq_some_iff.mp h
    obtain ⟨⟨s2, ys2⟩, hb, h⟩ := Option.map_eq_some_iff.mp h
    obtain ⟨rfl, rfl⟩ := Prod.mk.inj h
    obtain ⟨g1, g2⟩ := h1 _ _ _ _ ha
    obtain ⟨i1, i2, i3, i4⟩ := runAll_spec h1 xs s1 s2 ys2 hb
    refine ⟨g1.trans i1, ?_, by simp [i3], ?_⟩
    · rw [i2, g2, List.length_cons]; ring
    · intro n x' hx
      cases n with
      | zero =>
        simp only [List.getElem?_cons_zero, Option.some.injEq] at hx
        subst hx
        exact ⟨st, s1, y, ha, Ext.refl _, i1, by simp, by simp⟩
      | succ n =>
        rw [List.getElem?_cons_succ] at hx
        obtain ⟨sn, t1, y', j1, j2, j3, j4, j5⟩ := i4 n x' hx
        refine ⟨sn, t1, y', j1, g1.trans j2, j3, ?_, by simpa using j5⟩
        rw [j4, g2]; ring

theorem step2One_ext (st : PilSt A) (pi : LookupId) (st1 : PilSt A) (y : PCtx) (h : some (step2One st pi) = some (st1, y)) :
    Ext st st1 ∧ st1.nCm = st.nCm + 2 := by
  simp only [step2One, Option.some.injEq, Prod.mk.injEq] at h
  obtain ⟨rfl, rfl⟩ := h
  exact ⟨⟨List.prefix_append _ _, List.prefix_refl _⟩, rfl⟩

theorem permLCOne_ext (st : PilSt A) (pi : LookupId) (st1 : PilSt A) (y : PCtx) (h : permLCOne st pi = some (st1, y)) :
    Ext st st1 ∧ st1.nCm = st.nCm + 0 := by
  unfold permLCOne at h
  dsimp only at h
  split_ifs at h
  simp only [Option.some.injEq, Prod.mk.injEq] at h
  obtain ⟨rfl, rfl⟩ := h
  exact ⟨⟨List.prefix_append _ _, List.prefix_refl _⟩, rfl⟩

theorem plookupZOne_ext (l1 : Option Nat) (st : PilSt A) (c : PCtx) (st1 : PilSt A) (y : PCtx) (h : plookupZOne l1 st c = some (st1, y)) :
    Ext st st1 ∧ st1.nCm = st.nCm + 1 := by
  obtain ⟨l, _, h⟩ := Option.map_eq_some_iff.mp h
  simp only [Prod.mk.injEq] at h
  obtain ⟨rfl, rfl⟩ := h
  exact ⟨⟨List.prefix_append _ _, List.prefix_append _ _⟩, rfl⟩

theorem permZOne_ext (l1 : Option Nat) (st : PilSt A) (c : PCtx) (st1 : PilSt A) (y : PCtx) (h : permZOne l1 st c = some (st1, y)) :
    Ext st st1 ∧ st1.nCm = st.nCm + 1 := by
  obtain ⟨l, _, h⟩ := Option.map_eq_some_iff.mp h
  simp only [Prod.mk.injEq] at h
  obtain ⟨rfl, rfl⟩ := h
  exact ⟨⟨List.prefix_append _ _, List.prefix_append _ _⟩, rfl⟩

theorem connLoop_ext : ∀ (ps cs : List Nat) (ks : List A) (exps : List (Expr A)) (num den : Nat) (r : List (Expr A) × Nat × Nat),
    connLoop exps num den ps cs ks = some r → exps <+: r.1
  | [], _, _, exps, num, den, r, h => by
    simp only [connLoop, Option.some.injEq] at h
    subst h
    exact List.prefix_refl _
  | p :: ps, c :: cs, k :: ks, exps, num, den, r, h => by
    rw [connLoop] at h
    exact (List.prefix_append _ _).trans (connLoop_ext ps cs ks _ _ _ r h)
  | p :: ps, [], ks, exps, num, den, r, h => by simp [connLoop] at h
  | p :: ps, c :: cs, [], exps, num, den, r, h => by simp [connLoop] at h

theorem connZOne_ext (emb : GL.F → A) (l1 : Option Nat) (st : PilSt A) (ci : ConnId) (st1 : PilSt A) (y : PCtx)
    (h : connZOne emb l1 st ci = some (st1, y)) : Ext st st1 ∧ st1.nCm = st.nCm + 1 := by
  unfold connZOne at h
  split at h
  · obtain ⟨ks, _, h⟩ := Option.bind_eq_some_iff.mp h
    obtain ⟨r, hr, h⟩ := Option.bind_eq_some_iff.mp h
    obtain ⟨l, _, h⟩ := Option.map_eq_some_iff.mp h
    simp only [Prod.mk.injEq] at h
    obtain ⟨rfl, rfl⟩ := h
    exact ⟨⟨((List.prefix_append _ _).trans (connLoop_ext _ _ _ _ _ _ r hr)).trans (List.prefix_append _ _), List.prefix_append _ _⟩, rfl⟩
  · simp at h

/-- `genArgs`, unfolded -/
theorem genArgs_split {emb : GL.F → A} {l1 : Option Nat} {st st' : PilSt A} {a : Args} {cx : ArgCtx} (h : genArgs emb l1 st a = some (st', cx)) :
    ∃ s2 pu sl pe sp se, runAll (fun s p => some (step2One s p)) st a.plookups = some (s2, pu) ∧ runAll permLCOne s2 a.permutations = some (sl, pe) ∧
      runAll (plookupZOne l1) sl pu = some (sp, cx.pu) ∧ runAll (permZOne l1) sp pe = some (se, cx.pe) ∧
      runAll (connZOne emb l1) se a.connections = some (st', cx.ci) := by
  obtain ⟨⟨s2, pu⟩, h1, h⟩ := Option.bind_eq_some_iff.mp h
  obtain ⟨⟨sl, pe⟩, h2, h⟩ := Option.bind_eq_some_iff.mp h
  obtain ⟨⟨sp, pz⟩, h3, h⟩ := Option.bind_eq_some_iff.mp h
  obtain ⟨⟨se, ez⟩, h4, h⟩ := Option.bind_eq_some_iff.mp h
  obtain ⟨⟨sc, cz⟩, h5, h⟩ := Option.map_eq_some_iff.mp h
  simp only [Prod.mk.injEq] at h
  obtain ⟨rfl, rfl⟩ := h
  exact ⟨s2, pu, sl, pe, sp, se, h1, h2, h3, h4, h5⟩

theorem genArgs_ext {emb : GL.F → A} {l1 : Option Nat} {st st' : PilSt A} {a : Args} {cx : ArgCtx} (h : genArgs emb l1 st a = some (st', cx)) :
    Ext st st' ∧ st'.nCm = st.nCm + 2 * a.plookups.length + a.plookups.length + a.permutations.length + a.connections.length := by
  obtain ⟨s2, pu, sl, pe, sp, se, h1, h2, h3, h4, h5⟩ := genArgs_split h
  obtain ⟨a1, a2, a3, _⟩ := runAll_spec step2One_ext _ _ _ _ h1
  obtain ⟨b1, b2, b3, _⟩ := runAll_spec permLCOne_ext _ _ _ _ h2
  obtain ⟨c1, c2, c3, _⟩ := runAll_spec (plookupZOne_ext l1) _ _ _ _ h3
  obtain ⟨d1, d2, d3, _⟩ := runAll_spec (permZOne_ext l1) _ _ _ _ h4
  obtain ⟨e1, e2, e3, _⟩ := runAll_spec (connZOne_ext emb l1) _ _ _ _ h5
  refine ⟨a1.trans (b1.trans (c1.trans (d1.trans e1))), ?_⟩
  rw [e2, d2, c2, b2, a2, a3, b3]
  ring

/-- what is appended for the `n`-th plookup identity -/
theorem genArgs_plookup {emb : GL.F → A} {l1 : Option Nat} {st st' : PilSt A} {a : Args} {cx : ArgCtx} (h : genArgs emb l1 st a = some (st', cx))
    {n : Nat} {pi : LookupId} (hn : a.plookups[n]? = some pi) :
    ∃ l c, l1 = some l ∧ cx.pu[n]? = some c ∧ c.h1 = st.nCm + 2 * n ∧ c.h2 = st.nCm + 2 * n + 1 ∧ c.z = st.nCm + 2 * a.plookups.length + n ∧
      st'.exps[c.tExp]? = some (select (lcT pi.t) eDef pi.selT) ∧ st'.exps[c.fExp]? = some (select (lcF pi.f) (eExp c.tExp) pi.selF) ∧
      st'.exps[c.c1]? = some (zStart l c.z) ∧ st'.exps[c.num]? = some (lookupNum c.fExp c.tExp) ∧
      st'.exps[c.den]? = some (lookupDen c.h1 c.h2) ∧ st'.exps[c.c2]? = some (zStep c.z c.num c.den) ∧ c.c1 ∈ st'.ids ∧ c.c2 ∈ st'.ids := by
  obtain ⟨s2, pu, sl, pe, sp, se, h1, h2, h3, h4, h5⟩ := genArgs_split h
  obtain ⟨a1, a2, a3, a4⟩ := runAll_spec step2One_ext _ _ _ _ h1
  obtain ⟨b1, b2, b3, _⟩ := runAll_spec permLCOne_ext _ _ _ _ h2
  obtain ⟨c1, c2, c3, c4⟩ := runAll_spec (plookupZOne_ext l1) _ _ _ _ h3
  obtain ⟨d1, _, _, _⟩ := runAll_spec (permZOne_ext l1) _ _ _ _ h4
  obtain ⟨e1, _, _, _⟩ := runAll_spec (connZOne_ext emb l1) _ _ _ _ h5
  obtain ⟨sn, s1, y, f1, f2, f3, f4, f5⟩ := a4 n pi hn
  obtain ⟨sm, s3, y', g1, g2, g3, g4, g5⟩ := c4 n y f5
  simp only [step2One, Option.some.injEq, Prod.mk.injEq] at f1
  obtain ⟨rfl, rfl⟩ := f1
  obtain ⟨l, hl, g1⟩ := Option.map_eq_some_iff.mp g1
  simp only [Prod.mk.injEq] at g1
  obtain ⟨rfl, rfl⟩ := g1
  have x1 := f3.trans (b1.trans (c1.trans (d1.trans e1)))
  have x3 := g3.trans (d1.trans e1)
  refine ⟨l, _, hl, g5, f4, by dsimp only; rw [f4], ?_, x1.exp (by simp), x1.exp ?_, x3.exp (by simp), x3.exp ?_, x3.exp ?_, x3.exp ?_,
    x3.id (by simp), x3.id (by simp)⟩
  · dsimp only; rw [g4, b2, a2]; ring
  all_goals (dsimp only; rw [List.getElem?_append_right (by omega)]; simp)

/-- what is appended for the `n`-th permutation identity -/
theorem genArgs_perm {emb : GL.F → A} {l1 : Option Nat} {st st' : PilSt A} {a : Args} {cx : ArgCtx} (h : genArgs emb l1 st a = some (st', cx))
    {n : Nat} {pi : LookupId} (hn : a.permutations[n]? = some pi) :
    ∃ l c, l1 = some l ∧ cx.pe[n]? = some c ∧ c.z = st.nCm + 3 * a.plookups.length + n ∧
      st'.exps[c.tExp]? = some (select (lcT pi.t) eDef pi.selT) ∧ st'.exps[c.fExp]? = some (select (lcF pi.f) eDef pi.selF) ∧
      st'.exps[c.c1]? = some (zStart l c.z) ∧ st'.exps[c.num]? = some (eAdd (eExp c.fExp) eBeta) ∧
      st'.exps[c.den]? = some (eAdd (eExp c.tExp) eBeta) ∧ st'.exps[c.c2]? = some (zStep c.z c.num c.den) ∧ c.c1 ∈ st'.ids ∧ c.c2 ∈ st'.ids := by
  obtain ⟨s2, pu, sl, pe, sp, se, h1, h2, h3, h4, h5⟩ := genArgs_split h
  obtain ⟨a1, a2, a3, _⟩ := runAll_spec step2One_ext _ _ _ _ h1
  obtain ⟨b1, b2, b3, b4⟩ := runAll_spec permLCOne_ext _ _ _ _ h2
  obtain ⟨c1, c2, c3, _⟩ := runAll_spec (plookupZOne_ext l1) _ _ _ _ h3
  obtain ⟨d1, d2, d3, d4⟩ := runAll_spec (permZOne_ext l1) _ _ _ _ h4
  obtain ⟨e1, _, _, _⟩ := runAll_spec (connZOne_ext emb l1) _ _ _ _ h5
  obtain ⟨sn, s1, y, f1, f2, f3, f4, f5⟩ := b4 n pi hn
  obtain ⟨sm, s3, y', g1, g2, g3, g4, g5⟩ := d4 n y f5
  unfold permLCOne at f1
  dsimp only at f1
  split_ifs at f1 with hnop
  simp only [Option.some.injEq, Prod.mk.injEq] at f1
  obtain ⟨rfl, rfl⟩ := f1
  obtain ⟨l, hl, g1⟩ := Option.map_eq_some_iff.mp g1
  simp only [Prod.mk.injEq] at g1
  obtain ⟨rfl, rfl⟩ := g1
  have x1 := f3.trans (c1.trans (d1.trans e1))
  have x3 := g3.trans e1
  refine ⟨l, _, hl, g5, ?_, x1.exp (by simp), x1.exp ?_, x3.exp (by simp), x3.exp ?_, x3.exp ?_, x3.exp ?_,
    x3.id (by simp), x3.id (by simp)⟩
  · dsimp only; rw [g4, c2, b2, a2, a3]; ring
  all_goals (dsimp only; rw [List.getElem?_append_right (by omega)]; simp)

/-- what is appended for the `n`-th connection identity -/
theorem genArgs_conn {emb : GL.F → A} {l1 : Option Nat} {st st' : PilSt A} {a : Args} {cx : ArgCtx} (h : genArgs emb l1 st a = some (st', cx))
    {n : Nat} {ci : ConnId} (hn : a.connections[n]? = some ci) :
    ∃ l c p ps q qs ks exps r, l1 = some l ∧ cx.ci[n]? = some c ∧ c.z = st.nCm + 3 * a.plookups.length + a.permutations.length + n ∧
      ci.pols = p :: ps ∧ ci.conns = q :: qs ∧ Roots.getKs ps.length = some ks ∧
      connLoop (exps ++ [connFactor p eX, connFactor p (eExp q)]) exps.length (exps.length + 1) ps qs (ks.map emb) = some r ∧
      r.1 <+: st'.exps ∧ c.num = r.2.1 ∧ c.den = r.2.2 ∧
      st'.exps[c.c1]? = some (zStart l c.z) ∧ st'.exps[c.c2]? = some (zStep c.z c.num c.den) ∧ c.c1 ∈ st'.ids ∧ c.c2 ∈ st'.ids := by
  obtain ⟨s2, pu, sl, pe, sp, se, h1, h2, h3, h4, h5⟩ := genArgs_split h
  obtain ⟨a1, a2, a3, _⟩ := runAll_spec step2One_ext _ _ _ _ h1
  obtain ⟨b1, b2, b3, _⟩ := runAll_spec permLCOne_ext _ _ _ _ h2
  obtain ⟨c1, c2, c3, _⟩ := runAll_spec (plookupZOne_ext l1) _ _ _ _ h3
  obtain ⟨d1, d2, d3, _⟩ := runAll_spec (permZOne_ext l1) _ _ _ _ h4
  obtain ⟨e1, _, _, e4⟩ := runAll_spec (connZOne_ext emb l1) _ _ _ _ h5
  obtain ⟨sn, s1, y, f1, f2, f3, f4, f5⟩ := e4 n ci hn
  unfold connZOne at f1
  split at f1
  · rename_i p ps q qs hp hq
    obtain ⟨ks, hk, f1⟩ := Option.bind_eq_some_iff.mp f1
    obtain ⟨r, hr, f1⟩ := Option.bind_eq_some_iff.mp f1
    obtain ⟨l, hl, f1⟩ := Option.map_eq_some_iff.mp f1
    simp only [Prod.mk.injEq] at f1
    obtain ⟨rfl, rfl⟩ := f1
    refine ⟨l, _, p, ps, q, qs, ks, sn.exps, r, hl, f5, ?_, hp, hq, hk, hr, (List.prefix_append _ _).trans f3.1, rfl, rfl, f3.exp (by simp),
      f3.exp ?_, f3.id (by simp), f3.id (by simp)⟩
    · dsimp only; rw [f4, d2, c2, b2, a2, a3, b3]; ring
    · dsimp only; rw [List.getElem?_append_right (by omega)]; simp
  · simp at f1

/-- what `genArgs` adds to the list of identities is exactly the two identities of every argument -/
theorem runAll_ids {X : Type} {one : PilSt A → X → Option (PilSt A × PCtx)}
    (h1 : ∀ st x st1 y, one st x = some (st1, y) → st1.ids = st.ids ++ [y.c1, y.c2]) :
    ∀ (xs : List X) (st st' : PilSt A) (ys : List PCtx), runAll one st xs = some (st', ys) →
      st'.ids = st.ids ++ ys.flatMap fun y => [y.c1, y.c2]
  | [], st, st', ys, h => by
    simp only [runAll, Option.some.injEq, Prod.mk.injEq] at h
    obtain ⟨rfl, rfl⟩ := h
    simp
  | x :: xs, st, st', ys, h => by
    rw [runAll] at h
    obtain ⟨⟨s1, y⟩, ha, h⟩ := Option.bind_eq_some_iff.mp h
    obtain ⟨⟨s2, ys2⟩, hb, h⟩ := Option.map_eq_some_iff.mp h
    obtain ⟨rfl, rfl⟩ := Prod.mk.inj h
    rw [runAll_ids h1 xs s1 s2 ys2 hb, h1 _ _ _ _ ha]
    simp

theorem runAll_ids0 {X Y : Type} {one : PilSt A → X → Option (PilSt A × Y)}
    (h1 : ∀ st x st1 y, one st x = some (st1, y) → st1.ids = st.ids) :
    ∀ (xs : List X) (st st' : PilSt A) (ys : List Y), runAll one st xs = some (st', ys) → st'.ids = st.ids
  | [], st, st', ys, h => by
    simp only [runAll, Option.some.injEq, Prod.mk.injEq] at h
    obtain ⟨rfl, rfl⟩ := h
    rfl
  | x :: xs, st, st', ys, h => by
    rw [runAll] at h
    obtain ⟨⟨s1, y⟩, ha, h⟩ := Option.bind_eq_some_iff.mp h
    obtain ⟨⟨s2, ys2⟩, hb, h⟩ := Option.map_eq_some_iff.mp h
    obtain ⟨rfl, rfl⟩ := Prod.mk.inj h
    rw [runAll_ids0 h1 xs s1 s2 ys2 hb, h1 _ _ _ _ ha]

theorem genArgs_ids {emb : GL.F → A} {l1 : Option Nat} {st st' : PilSt A} {a : Args} {cx : ArgCtx} (h : genArgs emb l1 st a = some (st', cx)) :
    st'.ids = st.ids ++ (cx.pu ++ cx.pe ++ cx.ci).flatMap fun y => [y.c1, y.c2] := by
  obtain ⟨s2, pu, sl, pe, sp, se, h1, h2, h3, h4, h5⟩ := genArgs_split h
  rw [runAll_ids (one := connZOne emb l1) ?_ _ _ _ _ h5, runAll_ids (one := permZOne l1) ?_ _ _ _ _ h4,
    runAll_ids (one := plookupZOne l1) ?_ _ _ _ _ h3, runAll_ids0 ?_ _ _ _ _ h2, runAll_ids0 ?_ _ _ _ _ h1]
  · simp [List.flatMap_append]
  · intro st x st1 y h
    simp only [step2One, Option.some.injEq, Prod.mk.injEq] at h
    rw [← h.1]
  · intro st x st1 y h
    unfold permLCOne at h
    dsimp only at h
    split_ifs at h
    simp only [Option.some.injEq, Prod.mk.injEq] at h
    rw [← h.1]
  · intro st x st1 y h
    obtain ⟨l, _, h⟩ := Option.map_eq_some_iff.mp h
    simp only [Prod.mk.injEq] at h
    obtain ⟨rfl, rfl⟩ := h
    rfl
  · intro st x st1 y h
    obtain ⟨l, _, h⟩ := Option.map_eq_some_iff.mp h
    simp only [Prod.mk.injEq] at h
    obtain ⟨rfl, rfl⟩ := h
    rfl
  · intro st ci st1 y h
    unfold connZOne at h
    split at h
    · obtain ⟨ks, _, h⟩ := Option.bind_eq_some_iff.mp h
      obtain ⟨r, hr, h⟩ := Option.bind_eq_some_iff.mp h
      obtain ⟨l, _, h⟩ := Option.map_eq_some_iff.mp h
      simp only [Prod.mk.injEq] at h
      obtain ⟨rfl, rfl⟩ := h
      rfl
    · simp at h

end Verif.Grand
