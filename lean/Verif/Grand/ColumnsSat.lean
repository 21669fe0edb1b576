import Verif.Grand.ColumnsVal

/-!
# The computed columns satisfy the constraints
-/
set_option linter.unusedSectionVars false

namespace Verif.Grand
open Codegen Codegen.Spec Stark ImPols ImPols.Spec FFT Fri
open Verif.GL (F)
open Verif.Ext3 (K coord)

/-- Where the columns are: `n1` columns of the first round, `m` pairs of lookup columns, the grand products and the intermediate polynomials
(`StarkInfo::map`, starky/src/starkinfo_map.rs L15-256: `cm1_n`, `cm2_n`, `cm3_n`); columns of one section do not overlap. -/
structure ArgLayout (R : Run) (S : Finset Nat) (n1 m : Nat) : Prop where
  le : n1 + 2 * m ≤ R.nCm
  first : ∀ k < n1, ∃ c, R.pos k = some c ∧ c.tree = 1
  second : ∀ k, n1 ≤ k → k < n1 + 2 * m → ∃ c, R.pos k = some c ∧ c.tree = 2
  third : ∀ k, n1 + 2 * m ≤ k → k < R.nCm → ∃ c, R.pos k = some c ∧ c.tree = 3 ∧ c.dim = 3
  im : ∀ k, R.nCm ≤ k → k < R.nCm + S.card → ∃ c, R.pos k = some c ∧ c.tree = 3
  disj : ∀ k k' c c', k < k' → k' < R.nCm + S.card → R.pos k = some c → R.pos k' = some c' → c.tree = c'.tree → Disj c c'

/-- the dimension that `get_exp_dim` gives to an expression is 1 -/
def Dim1 (R : Run) (exps : List (Expr K)) (id : Nat) : Prop :=
  ∃ e n d, exps[id]? = some e ∧ expDim exps (fun k => (R.pos k).map ColPos.dim) n e = some d ∧ d ≤ 1

/-- The dimensions of the columns: a column of dimension 1 is only used for expressions of dimension 1 (starkinfo_map.rs L44-98, L171-186). -/
structure ArgDims (R : Run) (S : Finset Nat) (exps : List (Expr K)) (n1 : Nat) (cx : ArgCtx) : Prop where
  num : ∀ e ∈ exps, NumBase e
  publics : ∀ v ∈ R.publics, Base v
  pair : ∀ n c p1 p2, cx.pu[n]? = some c → R.pos (n1 + 2 * n) = some p1 → R.pos (n1 + 2 * n + 1) = some p2 →
    p1.dim = p2.dim ∧ (p1.dim = 1 → Dim1 R exps c.fExp ∧ Dim1 R exps c.tExp)
  im : ∀ n k c, (S.sort (· ≤ ·))[n]? = some k → R.pos (R.nCm + n) = some c → c.dim = 1 → Dim1 R exps k

theorem trCm_eq {R : Run} {T : Trace} (ch : List K) {k : Nat} {c : ColPos} (hk : R.pos k = some c) (hd : c.dim = 1 ∨ c.dim = 3)
    (ht : 1 ≤ c.tree ∧ c.tree ≤ 3) (hw : c.pos + c.dim ≤ T.width c.tree) (r : Nat) :
    trCm R T ch k r = some (colB (T.sec ch c.tree) c (T.width c.tree) (r % 2 ^ R.nb)) := by
  simp only [trCm, traceStore, hk, Option.bind_some, Bool.false_eq_true, if_false, Nat.add_zero, if_pos ht]
  rw [colVal_colB _ _ hd hw (Nat.mod_lt _ (by positivity))]

theorem covers_stage {R : Run} {T : Trace} {ch : List K} {lim q : Nat} {pr : Bool} (h : ∀ k < lim, ∀ r, ∃ v, trCm R T ch k r = some v) (hq : q ≤ ch.length) (i : Nat) :
    Covers T.nConst R.publics.length (stageStore R T ch lim i) ⟨lim, q, pr⟩ := by
  refine ⟨fun k hk p => ?_, fun k hk p => ?_, fun k hk => ?_, fun k hk => ?_, ?_⟩
  · rw [stage_rows]
    simp only [rowStore, stageCm]
    rw [if_neg (by simpa using hk)]
    exact h k hk _
  · unfold stageStore
    rw [if_neg (by simp)]
    simp only [traceStore]
    rw [if_pos hk]
    exact ⟨_, rfl⟩
  · unfold stageStore
    rw [if_neg (by simp)]
    exact ⟨_, List.getElem?_eq_getElem hk⟩
  · unfold stageStore
    rw [if_neg (by simp)]
    exact ⟨_, List.getElem?_eq_getElem (lt_of_lt_of_le hk hq)⟩
  · unfold stageStore
    rw [if_neg (by simp)]
    exact ⟨_, rfl⟩

theorem Covers.up {nC nP : Nat} {σ σ' : Store K} {L : Lim} (h : Covers nC nP σ L) (hle : ∀ t k p v, σ t k p = some v → σ' t k p = some v) :
    Covers nC nP σ' L :=
  ⟨fun i hi p => (h.cm i hi p).imp fun _ => hle _ _ _ _, fun i hi p => (h.const_ i hi p).imp fun _ => hle _ _ _ _,
    fun i hi => (h.pub i hi).imp fun _ => hle _ _ _ _, fun i hi => (h.chal i hi).imp fun _ => hle _ _ _ _, h.x.imp fun _ => hle _ _ _ _⟩

theorem mapM_get {α β : Type} {f : α → Option β} : ∀ {l : List α} {ws : List β}, l.mapM f = some ws →
    ws.length = l.length ∧ ∀ (n : Nat) (a : α), l[n]? = some a → ∃ b, f a = some b ∧ ws[n]? = some b
  | [], ws, h => by
    simp at h; subst h; simp
  | x :: l, ws, h => by
    rw [List.mapM_cons] at h
    obtain ⟨b, h1, h⟩ := Option.bind_eq_some_iff.mp h
    obtain ⟨bs, h2, h⟩ := Option.bind_eq_some_iff.mp h
    obtain rfl : b :: bs = ws := by simpa using h
    obtain ⟨i1, i2⟩ := mapM_get h2
    refine ⟨by simp [i1], fun n a ha => ?_⟩
    cases n with
    | zero => simp at ha; subst ha; exact ⟨b, h1, rfl⟩
    | succ n => exact i2 n a (by simpa using ha)

theorem mapM_back {α β : Type} {f : α → Option β} {l : List α} {ws : List β} (h : l.mapM f = some ws) {n : Nat} {b : β} (hb : ws[n]? = some b) :
    ∃ a, l[n]? = some a ∧ f a = some b := by
  obtain ⟨h1, h2⟩ := mapM_get h
  have hn : n < l.length := by have := (List.getElem?_eq_some_iff.mp hb).1; omega
  obtain ⟨b', h3, h4⟩ := h2 n l[n] (List.getElem?_eq_getElem hn)
  rw [hb] at h4
  obtain rfl := Option.some.inj h4
  exact ⟨_, List.getElem?_eq_getElem hn, h3⟩

theorem setPols_ok {N w : Nat} : ∀ (ws : List (ColPos × List K)) (b b' : FftP.Buf F), setPols N w ws b = some b' →
    ∀ x ∈ ws, (x.1.dim = 1 ∨ x.1.dim = 3) ∧ N ≤ x.2.length
  | [], b, b', _, x, hx => by simp at hx
  | y :: ws, b, b', h, x, hx => by
    rw [setPols] at h
    obtain ⟨b1, h1, h2⟩ := Option.bind_eq_some_iff.mp h
    rcases List.mem_cons.mp hx with rfl | hx
    · unfold setPol at h1
      split_ifs at h1 with hc
      exact hc
    · exact setPols_ok ws b1 b' h2 x hx

/-- the `n`-th context: its column and its two identities -/
theorem genArgs_ctx {emb : GL.F → K} {l1 : Option Nat} {st st' : PilSt K} {a : Args} {cx : ArgCtx} (hgen : genArgs emb l1 st a = some (st', cx)) :
    cx.pu.length = a.plookups.length ∧ cx.pe.length = a.permutations.length ∧ cx.ci.length = a.connections.length ∧
    ∀ n c, (cx.pu ++ cx.pe ++ cx.ci)[n]? = some c → ∃ l, l1 = some l ∧ c.z = st.nCm + 2 * a.plookups.length + n ∧
      st'.exps[c.c1]? = some (zStart l c.z) ∧ st'.exps[c.c2]? = some (zStep c.z c.num c.den) := by
  obtain ⟨s2, pu, sl, pe, sp, se, r1, r2, r3, r4, r5⟩ := genArgs_split hgen
  have l1' := (runAll_spec step2One_ext a.plookups st s2 pu r1).2.2.1
  have l2' := (runAll_spec permLCOne_ext a.permutations s2 sl pe r2).2.2.1
  have l3' := (runAll_spec (plookupZOne_ext l1) pu sl sp cx.pu r3).2.2.1
  have l4' := (runAll_spec (permZOne_ext l1) pe sp se cx.pe r4).2.2.1
  have l5' := (runAll_spec (connZOne_ext emb l1) a.connections se st' cx.ci r5).2.2.1
  refine ⟨by omega, by omega, by omega, fun n c hc => ?_⟩
  by_cases h1 : n < cx.pu.length
  · rw [List.append_assoc, List.getElem?_append_left h1] at hc
    have hlt : n < a.plookups.length := by omega
    obtain ⟨l, c', g0, gc, -, -, gz, -, -, g3, -, -, g6, -, -⟩ := genArgs_plookup hgen (List.getElem?_eq_getElem hlt)
    rw [hc] at gc
    obtain rfl := Option.some.inj gc
    exact ⟨l, g0, gz, g3, g6⟩
  · rw [List.append_assoc, List.getElem?_append_right (by omega)] at hc
    by_cases h2 : n - cx.pu.length < cx.pe.length
    · rw [List.getElem?_append_left h2] at hc
      have hlt : n - cx.pu.length < a.permutations.length := by omega
      obtain ⟨l, c', g0, gc, gz, -, -, g3, -, -, g6, -, -⟩ := genArgs_perm hgen (List.getElem?_eq_getElem hlt)
      rw [hc] at gc
      obtain rfl := Option.some.inj gc
      exact ⟨l, g0, by omega, g3, g6⟩
    · rw [List.getElem?_append_right (by omega)] at hc
      have hlt : n - cx.pu.length - cx.pe.length < a.connections.length := by
        have := (List.getElem?_eq_some_iff.mp hc).1
        omega
      obtain ⟨l, c', p, ps, q, qs, ks, exps, r, g0, gc, gz, -, -, -, -, -, -, -, g1, g2, -, -⟩ := genArgs_conn hgen (List.getElem?_eq_getElem hlt)
      rw [hc] at gc
      obtain rfl := Option.some.inj gc
      exact ⟨l, g0, by omega, g1, g2⟩

theorem stored_three (v : K) : stored 3 v = v := by simp [stored]

theorem stored_three_rows (N : Nat) (v : Nat → K) : (rows N fun i => stored 3 (v i)) = rows N v := by simp only [stored_three]

/-- A circuit with lookup, permutation and connection arguments, the layout of its columns and the programs generated for it. -/
structure ArgCircuit (R : Run) (T : Trace) (S : Finset Nat) (l1 : Option Nat) (st st' : PilSt K) (a : Args) (cx : ArgCtx) (lims : List Lim)
    (fuel : Nat) (P : Progs) : Prop where
  gen : genArgs (algebraMap F K) l1 st a = some (st', cx)
  nCm : R.nCm = st'.nCm
  sc : Scoped T.nConst R.publics.length st.exps lims
  bounds : ∀ m ∈ lims, m.cols ≤ st.nCm ∧ m.chals ≤ 4
  args : ArgsScoped a lims st.nCm
  l1c : ∀ l, l1 = some l → l < T.nConst ∧ ∀ i < 2 ^ R.nb, T.fixed (i * T.nConst + l) = if i = 0 then 1 else 0
  plain : ∀ e ∈ st.exps, Plain st.exps.length e
  layout : ArgLayout R S st.nCm a.plookups.length
  fit : ∀ k c, R.pos k = some c → (c.dim = 1 ∨ c.dim = 3) ∧ (c.tree ≤ 3 → c.pos + c.dim ≤ T.width c.tree)
  dims : ArgDims R S st'.exps st.nCm cx
  progs : genProgs fuel st'.exps cx S = some P
  fuel : st'.exps.length ≤ fuel
  ims : ∀ k ∈ S, k < st'.exps.length

section
variable {R : Run} {T : Trace} {S : Finset Nat} {l1 : Option Nat} {st st' : PilSt K} {a : Args} {cx : ArgCtx} {lims : List Lim} {fuel : Nat} {P : Progs}

theorem ArgCircuit.wf (C : ArgCircuit R T S l1 st st' a cx lims fuel P) : ArgsWF a st.exps.length := by
  have hb : ∀ {j c q : Nat} {pr : Bool}, Bnd lims j c q pr → j < st.exps.length := by
    rintro j c q pr ⟨m, h, -⟩
    have := (List.getElem?_eq_some_iff.mp h).1
    rw [C.sc.length] at this
    exact this
  refine ⟨fun pi h => ?_, fun pi h => ?_⟩
  · obtain ⟨-, -, h1, h2, h3, h4⟩ := C.args.lookup pi h
    exact ⟨fun j hj => hb (h1 j hj), fun j hj => hb (h2 j hj), fun k hk => hb (h3 k hk), fun k hk => hb (h4 k hk)⟩
  · obtain ⟨-, -, h1, h2, h3, h4⟩ := C.args.perm pi h
    exact ⟨fun j hj => hb (h1 j hj), fun j hj => hb (h2 j hj), fun k hk => hb (h3 k hk), fun k hk => hb (h4 k hk)⟩

/-- the tree of a committed column -/
theorem ArgCircuit.pos (C : ArgCircuit R T S l1 st st' a cx lims fuel P) {k : Nat} (hk : k < R.nCm + S.card) :
    ∃ c, R.pos k = some c ∧ (c.dim = 1 ∨ c.dim = 3) ∧ c.tree = (if k < st.nCm then 1 else if k < st.nCm + 2 * a.plookups.length then 2 else 3) ∧
      c.pos + c.dim ≤ T.width c.tree := by
  by_cases h1 : k < st.nCm
  · obtain ⟨c, g1, g2⟩ := C.layout.first k h1
    obtain ⟨g3, g4⟩ := C.fit k c g1
    exact ⟨c, g1, g3, by rw [if_pos h1, g2], g4 (by omega)⟩
  by_cases h2 : k < st.nCm + 2 * a.plookups.length
  · obtain ⟨c, g1, g2⟩ := C.layout.second k (by omega) h2
    obtain ⟨g3, g4⟩ := C.fit k c g1
    exact ⟨c, g1, g3, by rw [if_neg h1, if_pos h2, g2], g4 (by omega)⟩
  by_cases h3 : k < R.nCm
  · obtain ⟨c, g1, g2, -⟩ := C.layout.third k (by omega) h3
    obtain ⟨g3, g4⟩ := C.fit k c g1
    exact ⟨c, g1, g3, by rw [if_neg h1, if_neg h2, g2], g4 (by omega)⟩
  · obtain ⟨c, g1, g2⟩ := C.layout.im k (by omega) hk
    obtain ⟨g3, g4⟩ := C.fit k c g1
    exact ⟨c, g1, g3, by rw [if_neg h1, if_neg h2, g2], g4 (by omega)⟩

/-- the columns of a trace that has the same shape -/
theorem ArgCircuit.col (C : ArgCircuit R T S l1 st st' a cx lims fuel P) {T' : Trace} (hw : T'.width = T.width) (ch : List K) {k : Nat}
    (hk : k < R.nCm + S.card) {c : ColPos} (hc : R.pos k = some c) (r : Nat) :
    trCm R T' ch k r = some (colB (T'.sec ch (if k < st.nCm then 1 else if k < st.nCm + 2 * a.plookups.length then 2 else 3)) c
      (T.width (if k < st.nCm then 1 else if k < st.nCm + 2 * a.plookups.length then 2 else 3)) (r % 2 ^ R.nb)) := by
  obtain ⟨c', g1, g2, g3, g4⟩ := C.pos hk
  obtain rfl : c = c' := Option.some.inj (hc.symm.trans g1)
  have ht : 1 ≤ c.tree ∧ c.tree ≤ 3 := by rw [g3]; split_ifs <;> omega
  rw [trCm_eq ch hc g2 ht (by rw [hw]; exact g4), hw, g3]

theorem ArgCircuit.has (C : ArgCircuit R T S l1 st st' a cx lims fuel P) {T' : Trace} (hw : T'.width = T.width) (ch : List K) {k : Nat}
    (hk : k < R.nCm + S.card) (r : Nat) : ∃ v, trCm R T' ch k r = some v := by
  obtain ⟨c, g1, -⟩ := C.pos hk
  exact ⟨_, C.col hw ch hk g1 r⟩

/-- two traces agree on a column when they agree on its section -/
theorem ArgCircuit.same (C : ArgCircuit R T S l1 st st' a cx lims fuel P) {T1 T2 : Trace} (hw1 : T1.width = T.width) (hw2 : T2.width = T.width)
    {ch1 ch2 : List K} {k : Nat} (hk : k < R.nCm + S.card)
    (h : T1.sec ch1 (if k < st.nCm then 1 else if k < st.nCm + 2 * a.plookups.length then 2 else 3) =
      T2.sec ch2 (if k < st.nCm then 1 else if k < st.nCm + 2 * a.plookups.length then 2 else 3)) (r : Nat) :
    trCm R T1 ch1 k r = trCm R T2 ch2 k r := by
  obtain ⟨c, g1, -⟩ := C.pos hk
  rw [C.col hw1 ch1 hk g1, C.col hw2 ch2 hk g1, h]

theorem ArgCircuit.fixed (C : ArgCircuit R T S l1 st st' a cx lims fuel P) {T' : Trace} (hn : T'.nConst = T.nConst) (hf : T'.fixed = T.fixed)
    {l : Nat} (hl : l1 = Option.some l) {i : Nat} (hi : i < 2 ^ R.nb) : trFx R T' l i = Option.some (if i = 0 then 1 else 0) := by
  obtain ⟨h1, h2⟩ := C.l1c l hl
  simp only [trFx, traceStore, hn, hf, Bool.false_eq_true, if_false, Nat.add_zero]
  rw [if_pos h1, Nat.mod_eq_of_lt hi]
  have hg : (cellsOf T.fixed T.nConst (2 ^ R.nb)).getD (i * T.nConst + l) 0 = T.fixed (i * T.nConst + l) := cellsOf_getD _ (cell_lt hi h1)
  unfold colVal
  rw [if_pos rfl, hg, h2 i hi]
  split_ifs <;> simp

theorem genProgs_split {fuel : Nat} {exps : List (Expr K)} {cx : ArgCtx} {S : Finset Nat} {P : Progs} (h : genProgs fuel exps cx S = some P) :
    ∃ c2 c3 ci, genAll 0 exps fuel (reqs2 cx) ⟨0, [], []⟩ = some c2 ∧ genAll 0 exps fuel (reqs3 cx) ⟨c2.tmpUsed, [], []⟩ = some c3 ∧
      genAll 0 exps fuel (reqsIm S) ⟨c3.tmpUsed, [], []⟩ = some ci ∧ P = ⟨linearCode c2, linearCode c3, linearCode ci⟩ := by
  obtain ⟨c2, h1, h⟩ := Option.bind_eq_some_iff.mp h
  obtain ⟨c3, h2, h⟩ := Option.bind_eq_some_iff.mp h
  obtain ⟨ci, h3, h⟩ := Option.map_eq_some_iff.mp h
  exact ⟨c2, c3, ci, h1, h2, h3, h.symm⟩

theorem reqs2_mem {cx : ArgCtx} {r : Req} (h : r ∈ reqs2 cx) : r = { id := r.id } ∧ ∃ c ∈ cx.pu, r.id = c.fExp ∨ r.id = c.tExp := by
  unfold reqs2 at h
  simp only [List.mem_flatMap, List.mem_cons, List.not_mem_nil, or_false] at h
  obtain ⟨c, hc, rfl | rfl⟩ := h
  · exact ⟨rfl, c, hc, .inl rfl⟩
  · exact ⟨rfl, c, hc, .inr rfl⟩

theorem reqs3_mem {cx : ArgCtx} {r : Req} (h : r ∈ reqs3 cx) : r = { id := r.id } ∧ ∃ c ∈ cx.pu ++ cx.pe ++ cx.ci, r.id = c.num ∨ r.id = c.den := by
  unfold reqs3 at h
  obtain ⟨c, hc, h⟩ := List.mem_flatMap.mp h
  simp only [List.mem_cons, List.not_mem_nil, or_false] at h
  obtain rfl | rfl := h
  · exact ⟨rfl, c, hc, .inl rfl⟩
  · exact ⟨rfl, c, hc, .inr rfl⟩

theorem reqsIm_mem {S : Finset Nat} {r : Req} (h : r ∈ reqsIm S) : r = { id := r.id } ∧ r.id ∈ S := by
  unfold reqsIm at h
  obtain ⟨k, hk, rfl⟩ := List.mem_map.mp h
  exact ⟨rfl, by simpa using hk⟩

end

end Verif.Grand
