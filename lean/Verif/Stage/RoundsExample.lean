import Verif.Stage.Rounds
import Verif.Map.GenExample

/-!
# The hypotheses of `rounds_spec`
-/
namespace Verif.Stage
open Codegen Codegen.Spec Verif.Stark FFT Fri Verif.Grand
open Verif.GL (F)
open Verif.Ext3 (F3G K WF val ofF coord)
open Verif.Interp (Sec Info algF3 cleared execInfo setWidth)
open Verif.Interp.Spec (Col cell readCol polCol nodeCol rowOf)
open Verif.Map (Hold Rel Same ApartCol CellsOk extSec MapOk inOf layN Out Lay Blank Fresh Frame KeepsCols secN InCol Provided Needed NoPoint ReadOk tagN Raw)

noncomputable section

section

variable {R : Run} {T : Trace} {S : Finset Nat} {l1 : Option Nat} {st st' : PilSt K} {a : Args} {cx : ArgCtx} {lims : List Lim} {fuel : Nat} {P : Progs}
  {q : Nat} {ce fe : Expr K} {fuelM : Nat} {o : Out} {lit : K → F3G}

/-- **The hypothesis `side` of `rounds_spec` holds when no side of a lookup is an intermediate polynomial.** -/
theorem Circ.side (O : Circ R T S l1 st st' a cx lims fuel P q ce fe fuelM o lit) (hS : ∀ pc ∈ cx.pu, pc.fExp ∉ S ∧ pc.tExp ∉ S) (N : Nat) :
    ∀ n pc id col, cx.pu[n]? = some pc → id = pc.fExp ∨ id = pc.tExp → (layN (inOf st st' cx S q ce fe) o T.nConst N lit).col .exp id = some col →
      o.dim (st.nCm + 2 * n) = some col.dim := by
  intro n pc id col hn hid hc
  obtain ⟨pols, hR⟩ := O.map.raw
  obtain ⟨-, -, -, b, x, y, -, -, -, -, -, -, -, h4⟩ := O.map.col hR hc
  have hm := hS pc (List.mem_of_getElem? hn)
  obtain ⟨s1, s2⟩ := O.map.sep n pc id hn hid
  rcases h4 with ⟨h4, -⟩ | ⟨-, -, -, -, h4⟩
  · have : id ∈ S := by simpa [inOf] using h4
    rcases hid with rfl | rfl
    · exact absurd this hm.1
    · exact absurd this hm.2
  · rcases h4 with ⟨-, h4⟩ | ⟨n', c', g1, g2, g3⟩
    · exact absurd h4 s1
    · obtain rfl := s2 n' c' g1 g2
      exact g3

/-- the buffers of the prover before the second round, all other cells zero -/
def startMem (R : Run) (T : Trace) (o : Out) (pub : List F) (t : Sec) : List F3G :=
  if t = .cm1_n then (List.range (2 ^ R.nb * setWidth (o.info T.nConst) .cm1_n)).map fun j => ofF (T.cm1 j)
  else if t = .const_n then (List.range (2 ^ R.nb * T.nConst)).map fun j => ofF (T.fixed j)
  else if t = .x_n then (List.range (2 ^ R.nb)).map fun j => ofF (Roots.mg R.nb ^ j)
  else if t = .publics then pub.map ofF
  else if t = .challenge then List.replicate 8 (ofF 0)
  else List.replicate (2 ^ R.nb * setWidth (o.info T.nConst) t) (ofF 0)

theorem mem_start {pub : List F} {t : Sec} {w : F3G} (h : w ∈ startMem R T o pub t) : ∃ b, w = ofF b := by
  unfold startMem at h
  split_ifs at h
  · obtain ⟨j, -, rfl⟩ := List.mem_map.mp h; exact ⟨_, rfl⟩
  · obtain ⟨j, -, rfl⟩ := List.mem_map.mp h; exact ⟨_, rfl⟩
  · obtain ⟨j, -, rfl⟩ := List.mem_map.mp h; exact ⟨_, rfl⟩
  · obtain ⟨j, -, rfl⟩ := List.mem_map.mp h; exact ⟨_, rfl⟩
  · exact ⟨_, List.eq_of_mem_replicate h⟩
  · exact ⟨_, List.eq_of_mem_replicate h⟩

/-- **`Start` can be fulfilled for every circuit**: the buffers a prover has before the second round exist. -/
theorem start_exists (O : Circ R T S l1 st st' a cx lims fuel P q ce fe fuelM o lit) (pub : List F) (hp : R.publics = pub.map (algebraMap F K)) (zi : Nat → Option F3G) (nbe : Nat)
    (tmp : List F) : ∃ c : Ctx, Start R T o zi c ∧ c.nbitsExt = nbe := by
  have hw : setWidth (o.info T.nConst) .cm1_n = T.width 1 := (O.width 1 (le_refl 1) (by omega)).symm
  refine ⟨⟨R.nb, nbe, startMem R T o pub, tmp, [], zi⟩, ⟨rfl, ?_, ⟨fun t _ w hw => mem_start hw, fun t _ w hw => ?_⟩, ?_, ?_, ?_, ?_, ?_, rfl⟩, rfl⟩
  · intro t ht
    simp only [List.mem_cons, List.not_mem_nil, or_false] at ht
    rcases ht with rfl | rfl | rfl | rfl | rfl | rfl <;> simp [startMem, setWidth, Out.info]
  · obtain ⟨b, rfl⟩ := mem_start hw
    exact .inr ⟨rfl, rfl, rfl⟩
  · intro r hr k hk
    have hlt : r * T.width 1 + k < 2 ^ R.nb * T.width 1 := by
      have := Nat.mul_le_mul_right (T.width 1) (Nat.succ_le_of_lt hr)
      rw [Nat.succ_mul] at this
      omega
    show (startMem R T o pub .cm1_n)[_]? = _
    unfold startMem
    rw [if_pos rfl, hw, List.getElem?_map, List.getElem?_range hlt]
    rfl
  · intro r hr k hk
    have hlt : r * T.nConst + k < 2 ^ R.nb * T.nConst := by
      have := Nat.mul_le_mul_right T.nConst (Nat.succ_le_of_lt hr)
      rw [Nat.succ_mul] at this
      omega
    show (startMem R T o pub .const_n)[_]? = _
    unfold startMem
    rw [if_neg (by decide), if_pos rfl, List.getElem?_map, List.getElem?_range hlt]
    rfl
  · intro r hr
    refine ⟨Roots.mg R.nb ^ r, ?_, by rw [map_pow]; rfl⟩
    show (startMem R T o pub .x_n)[_]? = _
    unfold startMem
    rw [if_neg (by decide), if_neg (by decide), if_pos rfl, List.getElem?_map, List.getElem?_range hr]
    rfl
  · show (startMem R T o pub .publics).map val = _
    unfold startMem
    rw [if_neg (by decide), if_neg (by decide), if_neg (by decide), if_pos rfl, hp, List.map_map]
    exact List.map_congr_left fun b _ => Map.RowsEx.val_ofF b
  · show 4 ≤ (startMem R T o pub .challenge).length
    simp [startMem]

end

/-- **The hypothesis `side` of `rounds_spec` is needed**: a lookup whose `f` side has a column of dimension 1 and whose `t` side a column of dimension 3 panics, whatever the columns hold (in
particular when every value of `f` occurs in `t`). -/
theorem lookupStep_mixed {s : Info} {e2p : Nat → Option Nat} {c : Ctx} {n N pf pt : Nat} {pu : PCtx} {cf ct : Col} {vf vt : Nat → K} (hN : 0 < N)
    (hf : e2p pu.fExp = some pf) (ht : e2p pu.tExp = some pt) (hpf : PolAt s c N pf cf) (hpt : PolAt s c N pt ct) (hdf : cf.dim = 1) (hdt : ct.dim = 3)
    (hvf : ∀ r < N, Hold c.mem cf r (vf r)) (hvt : ∀ r < N, Hold c.mem ct r (vt r)) : lookupStep s e2p (c, n) pu = none := by
  obtain ⟨f, f1, -, f2, f3⟩ := getPol_hold hpf hvf
  obtain ⟨t, t1, -, t2, -⟩ := getPol_hold hpt hvt
  have hne : f ≠ [] := by
    rintro rfl
    have := congrArg List.length f3
    simp [rows] at this
    omega
  unfold lookupStep
  rw [hf, ht, Option.bind_some, Option.bind_some, f1, t1, Option.bind_some, Option.bind_some, calculateH1H2_tags f t hne (fun x hx => (f2 x hx).trans hdf) (fun x hx => (t2 x hx).trans hdt), Option.bind_none]

/-- the hypotheses of `lookupStep_mixed`: one row, `f` holds 5 in one cell and `t` holds 5 in three cells -/
example : ∃ (s : Info) (c : Ctx), PolAt s c 1 0 ⟨.tmpexp_n, 0, 1, 4⟩ ∧ PolAt s c 1 1 ⟨.tmpexp_n, 1, 3, 4⟩ ∧ Hold c.mem ⟨.tmpexp_n, 0, 1, 4⟩ 0 (val (ofF 5)) ∧
    Hold c.mem ⟨.tmpexp_n, 1, 3, 4⟩ 0 (val (ofF 5)) := by
  refine ⟨⟨[], [], [0, 1], [⟨.tmpexp_n, 0, 1⟩, ⟨.tmpexp_n, 1, 3⟩], fun _ => 4, 0, 1⟩, ⟨0, 1, fun t => if t = .tmpexp_n then [ofF 5, ofF 5, ofF 0, ofF 0] else [], [], [], fun _ => none⟩,
    ⟨rfl, rfl, .inl rfl, by decide, le_refl _⟩, ⟨rfl, rfl, .inr rfl, by decide, le_refl _⟩, ?_, ?_⟩
  · unfold Hold
    rw [if_pos rfl]
    exact ⟨5, rfl, (Map.RowsEx.val_ofF 5).symm⟩
  · unfold Hold
    rw [if_neg (by decide)]
    exact ⟨5, 0, 0, rfl, rfl, rfl, rfl⟩

namespace Example
open Verif.Grand.Ex

theorem pos_eq {o : Out} (h : MapOk (inOf st st' cx {10} 2 cE (eCm 0)) 40 o) (hs : Map.Example.summary o 11 =
    ((List.range 11).map fun k => (Grand.Ex.pos k).map fun c => (c.tree, c.pos, c.dim), [2, 6, 12, 6], [2, 6, 12], 3)) : o.pos = Grand.Ex.pos := by
  funext k
  by_cases hk : k < 11
  · simp only [Map.Example.summary, Prod.mk.injEq] at hs
    have h1 := congrArg (fun l => l[k]?) hs.1
    simp only [List.getElem?_map, List.getElem?_range hk, Option.map_some, Option.some.injEq] at h1
    cases ha : o.pos k with
    | none =>
      rw [ha] at h1
      exact (Option.map_eq_none_iff.mp h1.symm).symm
    | some c =>
      rw [ha] at h1
      obtain ⟨c', h2, h3⟩ := Option.map_eq_some_iff.mp h1.symm
      rw [h2]
      obtain ⟨x, y, z⟩ := c
      obtain ⟨x', y', z'⟩ := c'
      simp only [Prod.mk.injEq] at h3
      obtain ⟨rfl, rfl, rfl⟩ := h3
      rfl
  · have hn : (inOf st st' cx {10} 2 cE (eCm 0)).nCols ≤ k := by
      have : (inOf st st' cx {10} 2 cE (eCm 0)).nCols = 10 := by
        simp [Map.In.nCols, inOf]
        rfl
      omega
    rw [((Map.map_pos h.map h.nCm2).2.1 k hn).1]
    match k, hk with
    | k + 11, _ => rfl

/-- the circuit with a lookup, a permutation and a connection -/
theorem circ : ∃ (o : Out) (P : Progs), Circ run trace {10} (some 0) st st' args cx lims 40 P 2 cE (eCm 0) 40 o Map.litK := by
  obtain ⟨o, S, q, ce, h1, -, h3, -, rfl, rfl, rfl⟩ := Map.Example.circuit_ok
  obtain ⟨P, hP⟩ := progs_some
  have hpos := pos_eq h1 h3
  refine ⟨o, P, circuit hP, h1, hpos.symm, ?_, Map.litK_spec, Map.litK_dim, ?_⟩
  · simp only [Map.Example.summary, Prod.mk.injEq, List.map_cons, List.map_nil, List.cons.injEq] at h3
    obtain ⟨-, -, ⟨w1, w2, w3, -⟩, -⟩ := h3
    intro t h1 h2
    interval_cases t
    · rw [w1]; rfl
    · rw [w2]; rfl
    · rw [w3]; rfl
  · intro e he
    simp only [st, Grand.Ex.exps, List.mem_cons, List.not_mem_nil, or_false] at he
    rcases he with rfl | rfl | rfl | rfl | rfl <;> exact Map.NoX.leaf rfl

/-- every committed column in the programs exists -/
def cmBelow (n : Nat) (ctx : Codegen.Ctx K) : Bool := (linearCode ctx).all fun c => (c.dest :: c.src).all fun r => r.ty != .cm || r.id < n

theorem cmBelow_iff {n : Nat} {ctx : Codegen.Ctx K} (h : cmBelow n ctx = true) : ∀ c ∈ linearCode ctx, ∀ r ∈ c.dest :: c.src, r.ty = .cm → r.id < n := by
  unfold cmBelow at h
  simp only [List.all_eq_true] at h
  intro c hc r hr ht
  have := h c hc r hr
  rw [ht] at this
  simpa using this

theorem progs_below : ((genAll 0 exps' 40 (reqs2 cx) ⟨0, [], []⟩).bind fun c2 =>
    (genAll 0 exps' 40 (reqs3 cx) ⟨c2.tmpUsed, [], []⟩).bind fun c3 =>
    (genAll 0 exps' 40 [{ id := 10 }] ⟨c3.tmpUsed, [], []⟩).map fun ci => cmBelow 8 c2 && cmBelow 8 c3 && cmBelow 8 ci) = some true := by
  decide +kernel

theorem setupOf_some {o : Out} (hlen : 8 ≤ o.st.cmN.length) (zi : Nat → Option F3G) (workers : Nat) :
    ∃ U, setupOf (inOf st st' cx {10} 2 cE (eCm 0)) o Map.litK st'.exps 40 trace.nConst cx {10} zi workers = some U := by
  have hs : ({10} : Finset Nat).sort (· ≤ ·) = [10] := by simp
  have hr : reqsIm {10} = [{ id := 10 }] := by unfold reqsIm; rw [hs]; rfl
  obtain ⟨c2, h2, h⟩ := Option.bind_eq_some_iff.mp progs_below
  obtain ⟨c3, h3, h⟩ := Option.bind_eq_some_iff.mp h
  obtain ⟨c4, h4, h⟩ := Option.map_eq_some_iff.mp h
  simp only [Bool.and_eq_true] at h
  obtain ⟨⟨b2, b3⟩, b4⟩ := h
  have hb : ∀ {ctx : Codegen.Ctx K}, cmBelow 8 ctx = true → ∀ c ∈ linearCode ctx, ∀ r ∈ c.dest :: c.src, r.ty = .cm → r.id < o.st.cmN.length :=
    fun h c hc r hr ht => lt_of_lt_of_le (cmBelow_iff h c hc r hr ht) hlen
  have key : ∀ {reqs : List Req} {t0 : Nat} {ctx : Codegen.Ctx K}, genAll 0 st'.exps 40 reqs ⟨t0, [], []⟩ = some ctx → cmBelow 8 ctx = true →
      ∃ k, codeOf (inOf st st' cx {10} 2 cE (eCm 0)) o Map.litK st'.exps 40 reqs t0 = some (k, ctx.tmpUsed) := by
    intro reqs t0 ctx hg hc
    obtain ⟨out, t, hf⟩ := Map.fixProverCode_total (tgt := Map.tgtOf (inOf st st' cx {10} 2 cE (eCm 0)).imList (inOf st st' cx {10} 2 cE (eCm 0)).im2cm o.st.tmpexps .n)
      (lit := Map.litK) (tmpUsed := ctx.tmpUsed) (hb hc)
    unfold codeOf
    rw [hg, Option.bind_some, hf]
    exact ⟨_, rfl⟩
  obtain ⟨k2, e2⟩ := key h2 b2
  obtain ⟨k3, e3⟩ := key h3 b3
  obtain ⟨k4, e4⟩ := key h4 b4
  unfold setupOf
  rw [e2, Option.bind_some, e3, Option.bind_some, hr, e4]
  exact ⟨_, rfl⟩

/-- **The hypotheses of `rounds_spec` and of `Circ.side` hold** for the circuit with a lookup, a permutation and a connection, and challenges `ch`: the second and third round succeed on
the prover's buffers. -/
theorem rounds_ok (zi : Nat → Option F3G) (workers : Nat) (h1 : 1 ≤ workers) (h2 : workers ≤ 2048) (init2 init3 : FftP.Buf F) :
    ∃ (o : Out) (P : Progs) (b2 b3 : FftP.Buf F) (U : Setup) (c : Ctx) (z : F3G), WF z ∧ val z = ch ∧ Circ run trace {10} (some 0) st st' args cx lims 40 P 2 cE (eCm 0) 40 o Map.litK ∧
      columns run trace st.nCm P cx {10} init2 init3 ch ch ch ch = some (b2, b3) ∧ Start run trace o zi c ∧ (∀ pc ∈ cx.pu, pc.fExp ∉ ({10} : Finset Nat) ∧ pc.tExp ∉ ({10} : Finset Nat)) ∧
      setupOf (inOf st st' cx {10} 2 cE (eCm 0)) o Map.litK st'.exps 40 trace.nConst cx {10} zi workers = some U ∧
      ∃ c2 c3, round2 U z z c = some (c2, 4) ∧ round3 U z z (c2, 4) = some c3 ∧ Holds run trace (withCm trace b2 b3) o [ch, ch, ch, ch] c3.mem (· < 8) ∧ c3.mem .cm1_n = c.mem .cm1_n := by
  obtain ⟨o, P, O⟩ := circ
  have hP : genProgs 40 exps' cx {10} = some P := O.circ.progs
  obtain ⟨⟨b2, b3⟩, hb⟩ := columns_ok hP init2 init3
  have hlen : 8 ≤ o.st.cmN.length := by
    obtain ⟨cp, -, -, -, -, -, -, p, hp, -⟩ := O.col (k := 7) (by show 7 < 7 + 1; omega)
    have := (List.getElem?_eq_some_iff.mp hp).1
    omega
  obtain ⟨U, hU⟩ := setupOf_some hlen zi workers
  obtain ⟨c, hc, -⟩ := start_exists O [6, 5] rfl zi 2 []
  obtain ⟨z, hz1, hz2⟩ := Ext3.val_surj ch
  have hS : ∀ pc ∈ cx.pu, pc.fExp ∉ ({10} : Finset Nat) ∧ pc.tExp ∉ ({10} : Finset Nat) := by
    intro pc hpc
    obtain rfl := List.mem_singleton.mp hpc
    exact ⟨by decide, by decide⟩
  obtain ⟨c2, c3, g1, g2, -, g3, -, g4⟩ := rounds_spec O (.inl hz1) (.inl hz1) (.inl hz1) (.inl hz1) (by rw [hz2]; exact hb) hc (O.side hS _) h1 h2 hU
  rw [hz2] at g3
  exact ⟨o, P, b2, b3, U, c, z, .inl hz1, hz2, O, hb, hc, hS, hU, c2, c3, g1, g2, g3, g4⟩

end Example

end

end Verif.Stage
