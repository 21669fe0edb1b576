import Verif.Stage.FullAccept

/-!
# The prover on its buffers, on the circuit with a lookup, a permutation and a connection
-/
set_option linter.unusedSectionVars false

namespace Verif.Stage.Example
open Codegen Codegen.Spec Verif.Stark ImPols ImPols.Spec FFT Fri Verif.Grand Verif.Grand.Ex
open Verif.GL (F)
open Verif.Ext3 (F3G K WF val ofF coord)
open Verif.Interp (Sec Info algF3 setWidth execInfo)
open Verif.Map (secN sec2 Out Rel fixProverCode tgtOf inOf layN)
open Verif.Stark.Example (ones rest)

noncomputable section

/-- every committed column in a program exists -/
def below (n : Nat) (code : List (Codegen.Instr K)) : Bool := code.all fun c => (c.dest :: c.src).all fun r => r.ty != .cm || r.id < n

theorem below_iff {n : Nat} {code : List (Codegen.Instr K)} (h : below n code = true) : ∀ c ∈ code, ∀ r ∈ c.dest :: c.src, r.ty = .cm → r.id < n := by
  unfold below at h
  simp only [List.all_eq_true] at h
  intro c hc r hr ht
  have := h c hc r hr
  rw [ht] at this
  simpa using this

theorem steps_below : ((Stark.setup 30 40 exps' [9, 12, 13, 16, 21, 22] 7 1 Grand.Ex.pos rest).map fun U => below 10 U.step42 && below 10 U.step52) = some true := by
  have hs : ({10} : Finset Nat).sort (· ≤ ·) = [10] := by simp
  unfold Stark.setup
  rw [show 2 ^ 1 + 1 = 3 from rfl, generated, Option.bind_some]
  simp only
  rw [hs, im, Grand.Ex.done]
  decide +kernel

/-- the layout of the circuit, with the dimension of the quotient -/
theorem circ_q : ∃ (o : Out) (P : Progs), Circ run trace {10} (some 0) st st' args cx lims 40 P 2 cE (eCm 0) 40 o Map.litK ∧ o.qDim = 3 := by
  obtain ⟨o, S, q, ce, h1, -, h3, -, rfl, rfl, rfl⟩ := Map.Example.circuit_ok
  obtain ⟨P, hP⟩ := progs_some
  have hpos := pos_eq h1 h3
  have hq : o.qDim = 3 := by
    simp only [Map.Example.summary, Prod.mk.injEq] at h3
    exact h3.2.2.2
  refine ⟨o, P, ⟨circuit hP, h1, hpos.symm, ?_, Map.litK_spec, Map.litK_dim, ?_⟩, hq⟩
  · simp only [Map.Example.summary, Prod.mk.injEq, List.map_cons, List.map_nil, List.cons.injEq] at h3
    obtain ⟨-, -, ⟨w1, w2, w3, -⟩, -⟩ := h3
    intro t h1 h2
    interval_cases t
    · rw [w1]; rfl
    · rw [w2]; rfl
    · rw [w3]; rfl
  · intro e he
    simp only [st, Grand.Ex.exps, List.mem_cons, List.not_mem_nil, or_false] at he
    rcases he with rfl | rfl | rfl | rfl | rfl <;> exact Map.NoX.leaf rfl

/-- the programs of steps 4 and 5 exist -/
theorem codes_some {U : Stark.Setup K} (hU : Stark.setup 30 40 exps' [9, 12, 13, 16, 21, 22] 7 1 Grand.Ex.pos rest = some U) (hx : ExpsE 7 exps') {n : Nat} (hn : 10 ≤ n)
    (tmpexps : List (Nat × Nat)) : ∃ c, codes2ns tmpexps n Map.litK exps' 40 7 U = some c := by
  have hb := steps_below
  rw [hU, Option.map_some, Option.some.injEq, Bool.and_eq_true] at hb
  obtain ⟨ctx, out, fe, ctx5, S⟩ := setup_ok hU
  have him := (cExp_ok S.gen hx).2
  rw [S.step42, S.step52] at hb
  obtain ⟨k4, t4, f4⟩ := Map.fixProverCode_total (tgt := tgtOf (U.S.sort (· ≤ ·)) (im2cmOf U.S 7) tmpexps .ns2) (nCols := n) (lit := Map.litK) (tmpUsed := ctx.tmpUsed)
    (fun c hc r hr ht => lt_of_lt_of_le (below_iff hb.1 c hc r hr ht) hn)
  obtain ⟨k5, t5, f5⟩ := Map.fixProverCode_total (tgt := tgtOf (U.S.sort (· ≤ ·)) (im2cmOf U.S 7) tmpexps .ns2) (nCols := n) (lit := Map.litK) (tmpUsed := ctx5.tmpUsed)
    (fun c hc r hr ht => lt_of_lt_of_le (below_iff hb.2 c hc r hr ht) hn)
  obtain ⟨code4, p4⟩ : ∃ code4, pushZi k4 = some code4 := by
    have hid : (false, exps'.length) ∉ imDone U.S := by
      intro h
      have := (Stark.imDone_mem U.S false exps'.length).1 h
      have := him exps'.length (by simpa using this)
      omega
    obtain ⟨init, last, hil, -⟩ := code_last S.gen4 hid
    obtain ⟨em, hout, -⟩ := Map.fixProverCode_spec f4
    unfold pushZi
    rw [hout, hil, List.map_append, List.map_singleton, List.getLast?_append]
    exact ⟨_, rfl⟩
  unfold codes2ns
  rw [S.gen4, Option.bind_some, f4, Option.bind_some, p4, Option.bind_some, S.fri, Option.bind_some, S.gen5, Option.bind_some, f5]
  exact ⟨_, rfl⟩

/-- the inverses of the vanishing polynomial -/
def zis (j : Nat) : Option F3G := some (ofF (zhInv Roots.mg Roots.shift run.nb run.ext 0 j))

theorem fulls (workers : Nat) (h1 : 1 ≤ workers) (h2 : workers ≤ 2048) (init2 init3 : FftP.Buf F) (dirty : Nat → FftP.Buf F) :
    ∃ (U : Stark.Setup K) (o : Out) (P : Progs) (S : Full) (fixed : List F) (ctree : MerkleGL.MT F),
      Ready run trace U (some 0) st st' args cx lims 40 P (eCm 0) 40 o Map.litK init2 init3 30 40 rest S zis workers [6, 5] fixed ∧
      (glMT ones 3).merkelize fixed trace.nConst (2 ^ (run.nb + run.ext)) = some ctree ∧ U.S = {10} ∧ U.qDeg = 2 ∧ genProgs 40 exps' cx {10} = some P ∧ S.dirty = dirty := by
  obtain ⟨U, hU, hS, hq, hc⟩ := setup_some
  obtain ⟨o, P, O, hod⟩ := circ_q
  have hP : genProgs 40 exps' cx {10} = some P := O.circ.progs
  have W := wellFormed hU hS hq hc hP init2 init3
  have hside := O.side (by
    intro pc hpc
    obtain rfl := List.mem_singleton.mp hpc
    exact ⟨by decide, by decide⟩) (2 ^ run.nb)
  have hlen : 8 ≤ o.st.cmN.length := by
    obtain ⟨cp, -, -, -, -, -, -, p, hp, -⟩ := O.col (k := 7) (by show 7 < 7 + 1; omega)
    have := (List.getElem?_eq_some_iff.mp hp).1
    omega
  have hlen2 : 10 ≤ o.st.cm2ns.length := by
    have h : o.pos 9 = some ⟨4, 3, 3⟩ := by rw [← O.pos]; rfl
    obtain ⟨p, hp, -⟩ := Option.bind_eq_some_iff.mp h
    have := (List.getElem?_eq_some_iff.mp hp).1
    omega
  obtain ⟨s, hs⟩ := setupOf_some hlen zis workers
  obtain ⟨c, hcode⟩ := codes_some hU O.expsE hlen2 o.st.tmpexps
  obtain ⟨fixed, ctree, hfix, hct⟩ := const_total (Tc := argTrace run trace st.nCm P cx U.S init2 init3) (R := run) (perm := ones) (fun s h => by simp [ones]) (workers := 3) (by decide) W.sizes.fixed
    ⟨by show 3 < 2 ^ 21 + 8; decide, by decide⟩
  let S : Full := { toSetup := s, step4 := c.1, step5 := c.2, evMap := U.evMap, qDeg := U.qDeg, fftWorkers := run.workers, dirty := dirty }
  have hfull : fullOf (inOf st st' cx U.S U.qDeg U.cExp (eCm 0)) o Map.litK st'.exps 40 40 trace.nConst run.nCm cx U zis workers run.workers dirty = some S := by
    unfold fullOf
    rw [show setupOf (inOf st st' cx U.S U.qDeg U.cExp (eCm 0)) o Map.litK st'.exps 40 trace.nConst cx U.S zis workers = some s by rw [hS, hq, hc]; exact hs, Option.bind_some,
      show codes2ns o.st.tmpexps o.st.cm2ns.length Map.litK st'.exps 40 run.nCm U = some c from hcode, Option.map_some]
  exact ⟨U, o, P, S, fixed, ctree, ⟨by rw [hS, hq, hc]; exact O, W, hod.symm, by rw [hS, hq, hc]; exact hside, ⟨dirty, hfull⟩, fun _ => rfl, h1, h2, by decide, rfl, hfix⟩, hct, hS, hq, hP, rfl⟩

/-- **non-vacuity of `gen_refines` and `gen_accepted`**: for the circuit with a lookup, a permutation and a connection the prover on its buffers, whatever its buffers for the transforms
held, returns a proof, and the verifier accepts it -/
theorem genBuf_accepted (workers : Nat) (h1 : 1 ≤ workers) (h2 : workers ≤ 2048) (init2 init3 : FftP.Buf F) (dirty : Nat → FftP.Buf F) :
    ∃ (U : Stark.Setup K) (o : Out) (P : Progs) (S : Full) (fixed : List F) (ctree : MerkleGL.MT F),
      Ready run trace U (some 0) st st' args cx lims 40 P (eCm 0) 40 o Map.litK init2 init3 30 40 rest S zis workers [6, 5] fixed ∧ S.dirty = dirty ∧
      ∃ proof t', (∀ tmp, genBuf (glMT ones 3) (glTr ones) (run.cfg 8 [1]) TranscriptGL.new S ctree (ctx0 run trace S zis fixed [6, 5] tmp) = some (proof, t')) ∧
        starkVerify (glMT ones 3) (glTr ones) encK ⟨algebraMap F K, coord⟩ (run.cfg 8 [1]) Ext3.asElements val TranscriptGL.new U.info
          ((glMT ones 3).root ctree) proof = some (true, t') := by
  have hp : Linear.IsState ones := fun s h => by simp [ones]
  obtain ⟨U, o, P, S, fixed, ctree, H, hct, hS, hq, hP, hd⟩ := fulls workers h1 h2 init2 init3 dirty
  refine ⟨U, o, P, S, fixed, ctree, H, hd, ?_⟩
  have hk := columns_ok hP init2 init3
  rw [← hS] at hk
  have hids : ∀ i < 2 ^ run.nb, ∀ id ∈ st.ids, ∃ d, Val (fieldOps K) st.exps (stageStore run trace [] st.nCm i) d false (expE id) 0 := by
    intro i _ id hid
    simp [st] at hid
  obtain ⟨proof, t', g1, g2⟩ := columns_accepted (steps := [1]) (nQueries := 8) hp (workers := 3) (by decide) H.circ.circ H.wf ⟨(by
      intro s h1 h4
      refine ⟨?_, by decide⟩
      have : width4 run U (argTrace run trace st.nCm P cx U.S init2 init3) s ≤ 12 := by
        unfold width4
        rw [hq]
        show (if s = 4 then 3 * 2 else if s = 1 then 2 else if s = 2 then 6 else 12) ≤ 12
        split_ifs <;> omega
      omega), ⟨by show 3 < 2 ^ 21 + 8; decide, by decide⟩⟩ (show 23 < 40 by decide) hids (ofK := lift3) lift3_val Ext3.asElements (publics := [(6 : F), 5].map ofF) (by simp [run, Map.RowsEx.val_ofF]) (by decide)
    (by decide) ⟨by decide, trivial⟩ ⟨⟨by decide, by decide⟩, trivial⟩ H.fixed hct (by
      intro u dv ga be vc h
      have := drawn h
      simp only [List.cons.injEq] at this
      obtain ⟨rfl, rfl, rfl, rfl, -⟩ := this
      exact hk) (by
      intro cm hcm j hj
      rw [Stark.Example.J_commit hcm, xExt_eq, show mgK run.nb = algebraMap F K (Roots.mg run.nb) from rfl]
      refine ⟨fun h => ?_, fun h => ?_⟩
      · rw [← coord_base] at h
        have := (Ext3.coord_inj h).2.1
        exact zero_ne_one this
      · rw [← coord_base, ← coord_base, Ext3.coord_mul] at h
        have h1 := (Ext3.coord_inj h).2.1
        simp only [mul_zero, one_mul, add_zero, zero_add] at h1
        have h2 := Roots.mg_inv run.nb
        rw [← h1, zero_mul] at h2
        exact zero_ne_one h2)
  exact ⟨proof, t', gen_refines H (H.keys (show 23 < 40 by decide) hids g1) g1, g2⟩

end

end Verif.Stage.Example
