import Verif.Stage.Ext
import Verif.Stark.ProverExample
import Verif.Map.RowsExample

/-!
# Buffers for steps 4 and 5, and both steps on a concrete circuit
-/
set_option linter.unusedSectionVars false

namespace Verif.Stage
open Verif.Codegen (NTy IOp Expr Label Op linearCode pilCodeGen)
open Verif.Interp (NodeTy OpTy Dom Sec Info algF3 calcPar)
open Verif.Interp.Spec (Col nodeCol polCol)
open Verif.Ext3 (F3G K coord val WF ofF)
open Verif.Stark (Run Setup Trace ColPos extStore width4 zhInv im2cmOf imDone Layout Dims quotRow friRows xDivs cells4 splitQ cellsOf)
open Verif.FFT (mgK shiftK)
open Verif.Fri (encK)
open Verif.GL (F)
open Verif.Map (Rel tgtOf sec2 fixProverCode)

noncomputable section

/-- **C103** what follows step 4: if the rounds of the prover compute the section `cm4_2ns` from the extended columns, then it is computed from the cells the
interpreter left in `q_2ns` (stark_gen.rs L368-396). -/
theorem step4_cells {R : Run} {U : Setup K} {T : Trace} {s : Info} {exps : List (Expr K)} {ids : List Nat} {fuelI fuel : Nat} {rest : List (Codegen.Code K) → List (Codegen.Instr K)}
    (hset : Stark.setup fuelI fuel exps ids R.nCm R.ext R.pos rest = some U) (hL : Layout R U T) (hD : Dims R U exps) (hx : ExpsE R.nCm exps)
    (hq : R.qDim = 1 ∨ R.qDim = 3) (hE : ExtLay R U T s) {lit : K → F3G} (hlit : LitOk lit)
    {ctx : Codegen.Ctx K} (hgen : pilCodeGen 0 (exps ++ [U.cExp]) fuel ⟨0, [], imDone U.S⟩ exps.length false none false = some ctx)
    {tmpexps : List (Nat × Nat)} {nCols tU : Nat} {code code' : List (Interp.Instr F3G)}
    (hfix : fixProverCode (tgtOf (U.S.sort (· ≤ ·)) (im2cmOf U.S R.nCm) tmpexps .ns2) nCols lit ctx.tmpUsed (linearCode ctx) = some (code, tU)) (hpush : pushZi code = some code')
    {cells : Nat → List F} {fixed : List F} {ch : List K} {c : Interp.Ctx F3G F} (hB : ExtBufs R U T s 3 cells fixed ch [] [] [] c)
    (hqlen : (c.mem .q_2ns).length = 2 ^ (R.nb + R.ext) * R.qDim) (hext : R.ext ≤ 11) {workers : Nat} (hw1 : 1 ≤ workers) (hw : workers ≤ 2048)
    {l : List F} (hl : cells4 R U T ch fixed cells = some l) :
    ∃ (c' : Interp.Ctx F3G F) (q : FftP.Buf F), calcPar algF3 s (ziOf R) code' tU workers .step4 c = some c' ∧
      c'.mem .q_2ns = (List.range (2 ^ (R.nb + R.ext) * R.qDim)).map (fun x => ofF (q x)) ∧ (∀ x, x ≠ .tmp → x ≠ .q_2ns → c'.mem x = c.mem x) ∧
      (splitQ Roots.mg Roots.shift R.workers R.nb (R.nb + R.ext) U.qDeg R.qDim q (fun _ => 0) (fun _ => 0)).map
        (fun b => cellsOf b (R.qDim * U.qDeg) (2 ^ (R.nb + R.ext))) = some l := by
  unfold cells4 at hl
  obtain ⟨rows, h1, h2⟩ := Option.bind_eq_some_iff.mp hl
  obtain ⟨c', g1, g2, g3⟩ := step4 hset hL hD hx hq hE hlit hgen hfix hpush hB hqlen hext hw1 hw h1
  exact ⟨c', _, g1, g2, g3, h2⟩

/-- Buffers as steps 4 and 5 require them exist for all columns: what `stark_gen` allocates and fills. -/
theorem bufs_exist (R : Run) (U : Setup K) (T : Trace) (s : Info) (cells : Nat → List F) (fixed : List F) (ch evals xd xdw : List K)
    (hc : ∀ t, 1 ≤ t → t ≤ 4 → (cells t).length = width4 R U T t * 2 ^ (R.nb + R.ext)) (hf : fixed.length = T.nConst * 2 ^ (R.nb + R.ext))
    (pub : List F) (hp : R.publics = pub.map (algebraMap F K)) :
    ∃ c, ExtBufs R U T s 4 cells fixed ch evals xd xdw c ∧ (c.mem .q_2ns).length = 2 ^ (R.nb + R.ext) * R.qDim ∧ (c.mem .f_2ns).length = 2 ^ (R.nb + R.ext) * 3 := by
  let mem : Sec → List F3G := fun t => match t with
    | .cm1_2ns => (cells 1).map ofF
    | .cm2_2ns => (cells 2).map ofF
    | .cm3_2ns => (cells 3).map ofF
    | .cm4_2ns => (cells 4).map ofF
    | .const_2ns => fixed.map ofF
    | .x_2ns => (List.range (2 ^ (R.nb + R.ext))).map fun j => ofF (Roots.shift * Roots.mg (R.nb + R.ext) ^ j)
    | .publics => pub.map ofF
    | .challenge => ch.map Map.litK
    | .evals => evals.map Map.litK
    | .q_2ns => List.replicate (2 ^ (R.nb + R.ext) * R.qDim) (ofF 0)
    | .f_2ns => List.replicate (2 ^ (R.nb + R.ext) * 3) (ofF 0)
    | _ => []
  have hlit : ∀ (l : List K) (i : Nat) v, l[i]? = some v → ∃ w, (l.map Map.litK)[i]? = some w ∧ Rel v w 3 := by
    intro l i v h
    refine ⟨Map.litK v, by rw [List.getElem?_map, h]; rfl, (Map.litK_spec v).1, (Map.litK_spec v).2, Map.wf_dim (Map.litK_spec v).1⟩
  refine ⟨⟨R.nb, R.nb + R.ext, mem, xd.flatMap encK.enc, xdw.flatMap encK.enc, fun j => some (ofF (zhInv Roots.mg Roots.shift R.nb R.ext 0 j))⟩, ⟨rfl, rfl, ?_, hc, rfl, hf, rfl, ?_, hlit ch, hlit evals, rfl, rfl, fun _ => rfl⟩,
    by simp [mem], by simp [mem]⟩
  · intro t h1 h4
    obtain rfl | rfl | rfl | rfl : t = 1 ∨ t = 2 ∨ t = 3 ∨ t = 4 := by omega
    all_goals rfl
  · intro i v h
    rw [hp, List.getElem?_map] at h
    obtain ⟨a, h1, rfl⟩ := Option.map_eq_some_iff.mp h
    exact ⟨ofF a, by show (pub.map ofF)[i]? = _; rw [List.getElem?_map, h1]; rfl, rel_ofF a (le_refl _)⟩

/-- buffers with the fourth section are buffers with three -/
theorem ExtBufs.less {R : Run} {U : Setup K} {T : Trace} {s : Info} {cells : Nat → List F} {fixed : List F} {ch evals xd xdw : List K} {c : Interp.Ctx F3G F} {m m' : Nat}
    (h : ExtBufs R U T s m cells fixed ch evals xd xdw c) (hm : m' ≤ m) {cells' : Nat → List F} (hc : ∀ t ≤ m', cells' t = cells t) :
    ExtBufs R U T s m' cells' fixed ch evals xd xdw c :=
  { h with mem := fun t h1 h2 => (by rw [hc t h2]; exact h.mem t h1 (by omega)), size := fun t h1 h2 => (by rw [hc t h2]; exact h.size t h1 (by omega)) }

/-- `fix_prover_code` succeeds with enough columns -/
theorem fix_exists (tgt : Nat → Option (NodeTy × Nat)) (lit : K → F3G) (tU : Nat) (code : List (Codegen.Instr K)) :
    ∃ nCols out t, fixProverCode tgt nCols lit tU code = some (out, t) := by
  have hb : ∀ l : List Nat, ∃ n, ∀ x ∈ l, x < n := by
    intro l
    induction l with
    | nil => exact ⟨0, by simp⟩
    | cons a l ih =>
      obtain ⟨n, hn⟩ := ih
      refine ⟨n + a + 1, fun x hx => ?_⟩
      rcases List.mem_cons.mp hx with rfl | hx
      · omega
      · have := hn x hx; omega
  obtain ⟨n, hn⟩ := hb (code.flatMap fun c => (c.dest :: c.src).map fun r => r.id)
  obtain ⟨out, t, h⟩ := Map.fixProverCode_total (tgt := tgt) (nCols := n) (lit := lit) (tmpUsed := tU) (code := code)
    fun c hc r hr _ => hn _ (List.mem_flatMap.mpr ⟨c, hc, List.mem_map.mpr ⟨r, hr, rfl⟩⟩)
  exact ⟨n, out, t, h⟩

namespace ExtExample
open Verif.Stark.Example

/-- the layout of the example: the column, the intermediate polynomial and the quotient -/
def info : Info where
  cmN := []
  cm2ns := [0, 1, 2]
  tmpexpN := []
  varPolMap := [⟨.cm1_2ns, 0, 1⟩, ⟨.cm3_2ns, 0, 1⟩, ⟨.cm4_2ns, 0, 3⟩]
  sectionsN t := match t with
    | .cm1_2ns => 1
    | .cm3_2ns => 1
    | .cm4_2ns => 3
    | .q_2ns => 3
    | .f_2ns => 3
    | _ => 0
  nConstants := 1
  qDim := 3

theorem lay {U : Setup K} (hq : U.qDeg = 1) (hL : Layout run U trace) : ExtLay run U trace info where
  col := by
    intro k cp h
    have hw : width4 run U trace 4 = 3 := by simp [width4, run, hq]
    match k, h with
    | 0, h => obtain rfl := Option.some.inj h; rfl
    | 1, h => obtain rfl := Option.some.inj h; rfl
    | 2, h => obtain rfl := Option.some.inj h; show _ = some (⟨sec2 4, 0, 3, width4 run U trace 4⟩ : Col); rw [hw]; rfl
  dims := hL.dims
  width := by
    intro t h1 h4
    have hw : width4 run U trace 4 = 3 := by simp [width4, run, hq]
    obtain rfl | rfl | rfl | rfl : t = 1 ∨ t = 2 ∨ t = 3 ∨ t = 4 := by omega
    · rfl
    · rfl
    · rfl
    · rw [hw]; rfl
  const_ := rfl
  q := rfl
  qWidth := rfl
  fWidth := rfl

theorem expsOk : ExpsE 1 exps := by
  have h0 : ∀ l, Map.HasLabel l e0 → l.op = .mul ∨ (l.op = .cm ∧ l.id = some 0) := by
    intro l hl
    rcases hasLabel_two hl with rfl | hl | hl
    · exact .inl rfl
    · rw [hasLabel_one hl]; exact .inr ⟨rfl, rfl⟩
    · rw [hasLabel_one hl]; exact .inr ⟨rfl, rfl⟩
  have h1 : ∀ l, Map.HasLabel l e1 → l.op = .sub ∨ l.op = .mul ∨ l.op = .exp ∨ l.op = .public_ := by
    intro l hl
    rcases hasLabel_two hl with rfl | hl | hl
    · exact .inl rfl
    · rcases hasLabel_two hl with rfl | hl | hl
      · exact .inr (.inl rfl)
      · rw [hasLabel_one hl]; exact .inr (.inr (.inl rfl))
      · rw [hasLabel_one hl]; exact .inr (.inr (.inl rfl))
    · rw [hasLabel_one hl]; exact .inr (.inr (.inr rfl))
  refine ⟨fun e he => ?_, fun e he l hl => ?_, fun e he l hl ho i hi => ?_⟩
  all_goals
    simp only [exps, List.mem_cons, List.not_mem_nil, or_false] at he
    rcases he with rfl | rfl
  · exact tidy_two (.inr (.inr (.inl rfl))) (tidy_leaf _) (tidy_leaf _)
  · exact tidy_two (.inr (.inl rfl)) (tidy_two (.inr (.inr (.inl rfl))) (tidy_leaf _) (tidy_leaf _)) (tidy_leaf _)
  · rcases h0 l hl with h | h <;> simp [h]
  · rcases h1 l hl with h | h | h | h <;> simp [h]
  · rcases h0 l hl with h | h
    · rw [h] at ho; cases ho
    · rw [h.2] at hi; cases hi; decide
  · rcases h1 l hl with h | h | h | h <;> (rw [h] at ho; cases ho)

/-- non-vacuity of `step4_cells` and `step5`: for the trace `2, 3` and all challenges the buffers exist and both steps run on them, for every number of workers up to 2048 -/
example (u dv ga be vc v1 v2 xi : K) (hxi : ∀ j < 2 ^ (run.nb + run.ext), Stark.xExt run j ≠ xi ∧ Stark.xExt run j ≠ xi * mgK run.nb) (workers : Nat) (hw1 : 1 ≤ workers) (hw : workers ≤ 2048) :
    ∃ (U : Setup K) (fixed : List F) (cells : Nat → List F) (code4 code5 : List (Interp.Instr F3G)) (t4 t5 : Nat) (c4 c4' c5 c5' : Interp.Ctx F3G F) (q : FftP.Buf F) (evals pol : List K),
      Stark.setup 10 10 exps [1] 1 1 pos rest = some U ∧ Stark.constCells run trace = some fixed ∧
      ExtBufs run U trace info 3 cells fixed [u, dv, ga, be, vc, 0, 0, 0] [] [] [] c4 ∧ calcPar algF3 info (ziOf run) code4 t4 workers .step4 c4 = some c4' ∧
      c4'.mem .q_2ns = (List.range (2 ^ (run.nb + run.ext) * 3)).map (fun x => ofF (q x)) ∧
      (splitQ Roots.mg Roots.shift run.workers run.nb (run.nb + run.ext) U.qDeg run.qDim q (fun _ => 0) (fun _ => 0)).map
        (fun b => cellsOf b (run.qDim * U.qDeg) (2 ^ (run.nb + run.ext))) = some (cells 4) ∧
      friRows run U trace [u, dv, ga, be, vc, v1, v2, xi] evals fixed cells = some pol ∧ calcPar algF3 info (ziOf run) code5 t5 workers .step5 c5 = some c5' ∧
      c5'.mem .f_2ns = (List.range (2 ^ (run.nb + run.ext) * 3)).map (fun x => ofF ((encK.enc (pol.getD (x / 3) 0)).getD (x % 3) 0)) := by
  obtain ⟨U, hU, hS, hq, hc⟩ := setup_some
  have W := wellFormed hU hS hq hc
  have hlit : LitOk Map.litK := ⟨Map.litK_spec, Map.litK_dim⟩
  obtain ⟨fixed, hfix⟩ : ∃ fixed, Stark.constCells run trace = some fixed := by
    obtain ⟨fixed, ctree, h, -⟩ := Stark.const_total (Tc := trace) (R := run) (perm := ones) (fun s h => by simp [ones]) (workers := 3) (by decide) W.sizes.fixed ⟨by show 1 < 2 ^ 21 + 8; decide, by decide⟩
    exact ⟨fixed, h⟩
  obtain ⟨cells, P, Pc, x1, x2, x3, x4, hOn, hOc, hdc, hkey, hne, hid⟩ := Stark.prover_data W hfix (d := 3) (by decide) (u := u) (dv := dv) (ga := ga) (be := be) (vc := vc)
    (by rw [hS]; exact satisfied _)
  obtain ⟨ctx, out, fe, ctx5, S⟩ := Stark.setup_ok W.setup
  have him := (cExp_ok S.gen expsOk).2
  obtain ⟨Fp, pol, -, hpol, -⟩ := Stark.fri_spec (chal := [u, dv, ga, be, vc, v1, v2, xi]) (W.bits.le) W.layout hOn hOc hdc hkey hne W.qDeg W.rest S him
    (by decide) (v1 := v1) (v2 := v2) (xi := xi) rfl rfl rfl hxi
  have hL := lay hq W.layout
  have hsz : ∀ t, 1 ≤ t → t ≤ 4 → (cells t).length = width4 run U trace t * 2 ^ (run.nb + run.ext) := fun t h1 h4 => (hOn t h1 h4).1.1
  have hpub : run.publics = [(36 : F)].map (algebraMap F K) := by
    show [(36 : K)] = [algebraMap F K 36]
    rw [map_ofNat]
  -- step 4
  unfold Stark.cells1234 at x4
  obtain ⟨cells', y1, y2⟩ := Option.bind_eq_some_iff.mp x4
  obtain ⟨l4, y3, y4⟩ := Option.map_eq_some_iff.mp y2
  have hc4 : cells 4 = l4 := by rw [← y4]; rfl
  have hcc : ∀ t ≤ 3, cells' t = cells t := fun t ht => by rw [← y4]; exact (if_neg (by omega)).symm
  obtain ⟨c4, b1, b2, -⟩ := bufs_exist run U trace info cells fixed [u, dv, ga, be, vc, 0, 0, 0] [] [] [] hsz hOc.1 [36] hpub
  obtain ⟨n4, k4, t4, f4⟩ := fix_exists (tgtOf (U.S.sort (· ≤ ·)) (im2cmOf U.S run.nCm) [] .ns2) Map.litK ctx.tmpUsed (linearCode ctx)
  obtain ⟨code4, p4⟩ : ∃ code4, pushZi k4 = some code4 := by
    have hid : (false, exps.length) ∉ imDone U.S := by
      intro h
      have := (Stark.imDone_mem U.S false exps.length).1 h
      have := him exps.length (by simpa using this)
      omega
    obtain ⟨init, last, hil, -⟩ := code_last S.gen4 hid
    obtain ⟨em, hout, -⟩ := Map.fixProverCode_spec f4
    unfold pushZi
    rw [hout, hil, List.map_append, List.map_singleton, List.getLast?_append]
    exact ⟨_, rfl⟩
  obtain ⟨c4', q, z1, z2, -, z4⟩ := step4_cells W.setup W.layout W.dims expsOk (.inr rfl) hL hlit S.gen4 f4 p4 (b1.less (m' := 3) (by omega) hcc) b2 (by decide) hw1 hw y3
  -- step 5
  set evals := U.evMap.map fun k => (Stark.colOf run P Pc k).eval (if k.2.1 then mgK run.nb * xi else xi) with hev
  obtain ⟨c5, d1, -, d3⟩ := bufs_exist run U trace info cells fixed [u, dv, ga, be, vc, v1, v2, xi] evals (xDivs run xi) (xDivs run (xi * mgK run.nb)) hsz hOc.1 [36] hpub
  obtain ⟨n5, code5, t5, f5⟩ := fix_exists (tgtOf (U.S.sort (· ≤ ·)) (im2cmOf U.S run.nCm) [] .ns2) Map.litK ctx5.tmpUsed (linearCode ctx5)
  obtain ⟨c5', w1, w2, -⟩ := step5 W.setup expsOk hL hlit S.gen4 S.fri S.gen5 f5 d1 d3 (by decide) hw1 hw hpol
  exact ⟨U, fixed, cells, code4, code5, t4, t5, c4, c4', c5, c5', q, evals, pol, hU, hfix, b1.less (by omega) (fun _ _ => rfl), z1, z2, by rw [hc4]; exact z4, hpol, w1, w2⟩

end ExtExample

end

end Verif.Stage
