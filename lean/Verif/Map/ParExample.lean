import Verif.Map.ParRows
import Verif.Map.RowsExample

/-!
# The program of `RowsExample` in parallel
-/
namespace Verif.Map
open Verif.Codegen
open Verif.Codegen.Spec (Store readN exec Val ExpVal)
open Verif.Interp (Dom Sec Info algF3 cleared execInfo)
open Verif.Interp.Spec (Col rowOf meaning nodeCol readCol readBase cell)
open Verif.Ext3 (F3G K WF val ofF coord)
open Verif.Stark (fieldOps)
open Verif.GL (F)

namespace RowsEx

noncomputable section

/-- step2prev leaves the column of the program new -/
theorem cleared_mem (t : Sec) : (cleared algF3 (execInfo info .step2prev) 2 bufs).mem t = bufs.mem t := by
  cases t <;> rfl

theorem cleared_mems : (cleared algF3 (execInfo info .step2prev) 2 bufs).mem = bufs.mem := funext cleared_mem

theorem provided (i : Nat) : Provided info (execInfo info .step2prev) 2 1 bufs i (rowEnv info .n 2 1 bufs i) := by
  refine ⟨fun t k p v h => h, fun k p v h => ?_, fun k p v h => ?_, fun k p v h => ?_, fun k p => ⟨rfl, rfl⟩⟩
  · dsimp only [rowEnv] at h
    obtain ⟨col, h1, -⟩ := Option.bind_eq_some_iff.mp h
    refine ⟨col, h1, ?_⟩
    match k, h1 with
    | 0, h1 =>
      have h' : some (⟨.cm1_n, 0, 1, 1⟩ : Col) = some col := h1
      cases h'
      exact ⟨by simp [execInfo], le_refl 1, rfl⟩
    | k + 1, h1 => simp [nodeCol, info] at h1
  · have h' : (readCol algF3 bufs.mem ⟨.const_n, k, 1, 0⟩ (rowOf 2 1 p i)).map val = some v := h
    simp [readCol, cell, bufs] at h'
  · have h' : (readCol algF3 bufs.mem ⟨.x_n, 0, 1, 1⟩ i).map val = some v := h
    simp [readCol, cell, bufs] at h'

theorem lens : ∀ x ∈ (execInfo info .step2prev).inp ++ (execInfo info .step2prev).out, (bufs.mem x).length = 2 * Interp.setWidth info x := by
  intro x hx
  simp only [execInfo, List.cons_append, List.nil_append, List.mem_cons, List.not_mem_nil, or_false] at hx
  rcases hx with rfl | rfl | rfl | rfl | rfl <;> rfl

theorem widths : ∀ ty j col, lay.col ty j = some col → col.sec ∈ (execInfo info .step2prev).out ∧ col.width = Interp.setWidth info col.sec := by
  intro ty j col h
  obtain ⟨-, -, rfl⟩ := col3 h
  exact ⟨by simp [execInfo], rfl⟩

/-- the hypotheses of `par_rows` hold (one chunk of two rows), and so do those of `parN_rows` with two chunks of one row; the column is computed -/
theorem par (workers : Nat) (h1 : 1 ≤ workers) (h2 : workers ≤ 2048) : ∃ out n c' c'',
    Interp.calcPar algF3 info (fun _ _ => none) out n workers .step2prev bufs = some c' ∧ (∀ i < 2, Hold c'.mem ⟨.tmpexp_n, 0, 1, 1⟩ i (v3 i)) ∧
    Interp.calcParN algF3 info (execInfo info .step2prev) (fun _ _ => none) out n 1 bufs = some c'' ∧ (∀ i < 2, Hold c''.mem ⟨.tmpexp_n, 0, 1, 1⟩ i (v3 i)) ∧
    c'.mem .cm1_n = bufs.mem .cm1_n ∧ c''.mem .cm1_n = bufs.mem .cm1_n := by
  obtain ⟨ctx, hg⟩ := prog_some
  obtain ⟨out, tU, hf⟩ := fixProverCode_total (tgt := lay.tgt) (lit := lay.lit) (tmpUsed := ctx.tmpUsed) (cmLt hg)
  obtain ⟨X, hX⟩ := exists_values exps (fun i => rowEnv info .n 2 1 bufs i)
  have hval : ∀ p id i v, Needed exps reqs p id → i < 2 → ExpVal (fieldOps K) exps (rowEnv info .n 2 1 bufs i) p id v → X .exp id (rowOf 2 1 p i) = v := by
    intro p id i v hn hi hv
    cases p with
    | false => exact hX id i v hv
    | true => exact hX id _ v (expVal_shift (needed_closed exps reqs) noPoint hn hv)
  have h3 : ∀ i < 2, X .exp 3 i = v3 i := fun i hi => hX 3 i _ ⟨2, _, rfl, val3 i hi⟩
  have hfr : Fresh lay X bufs.mem := by
    intro ty j col h r _
    obtain ⟨-, -, rfl⟩ := col3 h
    exact .inl fun h => absurd h (by decide)
  obtain ⟨c', a1, -, -, a2, a3⟩ := par_rows (L := lay) (exps := exps) (c := bufs) (T := fun _ => 1) (X := X) (σ := fun i => rowEnv info .n 2 1 bufs i) (m := tU)
    (workers := workers) (zi := fun _ _ => none) (st := .step2prev) (by simp) hg hf (le_refl _) reqsOk ops dims litOk rfl rfl rfl (by decide) (by decide) h1 h2 (fun _ _ => rfl) lens
    (by show PlaceOk lay _ (cleared algF3 (execInfo info .step2prev) 2 bufs).mem; rw [cleared_mems]; exact place) widths read cells
    (by show Fresh lay _ (cleared algF3 (execInfo info .step2prev) 2 bufs).mem; rw [cleared_mems]; exact hfr)
    (fun i _ => provided i) vals hval
  obtain ⟨c'', b1, -, -, b2, b3⟩ := parN_rows (L := lay) (ex := execInfo info .step2prev) (exps := exps) (c := bufs) (T := fun _ => 1) (X := X) (σ := fun i => rowEnv info .n 2 1 bufs i) (m := tU)
    (npt := 1) (zi := fun _ _ => none) (Interp.execOk _ _) rfl hg hf (le_refl _) reqsOk ops dims litOk rfl rfl rfl (by decide) (by decide)
    (fun q h => by have h' : (q + 1) * 1 < 2 := h; show (q + 1) * 1 + 1 ≤ 2; omega) (fun _ _ => rfl) lens
    (by show PlaceOk lay _ (cleared algF3 (execInfo info .step2prev) 2 bufs).mem; rw [cleared_mems]; exact place) widths read cells
    (by show Fresh lay _ (cleared algF3 (execInfo info .step2prev) 2 bufs).mem; rw [cleared_mems]; exact hfr)
    (fun i _ => provided i) vals hval
  refine ⟨out, tU, c', c'', a1, fun i hi => ?_, b1, fun i hi => ?_, a2 _ (by simp [execInfo]), b2 _ (by simp [execInfo])⟩
  · rw [← h3 i hi]
    exact a3 { id := 3 } (by simp [reqs]) ⟨.tmpexp_n, 0, 1, 1⟩ rfl i hi
  · rw [← h3 i hi]
    exact b3 { id := 3 } (by simp [reqs]) ⟨.tmpexp_n, 0, 1, 1⟩ rfl i hi

end

end RowsEx

end Verif.Map
