import Verif.Stage.FullRounds
import Verif.Stage.ExtExample

/-!
# The quotient, the openings and the FRI polynomial on the buffers
-/
set_option linter.unusedSectionVars false

namespace Verif.Stage
open Verif.Codegen (NTy IOp Expr Label Op linearCode pilCodeGen)
open Verif.Stark FFT Fri
open Verif.GL (F)
open Verif.Ext3 (F3G K WF val ofF coord)
open Verif.Interp (Sec Info algF3 setWidth execInfo)
open Verif.Interp.Spec (nodeCol polCol)
open Verif.Map (secN sec2 Out Rel fixProverCode tgtOf)

noncomputable section

variable {Root Path Tree : Type}

/-- The programs of steps 4 and 5 as the prover stores them (starkinfo_cp_prover.rs L97-112, starkinfo_fri_prover.rs L10-85, starkinfo_map.rs L245-251): generated in
one context, the second with the counter of temporaries and the expressions of the first, and rewritten by `fix_prover_code` for the extended domain. -/
def codes2ns (tmpexps : List (Nat × Nat)) (nCols : Nat) (lit : K → F3G) (exps : List (Expr K)) (fuel nCm : Nat) (U : Stark.Setup K) : Option (Code × Code) :=
  (pilCodeGen 0 (exps ++ [U.cExp]) fuel ⟨0, [], imDone U.S⟩ exps.length false none false).bind fun ctx =>
  (fixProverCode (tgtOf (U.S.sort (· ≤ ·)) (im2cmOf U.S nCm) tmpexps .ns2) nCols lit ctx.tmpUsed (linearCode ctx)).bind fun r4 =>
  (pushZi r4.1).bind fun c4 =>
  (friExpr (nCm + U.S.card + U.qDeg) U.evMap).bind fun fe =>
  (pilCodeGen 0 (exps ++ [U.cExp] ++ [fe]) fuel ⟨ctx.tmpUsed, [], ctx.calculated⟩ (exps.length + 1) false (some (.f, 0)) false).bind fun ctx5 =>
  (fixProverCode (tgtOf (U.S.sort (· ≤ ·)) (im2cmOf U.S nCm) tmpexps .ns2) nCols lit ctx5.tmpUsed (linearCode ctx5)).map fun r5 => (⟨c4, r4.2⟩, ⟨r5.1, r5.2⟩)

/-- what is used of the setup in steps 4 and 5 -/
structure Steps (R : Run) (U : Stark.Setup K) (T : Trace) (S : Full) (exps : List (Expr K)) (ids : List Nat) (fuelI fuel : Nat)
    (rest : List (Codegen.Code K) → List (Codegen.Instr K)) : Prop where
  set : Stark.setup fuelI fuel exps ids R.nCm R.ext R.pos rest = some U
  layout : Layout R U T
  dims : Dims R U exps
  ex : ExpsE R.nCm exps
  q : R.qDim = 1 ∨ R.qDim = 3
  lay : ExtLay R U T S.info
  codes : ∃ (lit : K → F3G) (tmpexps : List (Nat × Nat)) (nCols : Nat), LitOk lit ∧ codes2ns tmpexps nCols lit exps fuel R.nCm U = some (S.step4, S.step5)
  zi : S.zi = ziOf R
  ext : R.ext ≤ 11
  nb : R.nb ≤ 31
  w1 : 1 ≤ S.workers
  w : S.workers ≤ 2048
  fft : S.fftWorkers = R.workers
  evMap : S.evMap = U.evMap
  qDeg : S.qDeg = U.qDeg
  keys : ∀ k ∈ U.evMap, KeyOk R T k

/-- what is used of the buffers: those of the extended domain with the first three sections -/
structure Bufs3 (R : Run) (U : Stark.Setup K) (T : Trace) (cells : Nat → List F) (fixed : List F) (ch : List K) (publics : List F) (c : Ctx) : Prop where
  nbits : c.nbits = R.nb
  nbitsExt : c.nbitsExt = R.nb + R.ext
  mem : ∀ t, 1 ≤ t → t ≤ 3 → c.mem (sec2 t) = (cells t).map ofF
  size : ∀ t, 1 ≤ t → t ≤ 3 → (cells t).length = T.width t * 2 ^ (R.nb + R.ext)
  constMem : c.mem .const_2ns = fixed.map ofF
  constSize : fixed.length = T.nConst * 2 ^ (R.nb + R.ext)
  x : c.mem .x_2ns = (List.range (2 ^ (R.nb + R.ext))).map fun j => ofF (Roots.shift * Roots.mg (R.nb + R.ext) ^ j)
  publics : c.mem .publics = publics.map ofF
  chal : c.mem .challenge = ch.map lift3 ++ List.replicate 4 Ext3.ZERO
  xXi : c.xXi = []
  xWXi : c.xWXi = []
  Zi : ∀ j, c.Zi j = some (ofF (zhInv Roots.mg Roots.shift R.nb R.ext 0 j))
  q : (c.mem .q_2ns).length = 2 ^ (R.nb + R.ext) * R.qDim
  cm4 : c.mem .cm4_2ns = List.replicate (R.qDim * U.qDeg * 2 ^ (R.nb + R.ext)) Ext3.ZERO
  f : (c.mem .f_2ns).length = 2 ^ (R.nb + R.ext) * 3

variable {R : Run} {U : Stark.Setup K} {T : Trace} {S : Full} {exps : List (Expr K)} {ids : List Nat} {fuelI fuel : Nat} {rest : List (Codegen.Code K) → List (Codegen.Instr K)}
  {cells : Nat → List F} {fixed : List F} {publics : List F} {c : Ctx}

theorem rel_zero : Rel 0 Ext3.ZERO 3 := ⟨.inr ⟨rfl, rfl, rfl⟩, by simp [val, Ext3.ZERO, coord], by decide⟩

/-- two lists of related elements -/
theorem rel_get {ch : List K} {l : List F3G} (h : List.Forall₂ (fun v w => Rel v w 3) ch l) : ∀ (i : Nat) (v : K), ch[i]? = some v → ∃ w, l[i]? = some w ∧ Rel v w 3 := by
  induction h with
  | nil => intro i v hv; simp at hv
  | @cons x y ch l h _ ih =>
    intro i v hv
    cases i with
    | zero => obtain rfl := Option.some.inj hv; exact ⟨y, rfl, h⟩
    | succ i => exact ih i v hv

theorem setChal_some {k : Nat} {v : K} (h : k < (c.mem .challenge).length) : setChal c k v = some (c.put .challenge ((c.mem .challenge).set k (lift3 v))) := by
  unfold setChal Interp.setCell
  rw [if_pos h]
  rfl

theorem rel_pub (hpub : R.publics = publics.map (algebraMap F K)) (hc : c.mem .publics = publics.map ofF) (i : Nat) (v : K) (h : R.publics[i]? = some v) :
    ∃ w, (c.mem .publics)[i]? = some w ∧ Rel v w 1 := by
  rw [hpub, List.getElem?_map] at h
  obtain ⟨a, h1, rfl⟩ := Option.map_eq_some_iff.mp h
  exact ⟨ofF a, by rw [hc, List.getElem?_map, h1]; rfl, rel_ofF a (le_refl _)⟩

theorem coords_zero : coords 0 = (0, 0, 0) := by
  have h : coord (coords 0).1 (coords 0).2.1 (coords 0).2.2 = coord 0 0 0 := by rw [coords_spec]; simp [coord]
  obtain ⟨h1, h2, h3⟩ := Ext3.coord_inj h
  exact Prod.ext h1 (Prod.ext h2 h3)

/-- **The fourth round on the buffers**: the quotient, its pieces and their commitment. -/
theorem round4 {mt : MT F Root Path Tree} (H : Steps R U T S exps ids fuelI fuel rest) {u dv ga be vc : K} (hB : Bufs3 R U T cells fixed [u, dv, ga, be] publics c)
    (hpub : R.publics = publics.map (algebraMap F K)) {l4 : List F} (h4 : cells4 R U T [u, dv, ga, be, vc, 0, 0, 0] fixed cells = some l4) {tree4 : Tree}
    (ht : mt.merkelize l4 (R.qDim * U.qDeg) (2 ^ (R.nb + R.ext)) = some tree4) :
    ∃ c5 c6 c7, setChal c 4 vc = some c5 ∧ Interp.calcPar algF3 S.info S.zi S.step4.code S.step4.tmpUsed S.workers .step4 c5 = some c6 ∧ quotBuf S c6 = some c7 ∧
      merkBuf mt S c7 = some tree4 ∧ Kept [.challenge, .q_2ns, .cm4_2ns] c c7 ∧ c7.mem .cm4_2ns = l4.map ofF ∧
      c7.mem .challenge = [lift3 u, lift3 dv, lift3 ga, lift3 be, lift3 vc, Ext3.ZERO, Ext3.ZERO, Ext3.ZERO] ∧ l4.length = R.qDim * U.qDeg * 2 ^ (R.nb + R.ext) := by
  have hch : c.mem .challenge = [lift3 u, lift3 dv, lift3 ga, lift3 be, Ext3.ZERO, Ext3.ZERO, Ext3.ZERO, Ext3.ZERO] := hB.chal
  obtain ⟨lit, tmpexps, nCols, hlit, hcodes⟩ := H.codes
  unfold codes2ns at hcodes
  obtain ⟨ctx, hgen, hcodes⟩ := Option.bind_eq_some_iff.mp hcodes
  obtain ⟨⟨k4, t4⟩, hfix, hcodes⟩ := Option.bind_eq_some_iff.mp hcodes
  obtain ⟨code4, hpush, hcodes⟩ := Option.bind_eq_some_iff.mp hcodes
  obtain ⟨fe, hfe, hcodes⟩ := Option.bind_eq_some_iff.mp hcodes
  obtain ⟨ctx5, hgen5, hcodes⟩ := Option.bind_eq_some_iff.mp hcodes
  obtain ⟨⟨k5, t5⟩, hfix5, hcodes⟩ := Option.map_eq_some_iff.mp hcodes
  have hs4 : S.step4 = ⟨code4, t4⟩ := (congrArg Prod.fst hcodes).symm
  have hset := setChal_some (c := c) (k := 4) (v := vc) (by rw [hch]; simp)
  generalize hc5 : c.put .challenge ((c.mem .challenge).set 4 (lift3 vc)) = c5 at hset
  have hK5 : Kept [.challenge] c c5 := by rw [← hc5]; exact kept_put _ _ _
  have hch5 : c5.mem .challenge = [lift3 u, lift3 dv, lift3 ga, lift3 be, lift3 vc, Ext3.ZERO, Ext3.ZERO, Ext3.ZERO] := by rw [← hc5, put_same, hch]; rfl
  have hm5 : ∀ x, x ≠ .challenge → c5.mem x = c.mem x := fun x hx => hK5.mem x (by simpa using hx)
  have hE : ExtBufs R U T S.info 3 cells fixed [u, dv, ga, be, vc, 0, 0, 0] [] [] [] c5 := by
    refine ⟨hK5.rest.1.trans hB.nbits, hK5.rest.2.1.trans hB.nbitsExt, fun t h1 h3 => ?_, fun t h1 h3 => ?_, ?_, hB.constSize, ?_, ?_, ?_, fun i v hv => by simp at hv, ?_, ?_, fun j => ?_⟩
    · rw [hm5 _ (by obtain rfl | rfl | rfl : t = 1 ∨ t = 2 ∨ t = 3 := by omega
                    all_goals decide)]
      exact hB.mem t h1 h3
    · rw [hB.size t h1 h3]
      unfold width4
      rw [if_neg (by omega)]
    · rw [hm5 _ (by decide)]; exact hB.constMem
    · rw [hm5 _ (by decide)]; exact hB.x
    · exact rel_pub hpub (by rw [hm5 _ (by decide)]; exact hB.publics)
    · rw [hch5]
      exact rel_get (.cons (lift3_rel u) (.cons (lift3_rel dv) (.cons (lift3_rel ga) (.cons (lift3_rel be) (.cons (lift3_rel vc) (.cons rel_zero (.cons rel_zero (.cons rel_zero .nil))))))))
    · rw [hK5.rest.2.2.1, hB.xXi]; rfl
    · rw [hK5.rest.2.2.2.1, hB.xWXi]; rfl
    · rw [hK5.rest.2.2.2.2]; exact hB.Zi j
  unfold cells4 at h4
  obtain ⟨rows, hrows, h4⟩ := Option.bind_eq_some_iff.mp h4
  obtain ⟨b, hb, hl4⟩ := Option.map_eq_some_iff.mp h4
  obtain ⟨c6, g1, g2, g3⟩ := step4 H.set H.layout H.dims H.ex H.q H.lay hlit hgen hfix hpush hE (by rw [hm5 _ (by decide)]; exact hB.q) H.ext H.w1 H.w hrows
  have hK6 : Kept [.q_2ns] c5 c6 := calcPar_kept g1
  have hrl := (mapM_range_get hrows).1
  have hD : 0 < R.qDim := by rcases H.q with h | h <;> omega
  -- the pieces
  have hq6 : toBes (c6.mem .q_2ns) = some ((List.range (2 ^ (R.nb + R.ext) * R.qDim)).map fun x => (encK.enc (rows.getD (x / R.qDim) 0)).getD (x % R.qDim) 0) := by
    rw [g2, ← toBes_ofF, List.map_map]
    rfl
  have hcm6 : toBes (c6.mem .cm4_2ns) = some (List.replicate (R.qDim * U.qDeg * 2 ^ (R.nb + R.ext)) 0) := by
    rw [hK6.mem _ (by decide), hm5 _ (by decide), hB.cm4, ← toBes_ofF, List.map_replicate]
    rfl
  have hbq : bufOf ((List.range (2 ^ (R.nb + R.ext) * R.qDim)).map fun x => (encK.enc (rows.getD (x / R.qDim) 0)).getD (x % R.qDim) 0) =
      fun x => (encK.enc (rows.getD (x / R.qDim) 0)).getD (x % R.qDim) 0 := by
    funext x
    unfold bufOf
    rw [List.getD_eq_getElem?_getD]
    by_cases hx : x < 2 ^ (R.nb + R.ext) * R.qDim
    · rw [List.getElem?_map, List.getElem?_range hx]
      rfl
    · rw [List.getElem?_eq_none (by simp; omega)]
      have : rows.getD (x / R.qDim) 0 = 0 := by
        rw [List.getD_eq_getElem?_getD, List.getElem?_eq_none]
        · rfl
        · rw [hrl]
          exact (Nat.le_div_iff_mul_le hD).mpr (by omega)
      rw [this]
      have he : encK.enc 0 = [0, 0, 0] := by
        show [(coords 0).1, (coords 0).2.1, (coords 0).2.2] = _
        rw [coords_zero]
      rw [he]
      have : x % R.qDim < 3 := lt_of_lt_of_le (Nat.mod_lt _ hD) (by rcases H.q with h | h <;> omega)
      interval_cases x % R.qDim <;> rfl
  have hb0 : bufOf (List.replicate (R.qDim * U.qDeg * 2 ^ (R.nb + R.ext)) 0) = fun _ => 0 := by
    funext x
    unfold bufOf
    rw [List.getD_eq_getElem?_getD, List.getElem?_replicate]
    split_ifs <;> rfl
  have hl4' : (List.range (List.replicate (R.qDim * U.qDeg * 2 ^ (R.nb + R.ext)) (0 : F)).length).map (fun x => ofF (b x)) = l4.map ofF := by
    rw [← hl4, List.length_replicate]
    unfold cellsOf
    rw [List.map_map]
    rfl
  have hquot : quotBuf S c6 = some (c6.put .cm4_2ns (l4.map ofF)) := by
    unfold quotBuf
    rw [hq6, Option.bind_some, hcm6, Option.bind_some, hbq, hb0, hK6.rest.1, hK6.rest.2.1, hE.nbits, hE.nbitsExt, H.fft, H.qDeg, H.lay.q, hb, Option.map_some, hl4']
  refine ⟨c5, c6, _, hset, by rw [hs4, H.zi]; exact g1, hquot, ?_, ?_, put_same _ _ _, ?_, ?_⟩
  · unfold merkBuf
    rw [put_same, toBes_ofF, Option.bind_some]
    have hw4 : S.info.sectionsN .cm4_2ns = R.qDim * U.qDeg := (H.lay.width 4 (by omega) (by omega)).trans (if_pos rfl)
    have hne : (c6.put .cm4_2ns (l4.map ofF)).nbitsExt = R.nb + R.ext := hK6.rest.2.1.trans hE.nbitsExt
    rw [hw4, hne, ht]
  · exact (hK5.mono (by simp)).trans ((hK6.mono (by simp)).trans ((kept_put _ _ _).mono (by simp)))
  · rw [put_other _ _ (by decide), hK6.mem _ (by decide), hch5]
  · rw [← hl4]
    simp [cellsOf]

end

end Verif.Stage
