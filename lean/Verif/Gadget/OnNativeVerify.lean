import Verif.Gadget.OnNative
import Verif.Fri.Total
import Verif.Fri.Instances
import Verif.FFT.Instances

/-!
# C127: the checks of the on-chain verifier are those of the native verifier

`NativeOk` (C124, C125) lists the checks on the opened values.  Here it is compared with `stark_verify` (stark_verify.rs) and `FRI::verify`
(fri.rs L187-296) as they are modelled in `Stark.starkVerify` and `Fri.verify`.
-/
set_option linter.unusedSectionVars false

namespace Verif.Gadget.OnVerifier
open Verif.GL (F)
open Verif.Ext3 (K coord)
open Verif.Poseidon (Bls blsMod)
open Stark Codegen Circom OnCode FFT OnFri

noncomputable local instance : DecidableEq K := Classical.decEq _

/-- `F3G::from_vec` of three elements and the inclusion of the base field, on canonical integers, starky/src/f3g.rs -/
noncomputable def embN : Emb Nat K := ⟨fun n => algebraMap F K (n : F), fun a b c => coord (a : F) (b : F) (c : F)⟩

/-- `FRI` of the parameters of the circuit, starky/src/fri.rs L66-82 -/
noncomputable def cfgOf (Q : OnPar) : Fri.Cfg K := ⟨mgK, shiftK, shiftK⁻¹, Q.ext, Q.nBits, Q.nQ, Q.steps⟩

/-- one group of a folded layer as the proof stores it: three elements per value -/
def flat3 (l : List (Fin 3 → Nat)) : List Nat := (l.map fun v => [v 0, v 1, v 2]).flatten

variable {P Tree : Type}

/-- `proof.queries[s]` with the openings of the on-chain inputs, starky/src/fri.rs L23-62 -/
def queryAt (Q : OnPar) (x : OnIn) (s : Nat) : Fri.Query Nat Bls (List (List Bls)) :=
  if s = 0 then ⟨0, (List.range Q.nQ).map fun q => [1, 2, 3, 4, 5].map fun t => (x.rows q t, x.paths q t)⟩
  else ⟨x.sRoot s, (List.range Q.nQ).map fun q => [(flat3 (x.sRows s q), x.sPaths s q)]⟩

/-- the native proof with the contents of the on-chain inputs, starky/src/stark_gen.rs L130-145 -/
noncomputable def proofOf (Q : OnPar) (x : OnIn) (publics evals : List P) : Proof Nat Bls (List (List Bls)) K P :=
  { rootC := some (x.root 5), root1 := x.root 1, root2 := x.root 2, root3 := x.root 3, root4 := x.root 4,
    fri := ⟨(List.range Q.steps.length).map (queryAt Q x), x.finalPol.map dec⟩, evals := evals, publics := publics }

/-- the degree check of the native verifier: the coefficient at the bound itself may be nonzero (C34) -/
def NativeLast (Q : OnPar) (x : OnIn) : Prop :=
  ∃ c, Fri.ifftC mgK (x.finalPol.map dec) = some c ∧ ∀ k,
    (if Q.nb (Q.steps.length - 1) < Q.ext - Q.nBits then 0 else 2 ^ (Q.nb (Q.steps.length - 1) - (Q.ext - Q.nBits))) + 1 ≤ k → k < c.length → c.getD k 0 = 0

/-- the checks of the native verifier on the opened values: as `NativeOk`, but all five trees and its own degree check -/
structure NativeVer (Q : OnPar) (x : OnIn) (chalK evalsK : List K) (spK : Nat → K) (idx : Nat → Nat) (res : K) (v : Nat → K) : Prop where
  evals : NativeEval Q.nBits Q.qDeg Q.base chalK evalsK res
  trees : ∀ q < Q.nQ, ∀ t, 1 ≤ t → t ≤ 5 → rootFrom (x.paths q t) (idx q) [x.rows q t] = x.root t
  div : ∀ q < Q.nQ, queryPoint mgK shiftK (Q.nb 0) (idx q) ≠ chalK.getD 7 0 ∧ queryPoint mgK shiftK (Q.nb 0) (idx q) ≠ chalK.getD 7 0 * mgK Q.nBits
  value : ∀ q < Q.nQ, ((x.next Q 0 q).map dec)[idx q / 2 ^ Q.nb 1]? = some (v q)
  sTrees : ∀ q < Q.nQ, ∀ s, s + 1 < Q.steps.length →
    rootFrom (x.sPaths (s + 1) q) (idx q % 2 ^ Q.nb (s + 1)) ((x.sRows (s + 1) q).map fun v => [v 0, v 1, v 2]) = x.sRoot (s + 1)
  fold : ∀ q < Q.nQ, ∀ s, s + 1 < Q.steps.length →
    NativeFold Q.ext (Q.nb s) (Q.nb (s + 1)) (Q.nb (s + 2)) (spK (s + 1)) ((x.sRows (s + 1) q).map dec) ((x.next Q (s + 1) q).map dec) (idx q)
  last : NativeLast Q x

/-! ### Proofs -/

theorem split3_flat {E : Fri.Enc Nat K} (hE : ∀ a b c : Nat, E.dec a b c = coord (a : F) (b : F) (c : F)) : ∀ l : List (Fin 3 → Nat),
    Fri.split3 E (flat3 l) = some (l.map dec)
  | [] => rfl
  | v :: l => by
    show (Fri.split3 E (flat3 l)).map (E.dec (v 0) (v 1) (v 2) :: ·) = _
    rw [split3_flat hE l, hE]
    rfl

theorem get3_flat {E : Fri.Enc Nat K} (hE : ∀ a b c : Nat, E.dec a b c = coord (a : F) (b : F) (c : F)) : ∀ (l : List (Fin 3 → Nat)) (j : Nat),
    Fri.get3 E (flat3 l) j = (l.map dec)[j]?
  | [], j => rfl
  | v :: l, 0 => by
    show some (E.dec (v 0) (v 1) (v 2)) = _
    rw [hE]
    rfl
  | v :: l, j + 1 => by
    rw [List.map_cons, List.getElem?_cons_succ, ← get3_flat hE l j]
    have e : ∀ k, (flat3 (v :: l))[(j + 1) * 3 + k]? = (flat3 l)[j * 3 + k]? := by
      intro k
      rw [show (j + 1) * 3 + k = (j * 3 + k) + 3 by omega]
      rfl
    unfold Fri.get3
    have e0 := e 0
    rw [Nat.add_zero, Nat.add_zero] at e0
    rw [e0, e 1, e 2]
    rfl

theorem rootFrom_flat (path : List (List Bls)) (i : Nat) (l : List (Fin 3 → Nat)) :
    rootFrom path i [flat3 l] = rootFrom path i (l.map fun v => [v 0, v 1, v 2]) := by
  unfold rootFrom
  rw [LinearBN.hashMatrix_spec, LinearBN.hashMatrix_spec]
  simp [flat3]

theorem executeCode_congr {G G' : Type} {e : Emb G K} {e' : Emb G' K} {ctx : VCtx G K} {ctx' : VCtx G' K} {code : List (VInstr K)}
    (h : ∀ i ∈ code, ∀ r ∈ i.dest :: i.src, ∀ tmp, getRef e ctx tmp r = getRef e' ctx' tmp r) : executeCode e ctx code = executeCode e' ctx' code := by
  have hstep : ∀ i ∈ code, ∀ tmp, vStep e ctx tmp i = vStep e' ctx' tmp i := by
    intro i hi tmp
    have : i.src.mapM (getRef e ctx tmp) = i.src.mapM (getRef e' ctx' tmp) := by
      have hs : ∀ r ∈ i.src, getRef e ctx tmp r = getRef e' ctx' tmp r := fun r hr => h i hi r (List.mem_cons_of_mem _ hr) tmp
      generalize i.src = l at hs
      induction l with
      | nil => rfl
      | cons a l ih =>
        rw [List.mapM_cons, List.mapM_cons, hs a (by simp), ih fun r hr => hs r (List.mem_cons_of_mem _ hr)]
    rw [vStep, this]
    rfl
  have hf : ∀ (l : List (VInstr K)) (tmp : Nat → Option K), (∀ i ∈ l, i ∈ code) → l.foldlM (vStep e ctx) tmp = l.foldlM (vStep e' ctx') tmp := by
    intro l
    induction l with
    | nil => intro tmp _; rfl
    | cons a l ih =>
      intro tmp hl
      rw [List.foldlM_cons, List.foldlM_cons, hstep a (hl a (by simp))]
      congr 1
      funext t
      exact ih t fun i hi => hl i (List.mem_cons_of_mem _ hi)
  unfold executeCode
  cases hc : code.getLast? with
  | none => rfl
  | some last =>
    rw [Option.bind_some, Option.bind_some, hf code _ fun _ h => h]
    congr 1
    funext t
    exact h last (List.mem_of_getLast? hc) last.dest (by simp) t

/-- the native verifier reads integers, the specification field elements -/
theorem getRef_nat {ctx : VCtx Nat K} {rows : Nat → List Nat} (tmp : Nat → Option K) (r : VNode K) (hr : ∀ k, r.ty = .tree k → ctx.tree k = rows k) :
    getRef embN ctx tmp r = getRef extK { ctx with tree := fun k => (rows k).map fun n : Nat => ((n : Nat) : F), consts := ctx.consts.map fun n : Nat => ((n : Nat) : F) } tmp r := by
  unfold getRef
  split
  all_goals try rfl
  · rename_i k hk
    dsimp only
    rw [hr k hk, extractVal, extractVal]
    split_ifs
    · rw [List.getElem?_map, Option.map_map]; rfl
    · simp only [List.getElem?_map]
      cases (rows k)[r.treePos]? with
      | none => rfl
      | some a => cases (rows k)[r.treePos + 1]? with
        | none => rfl
        | some b => cases (rows k)[r.treePos + 2]? <;> rfl
    · rfl
  · dsimp only
    rw [List.getElem?_map, Option.map_map]
    rfl

variable {Q : OnPar} {x : OnIn} {mt : Fri.MT Nat Bls (List (List Bls)) Tree} {E : Fri.Enc Nat K}

/-- query `q` at step `k` -/
noncomputable def oneAt (mt : Fri.MT Nat Bls (List (List Bls)) Tree) (E : Fri.Enc Nat K) (cq : Fri.Q Nat (List (List Bls)) → Nat → Option (List K))
    (Q : OnPar) (x : OnIn) (sp : Nat → K) (idx : Nat → Nat) (k q : Nat) : Option Bool :=
  Fri.checkOne mt E mgK cq (x.finalPol.map dec) (decide (k = 0)) (Q.steps.drop (k + 1)) (queryAt Q x k) (((List.range Q.steps.length).map (queryAt Q x)).drop (k + 1))
    (Q.nb (k - 1)) (shiftK ^ 2 ^ (Q.ext - Q.nb (k - 1))) (sp k) ((List.range Q.nQ).map fun q => idx q % 2 ^ Q.nb k) q

theorem loop_iff {cq : Fri.Q Nat (List (List Bls)) → Nat → Option (List K)} {sp : Nat → K} {idx : Nat → Nat} (hext : Q.nb 0 = Q.ext)
    (hdec : ∀ s < Q.steps.length, Q.nb (s + 1) ≤ Q.nb s) : ∀ (n s : Nat) (ys : List Nat), s + n = Q.steps.length →
    (s < Q.steps.length → ys = (List.range Q.nQ).map fun q => idx q % 2 ^ Q.nb s) →
    (Fri.checkLoop mt E (cfgOf Q) cq (x.finalPol.map dec) (decide (s = 0)) (Q.steps.drop s) (((List.range Q.steps.length).map sp).drop s)
      (((List.range Q.steps.length).map (queryAt Q x)).drop s) (Q.nb (s - 1)) (shiftK ^ 2 ^ (Q.ext - Q.nb (s - 1))) ys = some true ↔
    (∀ k, s ≤ k → k < Q.steps.length → ∀ q < Q.nQ, oneAt mt E cq Q x sp idx k q = some true) ∧
      Fri.finalCheck mgK Q.ext Q.nBits (Q.nb (Q.steps.length - 1)) (x.finalPol.map dec) = some true)
  | 0, s, ys, hs, _ => by
    rw [Nat.add_zero] at hs
    subst hs
    rw [List.drop_length, Fri.checkLoop]
    exact ⟨fun h => ⟨fun k h1 h2 => by omega, h⟩, fun h => h.2⟩
  | n + 1, s, ys, hs, hy => by
    have hlt : s < Q.steps.length := by omega
    have hle : ∀ s, s < Q.steps.length → Q.nb s ≤ Q.ext := by
      intro s
      induction s with
      | zero => intro _; omega
      | succ s ih => intro h; exact (hdec s (by omega)).trans (ih (by omega))
    have hpb : Q.nb s ≤ Q.nb (s - 1) := by
      rcases s with _ | s
      · exact le_rfl
      · exact hdec s (by omega)
    have e1 : Q.steps.drop s = Q.nb s :: Q.steps.drop (s + 1) := by
      rw [List.drop_eq_getElem_cons hlt, OnPar.nb, List.getD_eq_getElem _ _ hlt]
    have e2 : ((List.range Q.steps.length).map sp).drop s = sp s :: ((List.range Q.steps.length).map sp).drop (s + 1) := by
      rw [List.drop_eq_getElem_cons (by simpa using hlt)]
      simp
    have e3 : ((List.range Q.steps.length).map (queryAt Q x)).drop s = queryAt Q x s :: ((List.range Q.steps.length).map (queryAt Q x)).drop (s + 1) := by
      rw [List.drop_eq_getElem_cons (by simpa using hlt)]
      simp
    have hsq : Fri.sqN (Q.nb (s - 1) - Q.nb s) (shiftK ^ 2 ^ (Q.ext - Q.nb (s - 1))) = shiftK ^ 2 ^ (Q.ext - Q.nb s) := by
      have := hle (s - 1) (by omega)
      rw [Fri.sqN_eq, ← pow_mul, ← pow_add]
      congr 2
      omega
    have ih := loop_iff (cq := cq) (sp := sp) (idx := idx) hext hdec n (s + 1)
      (match Q.steps.drop (s + 1) with | nb' :: _ => ys.map (· % 2 ^ nb') | [] => ys) (by omega) (by
        intro h
        have : Q.steps.drop (s + 1) = Q.nb (s + 1) :: Q.steps.drop (s + 2) := by
          rw [List.drop_eq_getElem_cons h, OnPar.nb, List.getD_eq_getElem _ _ h]
        rw [this, hy hlt]
        dsimp only
        rw [List.map_map]
        apply List.map_congr_left
        intro q _
        exact Nat.mod_mod_of_dvd _ (pow_dvd_pow 2 (hdec s hlt)))
    rw [e1, e2, e3, Fri.checkLoop.eq_def]
    simp only []
    rw [if_neg (by omega)]
    rw [show decide (s + 1 = 0) = false by simp, Nat.add_sub_cancel] at ih
    have hall : (Fri.allM (Fri.checkOne mt E (cfgOf Q).mg cq (x.finalPol.map dec) (decide (s = 0)) (Q.steps.drop (s + 1)) (queryAt Q x s)
        (((List.range Q.steps.length).map (queryAt Q x)).drop (s + 1)) (Q.nb (s - 1)) (shiftK ^ 2 ^ (Q.ext - Q.nb (s - 1))) (sp s) ys)
        (List.range (cfgOf Q).nQueries) = some true ↔ ∀ q < Q.nQ, oneAt mt E cq Q x sp idx s q = some true) := by
      rw [Fri.allM_true_iff, hy hlt]
      exact ⟨fun h q hq => h q (List.mem_range.mpr hq), fun h q hq => h q (List.mem_range.mp hq)⟩
    rw [hsq]
    constructor
    · intro h
      obtain ⟨b, h1, h2⟩ := Option.bind_eq_some_iff.mp h
      cases b with
      | false => simp at h2
      | true =>
        rw [if_neg (by simp)] at h2
        obtain ⟨g1, g2⟩ := ih.mp h2
        refine ⟨fun k hk hk2 => ?_, g2⟩
        rcases Nat.eq_or_lt_of_le hk with rfl | hk
        · exact hall.mp h1
        · exact g1 k hk hk2
    · rintro ⟨g1, g2⟩
      rw [hall.mpr (g1 s le_rfl hlt), Option.bind_some, if_neg (by simp)]
      exact ih.mpr ⟨fun k hk => g1 k (by omega), g2⟩

/-- the value the verifier expects at step `k` -/
theorem expected_eq (hE : ∀ a b c : Nat, E.dec a b c = coord (a : F) (b : F) (c : F)) {k q : Nat} (hk : k < Q.steps.length) (hq : q < Q.nQ) (y : Nat) :
    Fri.expected E (x.finalPol.map dec) (Q.steps.drop (k + 1)) (((List.range Q.steps.length).map (queryAt Q x)).drop (k + 1)) q y =
      ((x.next Q k q).map dec)[y / 2 ^ Q.nb (k + 1)]? := by
  by_cases h : k + 1 < Q.steps.length
  · rw [OnIn.next, if_pos h, List.drop_eq_getElem_cons h,
      List.drop_eq_getElem_cons (l := (List.range Q.steps.length).map (queryAt Q x)) (i := k + 1) (by simpa using h)]
    simp only [Fri.expected, List.head?_cons, Option.bind_some, List.getElem_map, List.getElem_range]
    rw [queryAt, if_neg (by omega)]
    dsimp only
    rw [List.getElem?_map, List.getElem?_range hq]
    simp only [Option.map_some, Option.bind_some, List.head?_cons]
    rw [get3_flat hE, OnPar.nb, List.getD_eq_getElem _ _ h]
  · rw [OnIn.next, if_neg h, List.drop_eq_nil_of_le (by omega), Fri.expected, OnPar.nb, List.getD_eq_default _ _ (by omega), pow_zero, Nat.div_one]

/-- a later step -/
theorem one_later (hE : ∀ a b c : Nat, E.dec a b c = coord (a : F) (b : F) (c : F))
    (hM : ∀ root path i row, mt.verify root path i row = some true ↔ rootFrom path i [row] = root)
    {cq : Fri.Q Nat (List (List Bls)) → Nat → Option (List K)} {sp : Nat → K} {idx : Nat → Nat} {s q : Nat} (hs : s + 1 < Q.steps.length) (hq : q < Q.nQ) :
    oneAt mt E cq Q x sp idx (s + 1) q = some true ↔
      rootFrom (x.sPaths (s + 1) q) (idx q % 2 ^ Q.nb (s + 1)) ((x.sRows (s + 1) q).map fun v => [v 0, v 1, v 2]) = x.sRoot (s + 1) ∧
      NativeFold Q.ext (Q.nb s) (Q.nb (s + 1)) (Q.nb (s + 2)) (sp (s + 1)) ((x.sRows (s + 1) q).map dec) ((x.next Q (s + 1) q).map dec) (idx q) := by
  rw [oneAt, Fri.checkOne, List.getElem?_map, List.getElem?_range hq]
  simp only [Option.map_some, Option.bind_some]
  rw [← rootFrom_flat, ← hM, expected_eq hE hs hq, NativeFold, Fri.openedGroup, show decide (s + 1 = 0) = false by simp, Nat.add_sub_cancel]
  rw [show queryAt Q x (s + 1) = ⟨x.sRoot (s + 1), (List.range Q.nQ).map fun q => [(flat3 (x.sRows (s + 1) q), x.sPaths (s + 1) q)]⟩ by
    rw [queryAt, if_neg (by omega)]]
  dsimp only
  rw [List.getElem?_map, List.getElem?_range hq]
  simp only [Option.map_some, Option.bind_some, List.head?_cons, Bool.false_eq_true, if_false]
  rw [split3_flat hE]
  cases hv : mt.verify (x.sRoot (s + 1)) (x.sPaths (s + 1) q) (idx q % 2 ^ Q.nb (s + 1)) (flat3 (x.sRows (s + 1) q)) with
  | none => simp
  | some b =>
    cases b with
    | false => simp
    | true =>
      simp only [Option.bind_some, if_true, Option.map_some, true_and]
      constructor
      · intro h
        obtain ⟨c, h1, h⟩ := Option.bind_eq_some_iff.mp h
        obtain ⟨v, h2, h⟩ := Option.map_eq_some_iff.mp h
        exact ⟨c, h1, by rw [h2, of_decide_eq_true h]⟩
      · rintro ⟨c, h1, h2⟩
        rw [h1, Option.bind_some, h2]
        simp

variable {val : P → K} {info : VInfo K} {publics evals : List P} {chal : List K}

/-- the first step -/
theorem one_first (hE : ∀ a b c : Nat, E.dec a b c = coord (a : F) (b : F) (c : F))
    (hM : ∀ root path i row, mt.verify root path i row = some true ↔ rootFrom path i [row] = root) {sp : Nat → K} {idx : Nat → Nat} {q : Nat} {v : K}
    (hext : Q.nb 0 = Q.ext) (hs : 0 < Q.steps.length) (hq : q < Q.nQ) (hi : idx q < 2 ^ Q.nb 0)
    (hv : executeCode embN (ctxQuery mgK shiftK Q.nBits (Q.nb 0) chal (evals.map val) (publics.map val)
      (fun k => if k = 1 then x.rows q 1 else if k = 2 then x.rows q 2 else if k = 3 then x.rows q 3 else x.rows q 4) (x.rows q 5) (idx q))
      info.queryCode = some v) :
    oneAt mt E (checkQuery mt embN (cfgOf Q) val info (x.root 5) (proofOf Q x publics evals) chal) Q x sp idx 0 q = some true ↔
      (∀ t, 1 ≤ t → t ≤ 5 → rootFrom (x.paths q t) (idx q) [x.rows q t] = x.root t) ∧
      (queryPoint mgK shiftK (Q.nb 0) (idx q) ≠ chal.getD 7 0 ∧ queryPoint mgK shiftK (Q.nb 0) (idx q) ≠ chal.getD 7 0 * mgK Q.nBits) ∧
      ((x.next Q 0 q).map dec)[idx q / 2 ^ Q.nb 1]? = some v := by
  have htrees : (∀ t, 1 ≤ t → t ≤ 5 → rootFrom (x.paths q t) (idx q) [x.rows q t] = x.root t) ↔
      mt.verify (x.root 1) (x.paths q 1) (idx q) (x.rows q 1) = some true ∧ mt.verify (x.root 2) (x.paths q 2) (idx q) (x.rows q 2) = some true ∧
      mt.verify (x.root 3) (x.paths q 3) (idx q) (x.rows q 3) = some true ∧ mt.verify (x.root 4) (x.paths q 4) (idx q) (x.rows q 4) = some true ∧
      mt.verify (x.root 5) (x.paths q 5) (idx q) (x.rows q 5) = some true := by
    simp only [hM]
    constructor
    · intro h
      exact ⟨h 1 (by omega) (by omega), h 2 (by omega) (by omega), h 3 (by omega) (by omega), h 4 (by omega) (by omega), h 5 (by omega) (by omega)⟩
    · rintro ⟨h1, h2, h3, h4, h5⟩ t a b
      interval_cases t <;> assumption
  rw [oneAt, Fri.checkOne, List.getElem?_map, List.getElem?_range hq]
  simp only [Option.map_some, Option.bind_some]
  rw [Nat.mod_eq_of_lt hi, expected_eq hE hs hq, Fri.openedGroup, htrees]
  rw [show queryAt Q x 0 = ⟨0, (List.range Q.nQ).map fun q => [1, 2, 3, 4, 5].map fun t => (x.rows q t, x.paths q t)⟩ by rw [queryAt, if_pos rfl]]
  dsimp only
  rw [List.getElem?_map, List.getElem?_range hq]
  simp only [Option.map_some, Option.bind_some, decide_true, if_true, List.map_cons, List.map_nil]
  have hc : ∀ ht : mt.verify (x.root 1) (x.paths q 1) (idx q) (x.rows q 1) = some true ∧ mt.verify (x.root 2) (x.paths q 2) (idx q) (x.rows q 2) = some true ∧
      mt.verify (x.root 3) (x.paths q 3) (idx q) (x.rows q 3) = some true ∧ mt.verify (x.root 4) (x.paths q 4) (idx q) (x.rows q 4) = some true ∧
      mt.verify (x.root 5) (x.paths q 5) (idx q) (x.rows q 5) = some true,
      checkQuery mt embN (cfgOf Q) val info (x.root 5) (proofOf Q x publics evals) chal
        [(x.rows q 1, x.paths q 1), (x.rows q 2, x.paths q 2), (x.rows q 3, x.paths q 3), (x.rows q 4, x.paths q 4), (x.rows q 5, x.paths q 5)] (idx q) =
      if queryPoint mgK shiftK (Q.nb 0) (idx q) = chal.getD 7 0 ∨ queryPoint mgK shiftK (Q.nb 0) (idx q) = chal.getD 7 0 * mgK Q.nBits then none else some [v] := by
    intro ht
    refine (if_pos ht).trans ?_
    rw [hext] at hv ⊢
    show (if queryPoint mgK shiftK Q.ext (idx q) = chal.getD 7 0 ∨ queryPoint mgK shiftK Q.ext (idx q) = chal.getD 7 0 * mgK Q.nBits then none
      else Option.map (fun v => [v]) (executeCode embN (ctxQuery mgK shiftK Q.nBits Q.ext chal (evals.map val) (publics.map val)
      (fun k => if k = 1 then x.rows q 1 else if k = 2 then x.rows q 2 else if k = 3 then x.rows q 3 else x.rows q 4) (x.rows q 5) (idx q)) info.queryCode)) = _
    rw [hv]
    rfl
  have hc0 : ∀ ht : ¬ (mt.verify (x.root 1) (x.paths q 1) (idx q) (x.rows q 1) = some true ∧ mt.verify (x.root 2) (x.paths q 2) (idx q) (x.rows q 2) = some true ∧
      mt.verify (x.root 3) (x.paths q 3) (idx q) (x.rows q 3) = some true ∧ mt.verify (x.root 4) (x.paths q 4) (idx q) (x.rows q 4) = some true ∧
      mt.verify (x.root 5) (x.paths q 5) (idx q) (x.rows q 5) = some true),
      checkQuery mt embN (cfgOf Q) val info (x.root 5) (proofOf Q x publics evals) chal
        [(x.rows q 1, x.paths q 1), (x.rows q 2, x.paths q 2), (x.rows q 3, x.paths q 3), (x.rows q 4, x.paths q 4), (x.rows q 5, x.paths q 5)] (idx q) = none :=
    fun ht => if_neg ht
  by_cases ht : mt.verify (x.root 1) (x.paths q 1) (idx q) (x.rows q 1) = some true ∧ mt.verify (x.root 2) (x.paths q 2) (idx q) (x.rows q 2) = some true ∧
      mt.verify (x.root 3) (x.paths q 3) (idx q) (x.rows q 3) = some true ∧ mt.verify (x.root 4) (x.paths q 4) (idx q) (x.rows q 4) = some true ∧
      mt.verify (x.root 5) (x.paths q 5) (idx q) (x.rows q 5) = some true
  · rw [hc ht]
    by_cases hd : queryPoint mgK shiftK (Q.nb 0) (idx q) = chal.getD 7 0 ∨ queryPoint mgK shiftK (Q.nb 0) (idx q) = chal.getD 7 0 * mgK Q.nBits
    · rw [if_pos hd]
      simp only [Option.map_none, Option.bind_none]
      constructor
      · intro h; cases h
      · rintro ⟨-, ⟨h1, h2⟩, -⟩
        exact absurd hd (by tauto)
    · rw [if_neg hd]
      simp only [Option.map_some, Option.bind_some, if_neg (List.cons_ne_nil v [])]
      rw [Fri.ifftC_one (rootsK (by decide)) two_neK, Option.bind_some]
      have e : ∀ y : K, evalPol [v] y = v := fun y => rfl
      simp only [e]
      constructor
      · intro h
        obtain ⟨u, h1, h2⟩ := Option.map_eq_some_iff.mp h
        exact ⟨ht, by tauto, by rw [h1, of_decide_eq_true h2]⟩
      · rintro ⟨-, -, h⟩
        rw [h]
        simp
  · rw [hc0 ht]
    simp only [Option.map_none, Option.bind_none]
    constructor
    · intro h; cases h
    · rintro ⟨h, -⟩
      exact absurd h ht

/-- the degree check -/
theorem final_iff (hn : Q.nBits ≤ Q.ext) : Fri.finalCheck mgK Q.ext Q.nBits (Q.nb (Q.steps.length - 1)) (x.finalPol.map dec) = some true ↔ NativeLast Q x := by
  rw [Fri.finalCheck, if_neg (by omega), NativeLast]
  dsimp only
  constructor
  · intro h
    obtain ⟨c, h1, h2⟩ := Option.map_eq_some_iff.mp h
    refine ⟨c, h1, fun k hk hl => ?_⟩
    have := List.all_eq_true.mp h2 k (List.mem_range.mpr hl)
    exact of_decide_eq_true this hk
  · rintro ⟨c, h1, h2⟩
    rw [h1, Option.map_some]
    congr 1
    rw [List.all_eq_true]
    intro k hk
    exact decide_eq_true fun h => h2 k h (List.mem_range.mp hk)

/-- **C127**, the native side: `stark_verify` on the proof with the contents of the circuit's inputs accepts exactly when these checks hold of
the challenges, points and queries it draws -/
theorem starkVerify_iff {nPub nEv : Nat} {els : P → List Nat} {enc : List Nat → Option Bls} {nin : TIn → List Nat} {fs : List (TOut × List Nat)}
    {ps : List (List Nat)} {res : K} {v : Nat → K}
    (hE : ∀ a b c : Nat, E.dec a b c = coord (a : F) (b : F) (c : F))
    (hM : ∀ root path i row, mt.verify root path i row = some true ↔ rootFrom path i [row] = root)
    (hs : SameIn mt E els (proofOf Q x publics evals) nin nPub nEv (2 ^ Q.nb (Q.steps.length - 1)))
    (hext : Q.nb 0 = Q.ext) (hn : Q.nBits ≤ Q.ext) (hl : 0 < Q.steps.length) (hdec : ∀ s < Q.steps.length, Q.nb (s + 1) ≤ Q.nb s)
    (hqev : info.qEv = List.range' Q.base Q.qDeg)
    (h : On.native On.blsPerm enc On.splitNat ZMod.val nin (onOps Q nPub nEv) TranscriptBN.new = some (fs, ps))
    (hx : executeCode embN (ctxConstraint mgK Q.nBits (chals fs) (evals.map val) (publics.map val)) info.code = some res)
    (hev : Q.base + Q.qDeg ≤ evals.length)
    (hv : ∀ q < Q.nQ, executeCode embN (ctxQuery mgK shiftK Q.nBits (Q.nb 0) (chals fs) (evals.map val) (publics.map val)
      (fun k => if k = 1 then x.rows q 1 else if k = 2 then x.rows q 2 else if k = 3 then x.rows q 3 else x.rows q 4) (x.rows q 5) (queryOf ps q))
      info.queryCode = some (v q)) :
    (∃ t, starkVerify mt (blsTr enc) E embN (cfgOf Q) els val TranscriptBN.new info (x.root 5) (proofOf Q x publics evals) = some (true, t)) ↔
      NativeVer Q x (chals fs) (evals.map val) (fun s => drawn fs (.special s)) (queryOf ps) res v := by
  obtain ⟨t1, t2, ys, t3, h1, h2, h3, rfl⟩ := onNative_draws hs (by simp [proofOf]) h
  have hys : ys.length = Q.nQ ∧ ∀ y ∈ ys, y < 2 ^ Q.nb 0 := by
    obtain ⟨m, -, g⟩ := Option.bind_eq_some_iff.mp h3
    obtain ⟨r, -, g⟩ := Option.bind_eq_some_iff.mp g
    obtain ⟨l, g9, g⟩ := Option.map_eq_some_iff.mp g
    obtain ⟨rfl, _⟩ := Prod.mk.inj g
    exact Fri.loop_lt _ _ _ _ _ _ g9
  have hidx : ∀ q < Q.nQ, queryOf [ys] q < 2 ^ Q.nb 0 := by
    intro q hq
    have e : queryOf [ys] q = ys[q]'(by omega) := by
      show ys.getD q 0 = _
      rw [List.getD_eq_getElem _ _ (by omega)]
    rw [e]
    exact hys.2 _ (List.getElem_mem _)
  have hlist : ys = (List.range Q.nQ).map fun q => queryOf [ys] q % 2 ^ Q.nb 0 := by
    apply List.ext_getElem
    · simp [hys.1]
    · intro i g1 g2
      rw [List.getElem_map, List.getElem_range, Nat.mod_eq_of_lt (hidx i (by omega))]
      show _ = ys.getD i 0
      rw [List.getD_eq_getElem _ _ g1]
  obtain ⟨qs, hqs⟩ : ∃ qs, (List.range' Q.base Q.qDeg).mapM (fun i => (evals.map val)[i]?) = some qs := by
    apply Fri.mapM_total
    intro i hi
    rw [List.mem_range'_1] at hi
    exact ⟨_, List.getElem?_eq_getElem (by simp; omega)⟩
  have hchal : verChallenges mt (blsTr enc) els TranscriptBN.new (proofOf Q x publics evals) = some (chals fs, t1) := h1
  have hne : NativeEval Q.nBits Q.qDeg Q.base (chals fs) (evals.map val) res ↔
      res = recombine ((chals fs).getD 7 0 ^ 2 ^ Q.nBits) qs 1 0 * ((chals fs).getD 7 0 ^ 2 ^ Q.nBits - 1) := by
    constructor
    · rintro ⟨qs', g1, g2⟩
      rw [hqs] at g1
      obtain rfl := Option.some.inj g1
      exact g2
    · exact fun g => ⟨qs, hqs, g⟩
  have hhead : Q.steps.head? = some (Q.nb 0) := by
    rw [List.head?_eq_getElem?, OnPar.nb, List.getD_eq_getElem _ _ hl, List.getElem?_eq_getElem hl]
  have hloop := loop_iff (mt := mt) (E := E) (x := x) (cq := checkQuery mt embN (cfgOf Q) val info (x.root 5) (proofOf Q x publics evals) (chals fs))
    (sp := fun s => drawn fs (.special s)) (idx := queryOf [ys]) hext hdec Q.steps.length 0 ys (by omega) (fun _ => hlist)
  have hfri : (∃ t, Fri.verify mt (blsTr enc) E (cfgOf Q) (proofOf Q x publics evals).fri
      (checkQuery mt embN (cfgOf Q) val info (x.root 5) (proofOf Q x publics evals) (chals fs)) t1 = some (true, t)) ↔
      (∀ k, 0 ≤ k → k < Q.steps.length → ∀ q < Q.nQ, oneAt mt E (checkQuery mt embN (cfgOf Q) val info (x.root 5) (proofOf Q x publics evals) (chals fs))
        Q x (fun s => drawn fs (.special s)) (queryOf [ys]) k q = some true) ∧
      Fri.finalCheck mgK Q.ext Q.nBits (Q.nb (Q.steps.length - 1)) (x.finalPol.map dec) = some true := by
    rw [← hloop, Fri.verify, if_neg (by simp [proofOf, cfgOf])]
    have h2' : Fri.challenges mt (blsTr enc) E (proofOf Q x publics evals).fri.last (cfgOf Q).steps (proofOf Q x publics evals).fri.queries.tail t1 =
        some ((List.range Q.steps.length).map fun s => drawn fs (.special s), t2) := h2
    have hh : (cfgOf Q).steps.head? = some (Q.nb 0) := hhead
    have h3' : (blsTr enc).perms (cfgOf Q).nQueries (Q.nb 0) t2 = some (ys, t3) := h3
    rw [h2', Option.bind_some]
    dsimp only
    rw [hh, Option.bind_some, h3', Option.bind_some]
    dsimp only
    have e : shiftK ^ 2 ^ (Q.ext - Q.nb (0 - 1)) = shiftK := by
      rw [Nat.zero_sub, hext, Nat.sub_self, pow_zero, pow_one]
    rw [e, Nat.zero_sub, hext]
    constructor
    · rintro ⟨t, g⟩
      obtain ⟨b, g1, g2⟩ := Option.map_eq_some_iff.mp g
      obtain ⟨rfl, -⟩ := Prod.mk.inj g2
      exact g1
    · intro g
      refine ⟨t3, ?_⟩
      have g' : Fri.checkLoop mt E (cfgOf Q) (checkQuery mt embN (cfgOf Q) val info (x.root 5) (proofOf Q x publics evals) (chals fs))
        (proofOf Q x publics evals).fri.last true (cfgOf Q).steps ((List.range Q.steps.length).map fun s => drawn fs (.special s))
        (proofOf Q x publics evals).fri.queries (cfgOf Q).inNbits (cfgOf Q).shift ys = some true := g
      rw [g']
      rfl
  have hver : (∃ t, starkVerify mt (blsTr enc) E embN (cfgOf Q) els val TranscriptBN.new info (x.root 5) (proofOf Q x publics evals) = some (true, t)) ↔
      NativeEval Q.nBits Q.qDeg Q.base (chals fs) (evals.map val) res ∧
      ∃ t, Fri.verify mt (blsTr enc) E (cfgOf Q) (proofOf Q x publics evals).fri
        (checkQuery mt embN (cfgOf Q) val info (x.root 5) (proofOf Q x publics evals) (chals fs)) t1 = some (true, t) := by
    have hx' : executeCode embN (ctxConstraint (cfgOf Q).mg (cfgOf Q).maxDegNbits (chals fs) ((proofOf Q x publics evals).evals.map val)
      ((proofOf Q x publics evals).publics.map val)) info.code = some res := hx
    have hqs' : (info.qEv.mapM fun i => (ctxConstraint (G := Nat) (cfgOf Q).mg (cfgOf Q).maxDegNbits (chals fs) ((proofOf Q x publics evals).evals.map val)
      ((proofOf Q x publics evals).publics.map val)).evals[i]?) = some qs := by
      rw [hqev]
      exact hqs
    rw [starkVerify, hchal, Option.bind_some]
    dsimp only
    rw [hx', Option.bind_some, hqs', Option.bind_some, hne]
    by_cases hr : res = recombine ((chals fs).getD 7 0 ^ 2 ^ Q.nBits) qs 1 0 * ((chals fs).getD 7 0 ^ 2 ^ Q.nBits - 1)
    · rw [if_neg (fun hc => hc hr)]
      exact ⟨fun g => ⟨hr, g⟩, fun g => g.2⟩
    · constructor
      · rintro ⟨t, g⟩
        have g := (if_pos (show res ≠ _ from hr)).symm.trans g
        simp at g
      · exact fun g => absurd g.1 hr
  rw [hver, hfri, final_iff hn]
  have hf : ∀ q < Q.nQ, (oneAt mt E (checkQuery mt embN (cfgOf Q) val info (x.root 5) (proofOf Q x publics evals) (chals fs))
      Q x (fun s => drawn fs (.special s)) (queryOf [ys]) 0 q = some true ↔ _) := fun q hq =>
    one_first hE hM hext hl hq (hidx q hq) (hv q hq)
  have hlat : ∀ s, s + 1 < Q.steps.length → ∀ q < Q.nQ, (oneAt mt E (checkQuery mt embN (cfgOf Q) val info (x.root 5) (proofOf Q x publics evals) (chals fs))
      Q x (fun s => drawn fs (.special s)) (queryOf [ys]) (s + 1) q = some true ↔ _) := fun s hs q hq => one_later hE hM hs hq
  constructor
  · rintro ⟨g1, g2, g3⟩
    refine ⟨g1, fun q hq => ((hf q hq).mp (g2 0 le_rfl hl q hq)).1, fun q hq => ((hf q hq).mp (g2 0 le_rfl hl q hq)).2.1,
      fun q hq => ((hf q hq).mp (g2 0 le_rfl hl q hq)).2.2, fun q hq s hs => ((hlat s hs q hq).mp (g2 (s + 1) (by omega) hs q hq)).1,
      fun q hq s hs => ((hlat s hs q hq).mp (g2 (s + 1) (by omega) hs q hq)).2, g3⟩
  · intro g
    refine ⟨g.evals, fun k _ hk q hq => ?_, g.last⟩
    rcases k with _ | s
    · exact (hf q hq).mpr ⟨g.trees q hq, g.div q hq, g.value q hq⟩
    · exact (hlat s hk q hq).mpr ⟨g.sTrees q hq s hk, g.fold q hq s hk⟩

/-- what the circuit checks implies what the native verifier checks; the converse up to the coefficient at the degree bound -/
theorem nativeOk_ver {chalK evalsK : List K} {spK : Nat → K} {idx : Nat → Nat} {res : K} {v : Nat → K}
    (hTr : ∀ t ∈ Q.trees, 1 ≤ t ∧ t ≤ 5)
    (hT : ∀ q < Q.nQ, ∀ t, 1 ≤ t → t ≤ 5 → t ∉ Q.trees → ∀ i, rootFrom (x.paths q t) i [x.rows q t] = x.root t)
    (hfin : x.finalPol.length = 2 ^ Q.nb (Q.steps.length - 1)) (hbig : Q.nb (Q.steps.length - 1) < 32) :
    NativeOk Q x chalK evalsK spK idx res v ↔ NativeVer Q x chalK evalsK spK idx res v ∧
      ∀ c, Fri.ifftC mgK (x.finalPol.map dec) = some c → c.getD (2 ^ (Q.nb (Q.steps.length - 1) - (Q.ext - Q.nBits))) 0 = 0 := by
  obtain ⟨c, hc, hlen⟩ := Fri.ifftC_some (mg := mgK) (k := Q.nb (Q.steps.length - 1)) (rootsK hbig.le) hbig (x.finalPol.map dec) (by simpa using hfin)
  constructor
  · intro h
    obtain ⟨c', hc', hz⟩ := h.last
    rw [hc] at hc'
    obtain rfl := Option.some.inj hc'
    refine ⟨⟨h.evals, fun q hq t h1 h2 => ?_, h.div, h.value, h.sTrees, h.fold, ⟨c, hc, fun k hk hl => hz k ?_ (by omega)⟩⟩, fun c' hc' => ?_⟩
    · by_cases ht : t ∈ Q.trees
      · exact h.trees q hq t ht
      · exact hT q hq t h1 h2 ht _
    · split_ifs at hk with hlt
      · rw [show Q.nb (Q.steps.length - 1) - (Q.ext - Q.nBits) = 0 by omega, pow_zero]
        omega
      · omega
    · rw [hc] at hc'
      obtain rfl := Option.some.inj hc'
      by_cases hl : 2 ^ (Q.nb (Q.steps.length - 1) - (Q.ext - Q.nBits)) < 2 ^ Q.nb (Q.steps.length - 1)
      · exact hz _ le_rfl hl
      · rw [List.getD_eq_default _ _ (by omega)]
  · rintro ⟨h, h0⟩
    obtain ⟨c', hc', hz⟩ := h.last
    rw [hc] at hc'
    obtain rfl := Option.some.inj hc'
    refine ⟨h.evals, fun q hq t ht => h.trees q hq t (hTr t ht).1 (hTr t ht).2, h.div, h.value, h.sTrees, h.fold, ⟨c, hc, fun k hk hl => ?_⟩⟩
    rcases Nat.eq_or_lt_of_le hk with rfl | hk
    · exact h0 c hc
    · refine hz k ?_ (by omega)
      split_ifs with hlt
      · have := Nat.one_le_two_pow (n := Q.nb (Q.steps.length - 1) - (Q.ext - Q.nBits))
        omega
      · omega

variable {lit : K → Bls} {nCm : Nat → Nat} {code code' qCode qCode' : List (VInstr K)} {evalsK : List K} {pubF : List F}

/-- **C127**: for every shape, all 64-bit inputs and the native proof with the same contents, over a Merkle tree whose `verify_group_proof` accepts
exactly the openings that lead to the root:
(1) if the whole template has a satisfying assignment in which no split or decomposed scalar is below `2^255 - r`, then `stark_verify` accepts;
(2) if `stark_verify` accepts and the coefficient of the last polynomial at the degree bound is zero, then the template has one.
Missing: (1) without its condition, which fails (C119); (2) without its condition, which fails (C34: the native verifier allows that coefficient,
the circuit does not); the tree the code has, which accepts other openings (C27). -/
theorem onNative_partial (hp : ParOk Q lit nCm code code' qCode qCode') (hb : InBase Q x evalsK pubF) (hQ : 0 < Q.nQ) (hsmall : Q.nQ * Q.nb 0 < 2 ^ 64)
    (hext : Q.nb 0 = Q.ext) (hn : Q.nBits ≤ Q.ext) (hTr : ∀ t ∈ Q.trees, 1 ≤ t ∧ t ≤ 5)
    (hT : ∀ q < Q.nQ, ∀ t, 1 ≤ t → t ≤ 5 → t ∉ Q.trees → ∀ i, rootFrom (x.paths q t) i [x.rows q t] = x.root t)
    (htree : ∀ i ∈ qCode, ∀ r ∈ i.dest :: i.src, ∀ k, r.ty = .tree k → 1 ≤ k ∧ k ≤ 4)
    (hE : ∀ a b c : Nat, E.dec a b c = coord (a : F) (b : F) (c : F))
    (hM : ∀ root path i row, mt.verify root path i row = some true ↔ rootFrom path i [row] = root)
    (nPub nEv : Nat) {enc : List Nat → Option Bls} {nin : TIn → List Nat} (he : ∀ a, enc (nin a) = some (x.read a))
    {els : P → List Nat} (hs : SameIn mt E els (proofOf Q x publics evals) nin nPub nEv (2 ^ Q.nb (Q.steps.length - 1)))
    (hev : evals.map val = evalsK) (hpub : publics.map val = pubF.map (algebraMap F K)) :
    ∃ ct fs ps, On.gen (onOps Q nPub nEv) On.OT.new = some ct ∧ ∀ (res : K) (v : Nat → K),
      executeCode extK (ctxConstraint mgK Q.nBits (chals fs) evalsK (pubF.map (algebraMap F K))) code = some res →
      (∀ q < Q.nQ, executeCode extK (ctxQuery mgK shiftK Q.nBits (Q.nb 0) (chals fs) evalsK (pubF.map (algebraMap F K))
        (fun t => (x.rows q t).map fun n : Nat => ((n : Nat) : F)) ((x.rows q 5).map fun n : Nat => ((n : Nat) : F)) (queryOf ps q)) qCode = some (v q)) →
      let accepts := ∃ t, starkVerify mt (blsTr enc) E embN (cfgOf Q) els val TranscriptBN.new ⟨List.range' Q.base Q.qDeg, code, qCode⟩ (x.root 5)
        (proofOf Q x publics evals) = some (true, t)
      (∀ w, ChainSat Q x ct 1 w → (∀ s ∈ ct.code, On.SingleAt x.read w s) → accepts) ∧
      (accepts → (∀ c, Fri.ifftC mgK (x.finalPol.map dec) = some c → c.getD (2 ^ (Q.nb (Q.steps.length - 1) - (Q.ext - Q.nBits))) 0 = 0) →
        ∃ w, ChainSat Q x ct 1 w) := by
  have hl : 0 < Q.steps.length := List.length_pos_iff.mpr hp.len
  obtain ⟨ct, fs, ps, h1, h2, h3⟩ := onChain_partial hp hb hQ hsmall nPub nEv he
  refine ⟨ct, fs, ps, h1, fun res v hx hv => ?_⟩
  have hx' : executeCode embN (ctxConstraint mgK Q.nBits (chals fs) (evals.map val) (publics.map val)) code = some res := by
    rw [hev, hpub, ← hx]
    exact executeCode_congr fun i _ r _ tmp => getRef_nat (rows := fun _ => []) tmp r fun k _ => rfl
  have hv' : ∀ q < Q.nQ, executeCode embN (ctxQuery mgK shiftK Q.nBits (Q.nb 0) (chals fs) (evals.map val) (publics.map val)
      (fun k => if k = 1 then x.rows q 1 else if k = 2 then x.rows q 2 else if k = 3 then x.rows q 3 else x.rows q 4) (x.rows q 5) (queryOf ps q)) qCode = some (v q) := by
    intro q hq
    rw [hev, hpub, ← hv q hq]
    refine executeCode_congr fun i hi r hr tmp => getRef_nat (rows := x.rows q) tmp r fun k hk => ?_
    obtain ⟨a, b⟩ := htree i hi r hr k hk
    show (if k = 1 then x.rows q 1 else if k = 2 then x.rows q 2 else if k = 3 then x.rows q 3 else x.rows q 4) = x.rows q k
    interval_cases k <;> rfl
  have hlen : evals.length = evalsK.length := by rw [← hev, List.length_map]
  have hver := starkVerify_iff (info := ⟨List.range' Q.base Q.qDeg, code, qCode⟩) (val := val) hE hM hs hext hn hl (fun s h => (hp.dec s h).le) rfl h2 hx'
    (by rw [hlen]; exact hb.evlen) hv'
  rw [hev] at hver
  have hok := nativeOk_ver (chalK := chals fs) (evalsK := evalsK) (spK := fun s => drawn fs (.special s)) (idx := queryOf ps) (res := res) (v := v)
    hTr hT hb.finalPol.1 (hp.big _ (by omega)).2
  obtain ⟨g1, g2⟩ := h3 (pubF.map (algebraMap F K)) res v hx hv
  exact ⟨fun w hw hsi => hver.mpr (hok.mp (g2 w hw hsi)).1, fun ha h0 => g1 (hok.mpr ⟨hver.mp ha, h0⟩)⟩

/-- the two verifiers differ there: for every shape with a blow-up there is a last polynomial (canonical numbers) whose degree the native verifier
accepts and the circuit does not -/
theorem native_last_differs (hn : Q.nBits < Q.ext) (hge : Q.ext - Q.nBits ≤ Q.nb (Q.steps.length - 1)) (hbig : Q.nb (Q.steps.length - 1) < 32) (x : OnIn) :
    ∃ f : List (Fin 3 → Nat), f.length = 2 ^ Q.nb (Q.steps.length - 1) ∧ (∀ v ∈ f, ∀ k, v k < 0xFFFFFFFF00000001) ∧
      NativeLast Q { x with finalPol := f } ∧
      ¬ LastSat (Q.nb (Q.steps.length - 1)) (Q.nb (Q.steps.length - 1) - (Q.ext - Q.nBits)) (sig f) 1 := by
  have hdec : ∀ k : K, dec (fun j : Fin 3 => if j = 0 then (Fri.coords k).1.val else if j = 1 then (Fri.coords k).2.1.val else (Fri.coords k).2.2.val) = k := by
    intro k
    show coord (((Fri.coords k).1.val : Nat) : F) (((Fri.coords k).2.1.val : Nat) : F) (((Fri.coords k).2.2.val : Nat) : F) = k
    rw [ZMod.natCast_zmod_val, ZMod.natCast_zmod_val, ZMod.natCast_zmod_val]
    exact Fri.coords_spec k
  generalize hN : Q.nb (Q.steps.length - 1) = n at *
  have hlt : 2 ^ (n - (Q.ext - Q.nBits)) < 2 ^ n := Nat.pow_lt_pow_right (by decide) (by omega)
  set d := 2 ^ (n - (Q.ext - Q.nBits)) with hd
  set f : List (Fin 3 → Nat) := (List.range (2 ^ n)).map fun i => fun j : Fin 3 =>
    if j = 0 then (Fri.coords (mgK n ^ (i * d))).1.val else if j = 1 then (Fri.coords (mgK n ^ (i * d))).2.1.val else (Fri.coords (mgK n ^ (i * d))).2.2.val with hf
  have hfd : f.map dec = (List.range (2 ^ n)).map fun i => mgK n ^ (i * d) := by
    rw [hf, List.map_map]
    exact List.map_congr_left fun i _ => hdec _
  have hc : Fri.ifftC mgK (f.map dec) = some ((List.range (2 ^ n)).map fun j => if j = d then (1 : K) else 0) := by
    apply Fri.ifftC_unique (rootsK hbig.le) hbig two_neK _ _ (by simp [hf]) (by simp)
    intro i hi
    rw [hfd, List.getD_eq_getElem _ _ (by simpa using hi), List.getElem_map, List.getElem_range, Finset.sum_eq_single d]
    · rw [List.getD_eq_getElem _ _ (by simpa using hlt), List.getElem_map, List.getElem_range, if_pos rfl, one_mul]
    · intro j hj hne
      rw [List.getD_eq_getElem _ _ (by simpa using Finset.mem_range.mp hj), List.getElem_map, List.getElem_range, if_neg hne, zero_mul]
    · intro h
      exact absurd (Finset.mem_range.mpr hlt) h
  refine ⟨f, by simp [hf], ?_, ?_, ?_⟩
  · intro v hv k
    obtain ⟨i, _, rfl⟩ := List.mem_map.mp hv
    dsimp only
    split_ifs <;> exact ZMod.val_lt _
  · refine ⟨_, hc, fun k hk hl => ?_⟩
    rw [hN, if_neg (by omega), ← hd] at hk
    rw [List.getD_eq_getElem _ _ hl, List.getElem_map, List.getElem_range, if_neg (by omega)]
  · rw [onLast_iff (r := Poseidon.blsMod) bls_large hbig (last := f.map dec) (by simp [hf])
      (fun i h => sig_lift (fun v hv k => by
        obtain ⟨i, _, rfl⟩ := List.mem_map.mp hv
        have : ∀ a : F, a.val < 2 ^ 64 := fun a => (ZMod.val_lt a).trans (by decide)
        dsimp only
        split_ifs <;> exact this _) (by simpa [hf] using h))]
    rintro ⟨c, h1, h2⟩
    rw [hc] at h1
    obtain rfl := Option.some.inj h1
    have := h2 d le_rfl hlt
    rw [List.getD_eq_getElem _ _ (by simpa using hlt), List.getElem_map, List.getElem_range, if_pos rfl] at this
    exact one_ne_zero this

/-- non-vacuity: the shape of C124's example, 16 points for 8 rows, last layer of 4 values -/
example (stmts qStmts : List (OnCode.Stmt Bls)) (out qOut : Sig Bls) (x : OnIn) : ∃ f : List (Fin 3 → Nat), f.length = 4 ∧ (∀ v ∈ f, ∀ k, v k < 0xFFFFFFFF00000001) ∧
    NativeLast (exPar stmts qStmts out qOut) { x with finalPol := f } ∧ ¬ LastSat 2 1 (sig f) 1 :=
  native_last_differs (Q := exPar stmts qStmts out qOut) (by simp [exPar]) (by simp [exPar, OnPar.nb]) (by simp [exPar, OnPar.nb]) x

/-! ### Non-vacuity: the shape of C124's example -/

/-- a Merkle tree that accepts exactly the openings that lead to the root -/
def exMT : Fri.MT Nat Bls (List (List Bls)) Unit where
  merkelize _ _ _ := none
  root _ := 0
  rootElems r := [r.val]
  defaultRoot := 0
  groupProof _ _ := none
  verify root path i row := some (decide (rootFrom path i [row] = root))

/-- the three coordinates as canonical integers, and back -/
noncomputable def exEnc : Fri.Enc Nat K where
  enc k := [(Fri.coords k).1.val, (Fri.coords k).2.1.val, (Fri.coords k).2.2.val]
  dec a b c := coord (a : F) (b : F) (c : F)

theorem coords_coord (a b c : F) : Fri.coords (coord a b c) = (a, b, c) := by
  obtain ⟨h1, h2, h3⟩ := Ext3.coord_inj (Fri.coords_spec (coord a b c))
  ext1
  · exact h1
  · ext1
    · exact h2
    · exact h3

theorem val_canon (a : F) : (canon a : Bls).val = a.val := by
  rw [canon, ZMod.val_cast_of_lt]
  have h := ZMod.val_lt a
  have : 0xFFFFFFFF00000001 < blsMod := by decide
  exact h.trans this

theorem val_small {n : Nat} (hn : n < 0xFFFFFFFF00000001) : ((n : Nat) : Bls).val = n := by
  rw [ZMod.val_cast_of_lt]
  have : 0xFFFFFFFF00000001 < blsMod := by decide
  exact hn.trans this

/-- all hypotheses of `onNative_partial` hold of the shape of C124's example, of all openings `e`, all publics `p` and all canonical values
of the last polynomial -/
example (c : Fin 8 → Fin 3 → F) (e : Fin 3 → Fin 3 → F) (p : F) (sp : Nat → Fin 3 → F) (idx : Nat → Nat) (root' sRoot : Nat → Bls)
    (sib' : Nat → Nat → Nat → Bls) {t : Nat → Nat} (ht : ∀ q, t q < 2 ^ 64) {u : Nat → Fin 3 → Nat} (hu : ∀ q k, u q k < 2 ^ 64)
    {g : Nat → Nat → Fin 3 → Nat} (hg : ∀ q i k, g q i k < 2 ^ 64) {f : Nat → Fin 3 → Nat} (hf : ∀ i k, f i k < 0xFFFFFFFF00000001) :
    let sib : Nat → Nat → Nat → Bls := fun q k i => if k = 2 ∨ k = 3 then 0 else sib' q k i
    let root : Nat → Bls := fun k => if k = 2 ∨ k = 3 then pos ((List.range 16).map fun _ => 0) 0 else root' k
    let x := exIn c e p sp idx root (fun s => if s = 0 then 0 else sRoot s) sib t u g f
    let els : List Nat → List Nat := id
    let val : List Nat → K := fun l => if l.length = 1 then algebraMap F K (l.getD 0 0 : Nat) else toK l
    let evals : List (List Nat) := [[(e 0 0).val, (e 0 1).val, (e 0 2).val], [(e 1 0).val, (e 1 1).val, (e 1 2).val], [(e 2 0).val, (e 2 1).val, (e 2 2).val]]
    ∃ stmts qStmts out qOut, let Q := exPar stmts qStmts out qOut
    ∃ ct, On.gen (onOps Q 1 3) On.OT.new = some ct ∧
      ((∃ tr, starkVerify exMT (blsTr fun l => l.head?.map fun n : Nat => (n : Bls)) exEnc embN (cfgOf Q) els val TranscriptBN.new
        ⟨List.range' Q.base Q.qDeg, exOn, exQ⟩ (x.root 5) (proofOf Q x [[p.val]] evals) = some (true, tr)) →
      (∀ c, Fri.ifftC mgK (x.finalPol.map dec) = some c → c.getD (2 ^ (Q.nb (Q.steps.length - 1) - (Q.ext - Q.nBits))) 0 = 0) →
      ∃ w, ChainSat Q x ct 1 w) := by
  intro sib root x els val evals
  obtain ⟨stmts, qStmts, out, qOut, code', qCode', hp⟩ := exPar_ok
  refine ⟨stmts, qStmts, out, qOut, ?_⟩
  intro Q
  have hf' : ∀ i k, f i k < 2 ^ 64 := fun i k => (hf i k).trans (by decide)
  have hb : InBase Q x [K3 (e 0), K3 (e 1), K3 (e 2)] [p] := exIn_base c e p sp idx root _ sib ht hu hg hf' stmts qStmts out qOut
  have hK : ∀ a : Fin 3 → F, toK [(a 0).val, (a 1).val, (a 2).val] = K3 a := fun a => by simp [toK, K3]
  obtain ⟨ct, fs, ps, h1, h2⟩ := onNative_partial (mt := exMT) (E := exEnc) (els := els) (val := val) (publics := [[p.val]]) (evals := evals) hp hb
    (by simp [Q, exPar]) (by simp [Q, exPar, OnPar.nb]) (by simp [Q, exPar, OnPar.nb]) (by simp [Q, exPar]) (by simp [Q, exPar])
    (by
      intro q _ k hk1 hk5 hkt i
      have hk : k = 2 ∨ k = 3 := by
        simp only [Q, exPar, List.mem_cons, List.not_mem_nil, or_false, not_or] at hkt
        omega
      have e1 : x.rows q k = [] := by rcases hk with rfl | rfl <;> simp [x, exIn]
      have e2 : x.paths q k = [(List.range 16).map fun _ => 0] := by
        simp only [x, exIn, sib, if_pos hk]
      have e3 : x.root k = pos ((List.range 16).map fun _ => 0) 0 := by
        simp only [x, exIn, root, if_pos hk]
      rw [e1, e2, e3, rootFrom, climb, climb, LinearBN.hashMatrix_spec]
      have h0 : ((List.range 16).map fun _ => (0 : Bls)).set (i % 16) 0 = (List.range 16).map fun _ => 0 := by
        apply List.ext_getElem
        · rw [List.length_set]
        · intro j a b
          rw [List.getElem_set]
          split_ifs <;> simp only [List.getElem_map]
      have h1 : (chunks 3 (List.flatten [([] : List Nat)])) = [] := rfl
      rw [h1]
      exact congrArg (fun l => pos l 0) h0)
    (by
      intro i hi r hr k hk
      simp only [exQ, List.mem_cons, List.not_mem_nil, or_false] at hi
      rcases hi with rfl | rfl
      · simp only [List.mem_cons, List.not_mem_nil, or_false] at hr
        rcases hr with rfl | rfl | rfl <;> simp at hk
        omega
      · simp only [List.mem_cons, List.not_mem_nil, or_false] at hr
        rcases hr with rfl | rfl | rfl | rfl <;> simp at hk
        omega)
    (fun _ _ _ => rfl) (by intro r path i row; simp [exMT]) 1 3 (enc := fun l => l.head?.map fun n : Nat => (n : Bls)) (nin := fun a => [(x.read a).val])
    (fun a => by
      simp only [List.head?_cons, Option.map_some]
      rw [ZMod.natCast_zmod_val])
    ⟨by simp [proofOf, els, x, exIn, OnIn.read, val_canon], rfl, rfl, rfl, rfl,
      by simp [proofOf, els, evals, x, exIn, OnIn.read, S, val_canon, List.range_succ],
      by
        intro s q hq
        rcases s with _ | _ | s
        · simp [queryAt, proofOf, exMT, OnIn.read, x, exIn, Q, exPar] at hq ⊢
          rw [← hq]
          rfl
        · simp [queryAt, proofOf, exMT, OnIn.read, x, exIn, Q, exPar] at hq ⊢
          rw [← hq]
        · simp [proofOf, Q, exPar] at hq,
      by
        simp only [proofOf, exEnc, OnIn.read, x, exIn, Q, exPar, OnPar.nb]
        rw [List.map_map, List.map_map]
        apply List.map_congr_left
        intro a ha
        have ha : a < 4 := List.mem_range.mp ha
        have hd : ∀ k, ((f a k : Nat) : F).val = (((f a k : Nat) : Bls)).val := fun k => by
          rw [ZMod.val_cast_of_lt (hf a k), val_small (hf a k)]
        have hsig : ∀ k, sig ((List.range 4).map f) a k = ((f a k : Nat) : Bls) := fun k => by
          rw [sig, List.getD_eq_getElem _ _ (by simpa using ha), List.getElem_map, List.getElem_range]
        have hdec : Fri.coords (dec (f a)) = (((f a 0 : Nat) : F), ((f a 1 : Nat) : F), ((f a 2 : Nat) : F)) := coords_coord _ _ _
        simp only [Function.comp, hdec, hsig, hd, List.map_cons, List.map_nil]
        rfl⟩
    (by simp [evals, val, hK])
    (by
      show [algebraMap F K ((p.val : Nat) : F)] = [algebraMap F K p]
      rw [ZMod.natCast_zmod_val])
  refine ⟨ct, h1, fun ha h0 => ?_⟩
  refine (h2 (((K3 (e 1) - K3 (e 0)) * drawn fs (.chal 7) + algebraMap F K p) * algebraMap F K 7)
    (fun q => (algebraMap F K (t q) - K3 (e 0)) * (queryPoint mgK shiftK 4 (queryOf ps q) / (queryPoint mgK shiftK 4 (queryOf ps q) - drawn fs (.chal 7))) + dec (u q))
    ?_ ?_).2 ha h0
  · simp [executeCode, exOn, vStep, getRef, vApply, ctxConstraint, Function.update, chals]
  · intro q _
    simp [executeCode, exQ, vStep, getRef, vApply, ctxQuery, Function.update, extractVal, extK, x, exIn, Q, exPar, dec, OnPar.nb, chals]

end Verif.Gadget.OnVerifier
