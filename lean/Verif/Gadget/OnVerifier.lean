import Verif.Gadget.OnFri
import Verif.Gadget.Merkle
import Verif.Stark.ProverAir

/-!
# C124: the template StarkVerifier of the on-chain circuit after its transcript, starky/src/stark_verifier_circom_onchain.rs L1030-1578
-/
set_option linter.unusedSectionVars false

namespace Verif.Gadget.OnVerifier
open Verif.GL (F)
open Verif.Ext3 (K coord)
open Verif.Poseidon (Bls)
open Stark Codegen Circom OnCode FFT OnFri

noncomputable local instance : DecidableEq K := Classical.decEq _

/-- what the generator knows: `steps` are the `nBits` of the layers, `trees` the committed trees present (1, 4 and 5 for the constants
always; 2 and 3 when they have columns, L1066, L1075), `stmts`/`qStmts` the printed programs -/
structure OnPar where
  nBits : Nat
  ext : Nat
  nQ : Nat
  steps : List Nat
  trees : List Nat
  qDeg : Nat
  base : Nat
  stmts : List (OnCode.Stmt Bls)
  out : Sig Bls
  secs : Nat → List (Nat × Nat)
  qStmts : List (OnCode.Stmt Bls)
  qOut : Sig Bls

/-- the `nBits` of layer `s`; 0 past the last one, L1094-1095, L1321-1322 -/
def OnPar.nb (Q : OnPar) (s : Nat) : Nat := Q.steps.getD s 0

/-- the signals that enter this part: inputs of the template, and the challenges, special points and query bits the transcript computed
(C119).  The values of the openings are given as numbers; `rows q 5` are the constants -/
structure OnIn where
  chal : List (S3 Poseidon.blsMod)
  evals : List (S3 Poseidon.blsMod)
  publics : List Bls
  special : Nat → Fin 3 → Bls
  ys : Nat → Nat → Bls
  root : Nat → Bls
  rows : Nat → Nat → List Nat
  paths : Nat → Nat → List (List Bls)
  sRoot : Nat → Bls
  sRows : Nat → Nat → List (Fin 3 → Nat)
  sPaths : Nat → Nat → List (List Bls)
  finalPol : List (Fin 3 → Nat)

/-- what `s{s}_lowValues` selects from: the opened row of the next layer or the last polynomial, L1235-1271, L1466-1500 -/
def OnIn.next (Q : OnPar) (x : OnIn) (s q : Nat) : List (Fin 3 → Nat) := if s + 1 < Q.steps.length then x.sRows (s + 1) q else x.finalPol

/-- a list of triples as signals -/
def sig (l : List (Fin 3 → Nat)) (i : Nat) (e : Fin 3) : Bls := ((l.getD i 0 e : Nat) : Bls)

/-- a row as signals -/
def sigs (l : List Nat) : List Bls := l.map fun n : Nat => ((n : Nat) : Bls)

/-- the constraints of the step of layer 0 for query `q`, L1055-1283, L1519-1546 -/
structure Query0 (Q : OnPar) (x : OnIn) (enable : Bls) (q : Nat) : Prop where
  /-- `s0_merkle{t}[q]`: one element per column -/
  trees : ∀ t ∈ Q.trees, ∃ root, MerkleHash (Q.nb 0) ((x.rows q t).map fun n : Nat => [((n : Nat) : Bls)]) (sibOf (x.paths q t)) (x.ys q) root ∧
    enable * (root - x.root t) = 0
  value : ∃ out σ low, QuerySat Q.nBits (Q.nb 0) Q.secs Q.qStmts Q.qOut (x.ys q) x.chal x.evals (fun t => sigs (x.rows q t)) (sigs (x.rows q 5)) out σ ∧
    TreeSelector (Q.nb 0 - Q.nb 1) 3 (fun j k => sig (x.next Q 0 q) j (Fin.ofNat 3 k)) (fun i => x.ys q (i + Q.nb 1)) low ∧
    ∀ e : Fin 3, enable * (low e - out e) = 0

/-- the constraints of layer `s + 1` for query `q`, L1286-1512, L1534-1546 -/
structure QueryS (Q : OnPar) (x : OnIn) (enable : Bls) (q s : Nat) : Prop where
  tree : ∃ root, MerkleHash (Q.nb (s + 1)) ((x.sRows (s + 1) q).map fun v => [((v 0 : Nat) : Bls), ((v 1 : Nat) : Bls), ((v 2 : Nat) : Bls)])
    (sibOf (x.sPaths (s + 1) q)) (x.ys q) root ∧ enable * (root - x.sRoot (s + 1)) = 0
  fold : ∃ σ, FoldSat Q.ext (Q.nb s) (Q.nb (s + 1)) (Q.nb (s + 2)) (sig (x.sRows (s + 1) q)) (sig (x.next Q (s + 1) q)) (x.ys q) (x.special (s + 1)) enable σ

/-- all constraints of the template after the transcript -/
structure OnSat (Q : OnPar) (x : OnIn) (enable : Bls) : Prop where
  evals : ∃ σ, EvalsSat Q.nBits Q.qDeg Q.base Q.stmts Q.out x.chal x.evals x.publics enable σ
  first : ∀ q < Q.nQ, Query0 Q x enable q
  later : ∀ q < Q.nQ, ∀ s, s + 1 < Q.steps.length → QueryS Q x enable q s
  last : LastSat (Q.nb (Q.steps.length - 1)) (Q.nb (Q.steps.length - 1) - (Q.ext - Q.nBits)) (sig x.finalPol) enable

/-! ### Specification -/

/-- the element of the extension field of three numbers -/
noncomputable def dec (v : Fin 3 → Nat) : K := coord ((v 0 : Nat) : F) ((v 1 : Nat) : F) ((v 2 : Nat) : F)

/-- the root the native verifier computes from an opened row: Poseidon over BLS12-381, sixteen children per node -/
def rootFrom (path : List (List Bls)) (idx : Nat) (cols : List (List Nat)) : Bls := climb (fun l => pos l 0) path idx (LinearBN.hashMatrix pos cols)

/-- the checks of the native verifier after its transcript; `res` and `v q` are the values of the constraint program and of the query
program, `idx q` the queries, `spK` the folding challenges -/
structure NativeOk (Q : OnPar) (x : OnIn) (chalK evalsK : List K) (spK : Nat → K) (idx : Nat → Nat) (res : K) (v : Nat → K) : Prop where
  /-- the constraint holds at the challenge -/
  evals : NativeEval Q.nBits Q.qDeg Q.base chalK evalsK res
  /-- the opened rows are in the committed trees -/
  trees : ∀ q < Q.nQ, ∀ t ∈ Q.trees, rootFrom (x.paths q t) (idx q) [x.rows q t] = x.root t
  /-- the query point is not one of the two points divided by -/
  div : ∀ q < Q.nQ, queryPoint mgK shiftK (Q.nb 0) (idx q) ≠ chalK.getD 7 0 ∧ queryPoint mgK shiftK (Q.nb 0) (idx q) ≠ chalK.getD 7 0 * mgK Q.nBits
  /-- the value computed from the opened rows is the one in the first folded layer -/
  value : ∀ q < Q.nQ, ((x.next Q 0 q).map dec)[idx q / 2 ^ Q.nb 1]? = some (v q)
  /-- the opened groups are in the trees of the layers -/
  sTrees : ∀ q < Q.nQ, ∀ s, s + 1 < Q.steps.length →
    rootFrom (x.sPaths (s + 1) q) (idx q % 2 ^ Q.nb (s + 1)) ((x.sRows (s + 1) q).map fun v => [v 0, v 1, v 2]) = x.sRoot (s + 1)
  /-- every layer folds to the next -/
  fold : ∀ q < Q.nQ, ∀ s, s + 1 < Q.steps.length →
    NativeFold Q.ext (Q.nb s) (Q.nb (s + 1)) (Q.nb (s + 2)) (spK (s + 1)) ((x.sRows (s + 1) q).map dec) ((x.next Q (s + 1) q).map dec) (idx q)
  /-- the last polynomial has low degree -/
  last : ∃ c, Fri.ifftC mgK (x.finalPol.map dec) = some c ∧ ∀ k, 2 ^ (Q.nb (Q.steps.length - 1) - (Q.ext - Q.nBits)) ≤ k →
    k < 2 ^ Q.nb (Q.steps.length - 1) → c.getD k 0 = 0

/-- the setup: sizes of the layers, the printed programs (C121, C122); the unreduced result of the query program stays above `-15p` -/
structure ParOk (Q : OnPar) (lit : K → Bls) (nCm : Nat → Nat) (code code' qCode qCode' : List (VInstr K)) : Prop where
  len : Q.steps ≠ []
  big : ∀ s < Q.steps.length, 1 < Q.nb s ∧ Q.nb s < 32
  dec : ∀ s < Q.steps.length, Q.nb (s + 1) < Q.nb s
  nBits : Q.nBits ≤ 32
  evals : EvalsOk (16, 48) lit nCm Q.nBits Q.qDeg code code' Q.stmts Q.out
  query : QueryOk (16, 48) lit nCm Q.secs qCode qCode' Q.qStmts Q.qOut
  room : ∀ iv, ivals (16, 48) (fun _ => none) qCode' = some iv → ∀ last ∈ qCode'.getLast?, ∀ p, iv last.dest.id = some p → p.1 ≤ 15
  nodup : (code.map fun i => i.dest.id).Nodup ∧ (qCode.map fun i => i.dest.id).Nodup

/-- the inputs of the template: all numbers have 64 bits, sizes are those of the declarations -/
structure InBase (Q : OnPar) (x : OnIn) (evalsK : List K) (pubF : List F) : Prop where
  evals : Reps3 x.evals evalsK
  evlen : Q.base + Q.qDeg ≤ evalsK.length
  publics : List.Forall₂ Out x.publics pubF
  rows : ∀ q t, ∀ n ∈ x.rows q t, n < 2 ^ 64
  rows0 : ∀ q < Q.nQ, ∀ t ∈ Q.trees, x.rows q t ≠ []
  map : ∀ q < Q.nQ, ∃ trees, mapValues Q.secs (fun t => sigs (x.rows q t)) = some trees
  paths : ∀ q < Q.nQ, ∀ t ∈ Q.trees, (x.paths q t).length = mLevels (2 ^ Q.nb 0) ∧ ∀ lev ∈ x.paths q t, lev.length = 16
  sRows : ∀ q < Q.nQ, ∀ s, s + 1 < Q.steps.length → (x.sRows (s + 1) q).length = 2 ^ (Q.nb s - Q.nb (s + 1)) ∧ ∀ v ∈ x.sRows (s + 1) q, ∀ e, v e < 2 ^ 64
  sPaths : ∀ q < Q.nQ, ∀ s, s + 1 < Q.steps.length → (x.sPaths (s + 1) q).length = mLevels (2 ^ Q.nb (s + 1)) ∧ ∀ lev ∈ x.sPaths (s + 1) q, lev.length = 16
  finalPol : x.finalPol.length = 2 ^ Q.nb (Q.steps.length - 1) ∧ ∀ v ∈ x.finalPol, ∀ e, v e < 2 ^ 64

/-- ... and the transcript's signals stand for the native values -/
structure InOk (Q : OnPar) (x : OnIn) (chalK evalsK : List K) (pubF : List F) (spK : Nat → K) (idx : Nat → Nat) : Prop extends InBase Q x evalsK pubF where
  chal : Reps3 x.chal chalK
  chal8 : 7 < chalK.length
  special : ∀ s, s + 1 < Q.steps.length → Lift3 Out (x.special (s + 1)) (spK (s + 1))
  ys : ∀ q < Q.nQ, ∀ j < Q.nb 0, x.ys q j = if (idx q).testBit j then 1 else 0
  idx : ∀ q < Q.nQ, idx q < 2 ^ Q.nb 0

/-! ### Proofs -/

/-- every 64-bit number with the right value is an output of `GLNorm` when the input is at least `-15p` -/
theorem glNorm_any {r : Nat} [Fact r.Prime] {i o : ZMod r} {x : F} (hi : RI 15 1000 i x) (ho : Out o x) :
    ∃ k, Red 10 (i + 16 * (P : ZMod r)) k o := by
  obtain ⟨z, z1, z2, rfl, rfl⟩ := hi
  obtain ⟨n, n1, rfl, n2⟩ := ho
  have hP : ((P : Nat) : ℤ) = 0xFFFFFFFF00000001 := rfl
  have hz : ((z - n : ℤ) : F) = 0 := by
    push_cast
    rw [n2, sub_self]
  have hd : (P : ℤ) ∣ z - n := (ZMod.intCast_zmod_eq_zero_iff_dvd _ P).mp hz
  obtain ⟨c, hc⟩ := hd
  rw [hP] at z1 z2 hc
  have c1 : -16 ≤ c := by omega
  have c2 : c < 1000 := by omega
  have e : ((z : ℤ) : ZMod r) = ((c * (P : ℤ) + n : ℤ) : ZMod r) := by
    congr 1
    rw [hP]
    omega
  refine ⟨((c + 16).toNat : ZMod r), (num2Bits_ex _ _).mpr ⟨(c + 16).toNat, by omega, rfl⟩, (num2Bits_ex _ _).mpr ⟨n, n1, rfl⟩, ?_⟩
  have e2 : (((c + 16).toNat : Nat) : ZMod r) = ((c + 16 : ℤ) : ZMod r) := by
    rw [← Int.cast_natCast, Int.toNat_of_nonneg (by omega)]
  rw [e2, e]
  push_cast
  ring

/-- `VerifyQuery` can output every 64-bit triple with the native value -/
theorem onQuery_any {r : Nat} [Fact r.Prime] (hr : 2 ^ 250 < r) {lit : K → ZMod r} {nCm : Nat → Nat} {nBits nb : Nat} (hn0 : nb ≠ 0) (hnb : nb ≤ 32)
    (hnB : nBits ≤ 32) {secs : Nat → List (Nat × Nat)} {code code' : List (VInstr K)} {stmts : List (OnCode.Stmt (ZMod r))} {evalQ : Sig (ZMod r)}
    (hok : QueryOk (16, 48) lit nCm secs code code' stmts evalQ)
    (hroom : ∀ iv, ivals (16, 48) (fun _ => none) code' = some iv → ∀ last ∈ code'.getLast?, ∀ p, iv last.dest.id = some p → p.1 ≤ 15)
    {chal evals : List (S3 r)} {vals : Nat → List (ZMod r)}
    {consts : List (ZMod r)} {ys : Nat → ZMod r} {chalK evalsK pubK : List K} {rows : Nat → List F} {constsF : List F} {idx : Nat}
    (hin : QueryIn nb chal evals vals consts ys chalK evalsK rows constsF idx) {v : K}
    (hx : executeCode extK (ctxQuery mgK shiftK nBits nb chalK evalsK pubK rows constsF idx) code = some v)
    {out out' : Fin 3 → ZMod r} {σ : QuerySigs r} (h : QuerySat nBits nb secs stmts evalQ ys chal evals vals consts out σ)
    (ho : Lift3 Out out' v) : QuerySat nBits nb secs stmts evalQ ys chal evals vals consts out' σ := by
  obtain ⟨xi, x1, x2, x3⟩ := h.divs
  obtain ⟨xk, k1, k2⟩ := reps3_get' hin.chal _ _ x1
  have hxk : chalK.getD 7 0 = xk := by rw [List.getD_eq_getElem?_getD, k1]; rfl
  obtain ⟨hX, -⟩ := X_sound hr hn0 hnb hin.idx hin.bits h.first h.next h.x
  have hXb := base_RI (by omega) hX
  rw [point_val] at hXb
  obtain ⟨d1, d2⟩ := glCInv_sound hr (lift3_mono (fun _ _ h => h.rep (by omega) (by omega)) (denIn_RI hX k2)) x2
  rw [point_val] at d1 d2
  have e1 := glCMul_sound hr (lift3_mono (fun _ _ h => h.rep (by omega) (by omega)) hXb) (out3_rep d2) h.div1
  have w := glCMul_sound hr (lift3_mono (fun _ _ h => h.rep (by omega) (by omega)) (base_RI (by omega) (rootC_out (r := r) hnB))) (out3_rep k2) x3
  obtain ⟨f1, f2⟩ := glCInv_sound hr (lift3_mono (fun _ _ h => h.rep (by omega) (by omega)) (denIn_RI hX w)) h.div2.1
  rw [point_val] at f1 f2
  have e2 := glCMul_sound hr (lift3_mono (fun _ _ h => h.rep (by omega) (by omega)) hXb) (out3_rep f2) h.div2.2
  rw [mgK_val, mul_comm (mgK nBits) xk] at f1 e2
  obtain ⟨trees, m1, m2, a, b, c, m3, m4⟩ := h.code
  obtain ⟨iv, iv1, iv2⟩ := hok.range
  have hleaf := query_leavesRep (lit := lit) (nCm := nCm) (ctx := ctxQuery mgK shiftK nBits nb chalK evalsK pubK rows constsF idx) (tmp := σ.tmp)
    hin.chal hin.evals hin.rows hin.consts m1 rfl rfl (xd := σ.xd) (xdw := σ.xdw)
    (by rw [hxk, div_eq_mul_inv]; exact e1) (by rw [hxk, div_eq_mul_inv]; exact e2) hok.lits hok.trees hok.pubs
  obtain ⟨last, w, p, l1, l2, l3, l4, l5⟩ := onCode_sound hr hok.dims hok.print (ivals_mono (by norm_num) (by norm_num) iv1) hleaf m2 hx
  have m3' := m3
  rw [show qEnv chal evals trees consts σ evalQ = some w from l2] at m3
  obtain rfl := Option.some.inj m3
  obtain ⟨p1, p2⟩ := iv2 last l1 p l4
  have p3 := hroom iv iv1 last l1 p l4
  dsimp only at p1 p2
  obtain ⟨u, u1, u2⟩ := l5
  obtain ⟨w, w1, w2⟩ := ho
  have huw : u = w := by
    have := Ext3.coord_eq_zero (a := u 0 - w 0) (b := u 1 - w 1) (c := u 2 - w 2) (by rw [coord_sub', u2, w2, sub_self])
    funext e
    fin_cases e
    · exact sub_eq_zero.mp this.1
    · exact sub_eq_zero.mp this.2.1
    · exact sub_eq_zero.mp this.2.2
  subst huw
  have hex : ∀ e, ∃ k, Red 10 (![a, b, c] e + 16 * (P : ZMod r)) k (out' e) := fun e => glNorm_any ((u1 e).mono (by omega) (by omega)) (w1 e)
  choose k hk using hex
  exact ⟨h.first, h.next, h.x, h.divs, h.div1, h.div2, trees, m1, m2, a, b, c, m3', k, hk⟩

theorem lift_unique {r : Nat} (hr : 2 ^ 250 < r) {s : Fin 3 → ZMod r} {x y : K} (h1 : Lift3 Out s x) (h2 : Lift3 Out s y) : x = y := by
  obtain ⟨a, a1, rfl⟩ := h1
  obtain ⟨b, b1, rfl⟩ := h2
  have : ∀ e, a e = b e := by
    intro e
    obtain ⟨n, n1, n2, n3⟩ := a1 e
    have h := b1 e
    rw [n2] at h
    rw [out_small hr n1 h, n3]
  rw [this 0, this 1, this 2]

theorem dec_lift {v : Fin 3 → Nat} (h : ∀ e, v e < 2 ^ 64) : Lift3 Out (fun e => ((v e : Nat) : Bls)) (dec v) :=
  ⟨fun e => ((v e : Nat) : F), fun e => ⟨v e, h e, rfl, rfl⟩, rfl⟩

theorem sig_lift {l : List (Fin 3 → Nat)} (h : ∀ v ∈ l, ∀ e, v e < 2 ^ 64) {i : Nat} (hi : i < l.length) :
    Lift3 Out (sig l i) ((l.map dec).getD i 0) := by
  have e1 : (l.map dec).getD i 0 = dec l[i] := by
    rw [List.getD_eq_getElem?_getD, List.getElem?_map, List.getElem?_eq_getElem hi]; rfl
  have e2 : sig l i = fun e => ((l[i] e : Nat) : Bls) := by
    funext e
    rw [sig, List.getD_eq_getElem?_getD, List.getElem?_eq_getElem hi]; rfl
  rw [e1, e2]
  exact dec_lift (h _ (List.getElem_mem hi))

theorem sigs_out {l : List Nat} (h : ∀ n ∈ l, n < 2 ^ 64) : List.Forall₂ Out (sigs l) (l.map fun n : Nat => ((n : Nat) : F)) := by
  rw [sigs, List.forall₂_map_left_iff, List.forall₂_map_right_iff, List.forall₂_same]
  exact fun n hn => ⟨n, h n hn, rfl, rfl⟩

/-- a tree of the circuit -/
theorem tree_iff {nb idx : Nat} {cols : List (List Nat)} (hc : cols.flatten ≠ []) {path : List (List Bls)} {key : Nat → Bls} {want : Bls}
    (hidx : idx < 2 ^ nb) (hp : path.length = mLevels (2 ^ nb) ∧ ∀ lev ∈ path, lev.length = 16) (hk : ∀ i < nb, key i = bitZ (idx.testBit i)) :
    (∃ root, MerkleHash nb (cols.map (·.map fun n : Nat => ((n : Nat) : Bls))) (sibOf path) key root ∧ (1 : Bls) * (root - want) = 0) ↔
      rootFrom path idx cols = want := by
  constructor
  · rintro ⟨root, ⟨h, h1, h2⟩, h3⟩
    rw [linearHash_iff _ hc] at h1
    rw [merkle_iff nb path idx h root key hidx hp.1 hp.2 hk] at h2
    rw [one_mul, sub_eq_zero] at h3
    rw [rootFrom, ← h1, ← h2, h3]
  · intro h
    refine ⟨want, ⟨LinearBN.hashMatrix pos cols, (linearHash_iff _ hc _).mpr rfl, ?_⟩, by rw [sub_self, mul_zero]⟩
    rw [merkle_iff nb path idx _ want key hidx hp.1 hp.2 hk]
    exact h.symm

theorem hashMatrix_flat (cols : List (List Nat)) : LinearBN.hashMatrix pos cols = LinearBN.hashMatrix pos [cols.flatten] := by
  rw [LinearBN.hashMatrix_spec, LinearBN.hashMatrix_spec]
  simp

variable {Q : OnPar} {x : OnIn} {lit : K → Bls} {nCm : Nat → Nat} {code code' qCode qCode' : List (VInstr K)} {chalK evalsK : List K} {pubF : List F}
  {spK : Nat → K} {idx : Nat → Nat}

theorem nb_le (h : ParOk Q lit nCm code code' qCode qCode') {s : Nat} (hs : s < Q.steps.length) : Q.nb s ≤ Q.nb 0 := by
  induction s with
  | zero => exact le_rfl
  | succ s ih => exact (h.dec s (by omega)).le.trans (ih (by omega))

/-- the next layer's row has its declared size and 64-bit values -/
theorem next_ok (hi : InOk Q x chalK evalsK pubF spK idx) {s q : Nat} (hs : s < Q.steps.length) (hq : q < Q.nQ) :
    (x.next Q s q).length = 2 ^ (Q.nb s - Q.nb (s + 1)) ∧ ∀ v ∈ x.next Q s q, ∀ e, v e < 2 ^ 64 := by
  rw [OnIn.next]
  split_ifs with h
  · exact hi.sRows q hq s h
  · obtain ⟨h1, h2⟩ := hi.finalPol
    have e : s = Q.steps.length - 1 := by omega
    have e0 : Q.nb (s + 1) = 0 := by
      rw [OnPar.nb, List.getD_eq_getElem?_getD, List.getElem?_eq_none (by omega)]; rfl
    rw [e0, Nat.sub_zero, e]
    exact ⟨h1, h2⟩

theorem qIn (hi : InOk Q x chalK evalsK pubF spK idx) {q : Nat} (hq : q < Q.nQ) : QueryIn (Q.nb 0) x.chal x.evals (fun t => sigs (x.rows q t))
    (sigs (x.rows q 5)) (x.ys q) chalK evalsK (fun t => (x.rows q t).map fun n : Nat => ((n : Nat) : F)) ((x.rows q 5).map fun n : Nat => ((n : Nat) : F)) (idx q) :=
  ⟨hi.chal, hi.evals, fun t => sigs_out (hi.rows q t), sigs_out (hi.rows q 5), hi.ys q hq, hi.idx q hq⟩

/-- the selected value of the next layer -/
theorem low_iff (hp : ParOk Q lit nCm code code' qCode qCode') (hi : InOk Q x chalK evalsK pubF spK idx) {q : Nat} (hq : q < Q.nQ) (low : Nat → Bls) :
    idx q / 2 ^ Q.nb 1 < 2 ^ (Q.nb 0 - Q.nb 1) ∧
    (TreeSelector (Q.nb 0 - Q.nb 1) 3 (fun j k => sig (x.next Q 0 q) j (Fin.ofNat 3 k)) (fun i => x.ys q (i + Q.nb 1)) low ↔
      ∀ e : Fin 3, low e = sig (x.next Q 0 q) (idx q / 2 ^ Q.nb 1) e) := by
  have hl : 0 < Q.steps.length := List.length_pos_iff.mpr hp.len
  have hd : Q.nb 1 < Q.nb 0 := hp.dec 0 hl
  have hlt : idx q / 2 ^ Q.nb 1 < 2 ^ (Q.nb 0 - Q.nb 1) := by
    rw [Nat.div_lt_iff_lt_mul (by positivity), ← pow_add, show Q.nb 0 - Q.nb 1 + Q.nb 1 = Q.nb 0 by omega]
    exact hi.idx q hq
  refine ⟨hlt, ?_⟩
  rw [treeSelector_iff (r := Poseidon.blsMod) (nLevels := Q.nb 0 - Q.nb 1) (eSize := 3) (by omega) (v := idx q / 2 ^ Q.nb 1) hlt (by
    intro i h
    show x.ys q (i + Q.nb 1) = bitZ _
    rw [hi.ys q hq (i + Q.nb 1) (by omega), Nat.testBit_div_two_pow]
    rfl)]
  constructor
  · intro h e
    have := h e e.2
    rwa [ofNat3] at this
  · intro h k hk
    have := h ⟨k, hk⟩
    rwa [show Fin.ofNat 3 k = ⟨k, hk⟩ from ofNat3 ⟨k, hk⟩]

/-- **C124**: with `enable = 1`, for every shape and all 64-bit inputs, the constraints after the transcript can be satisfied exactly when
all checks of the native verifier after its transcript succeed -/
theorem onVerifier_iff (hp : ParOk Q lit nCm code code' qCode qCode') (hi : InOk Q x chalK evalsK pubF spK idx) {pubK : List K} {res : K} {v : Nat → K}
    (hx : executeCode extK (ctxConstraint mgK Q.nBits chalK evalsK (pubF.map (algebraMap F K))) code = some res)
    (hv : ∀ q < Q.nQ, executeCode extK (ctxQuery mgK shiftK Q.nBits (Q.nb 0) chalK evalsK pubK (fun t => (x.rows q t).map fun n : Nat => ((n : Nat) : F))
      ((x.rows q 5).map fun n : Nat => ((n : Nat) : F)) (idx q)) qCode = some (v q)) :
    OnSat Q x 1 ↔ NativeOk Q x chalK evalsK spK idx res v := by
  have hl : 0 < Q.steps.length := List.length_pos_iff.mpr hp.len
  have hb0 := hp.big 0 hl
  have hE := onEvals_iff (pubF := pubF) bls_large mgK (mgK_pow hp.nBits) hp.evals hp.nodup.1 hi.chal hi.evals hi.publics hi.chal8 hi.evlen hx (base := Q.base)
  have hT : ∀ q < Q.nQ, ∀ t ∈ Q.trees, ((∃ root, MerkleHash (Q.nb 0) ((x.rows q t).map fun n : Nat => [((n : Nat) : Bls)]) (sibOf (x.paths q t)) (x.ys q) root ∧
      (1 : Bls) * (root - x.root t) = 0) ↔ rootFrom (x.paths q t) (idx q) [x.rows q t] = x.root t) := by
    intro q hq t ht
    have := tree_iff (nb := Q.nb 0) (cols := (x.rows q t).map fun n => [n]) (want := x.root t) (path := x.paths q t) (key := x.ys q) (by
      rw [← List.flatMap_def, List.flatMap_singleton']; exact hi.rows0 q hq t ht) (hi.idx q hq) (hi.paths q hq t ht) (hi.ys q hq)
    rw [List.map_map] at this
    rw [rootFrom, hashMatrix_flat, ← List.flatMap_def, List.flatMap_singleton'] at this
    exact this
  have hV : ∀ q < Q.nQ, ((∃ out σ low, QuerySat Q.nBits (Q.nb 0) Q.secs Q.qStmts Q.qOut (x.ys q) x.chal x.evals (fun t => sigs (x.rows q t)) (sigs (x.rows q 5)) out σ ∧
      TreeSelector (Q.nb 0 - Q.nb 1) 3 (fun j k => sig (x.next Q 0 q) j (Fin.ofNat 3 k)) (fun i => x.ys q (i + Q.nb 1)) low ∧
      ∀ e : Fin 3, (1 : Bls) * (low e - out e) = 0) ↔
      (queryPoint mgK shiftK (Q.nb 0) (idx q) ≠ chalK.getD 7 0 ∧ queryPoint mgK shiftK (Q.nb 0) (idx q) ≠ chalK.getD 7 0 * mgK Q.nBits) ∧
      ((x.next Q 0 q).map dec)[idx q / 2 ^ Q.nb 1]? = some (v q)) := by
    intro q hq
    obtain ⟨trees, hm⟩ := hi.map q hq
    obtain ⟨q1, q2⟩ := onQuery_iff bls_large hb0.1 (by omega) hp.nBits hp.query hp.nodup.2 (qIn hi hq) hi.chal8 hm (hv q hq)
    obtain ⟨n1, n2⟩ := next_ok hi hl hq
    obtain ⟨hlt, -⟩ := low_iff hp hi hq 0
    have hL := sig_lift n2 (i := idx q / 2 ^ Q.nb 1) (by rw [n1]; exact hlt)
    have hget : ((x.next Q 0 q).map dec)[idx q / 2 ^ Q.nb 1]? = some (((x.next Q 0 q).map dec).getD (idx q / 2 ^ Q.nb 1) 0) := by
      rw [List.getD_eq_getElem?_getD, List.getElem?_eq_getElem (by rw [List.length_map, n1]; exact hlt)]; rfl
    constructor
    · rintro ⟨out, σ, low, h1, h2, h3⟩
      have hz := q1.mp ⟨out, σ, h1⟩
      rw [not_or] at hz
      refine ⟨hz, ?_⟩
      rw [hget, Option.some_inj]
      have hlow := (low_iff hp hi hq low).2.mp h2
      have : sig (x.next Q 0 q) (idx q / 2 ^ Q.nb 1) = out := by
        funext e
        have := h3 e
        rw [one_mul, sub_eq_zero, hlow e] at this
        exact this
      rw [this] at hL
      exact lift_unique bls_large hL (q2 out σ h1)
    · rintro ⟨hz, h2⟩
      obtain ⟨out, σ, h1⟩ := q1.mpr (by rw [not_or]; exact hz)
      rw [hget, Option.some_inj] at h2
      rw [h2] at hL
      refine ⟨_, σ, fun k => sig (x.next Q 0 q) (idx q / 2 ^ Q.nb 1) (Fin.ofNat 3 k), onQuery_any bls_large (by omega) (by omega) hp.nBits hp.query hp.room
        (qIn hi hq) (hv q hq) h1 hL, (low_iff hp hi hq _).2.mpr (fun e => by rw [ofNat3]), fun e => ?_⟩
      dsimp only
      rw [ofNat3, sub_self, mul_zero]
  have hS : ∀ q < Q.nQ, ∀ s, s + 1 < Q.steps.length → (QueryS Q x 1 q s ↔
      rootFrom (x.sPaths (s + 1) q) (idx q % 2 ^ Q.nb (s + 1)) ((x.sRows (s + 1) q).map fun v => [v 0, v 1, v 2]) = x.sRoot (s + 1) ∧
      NativeFold Q.ext (Q.nb s) (Q.nb (s + 1)) (Q.nb (s + 2)) (spK (s + 1)) ((x.sRows (s + 1) q).map dec) ((x.next Q (s + 1) q).map dec) (idx q)) := by
    intro q hq s hs
    have hle := nb_le hp hs
    have hbits : ∀ j < Q.nb (s + 1), x.ys q j = if (idx q).testBit j then 1 else 0 := fun j hj => hi.ys q hq j (by omega)
    obtain ⟨r1, r2⟩ := hi.sRows q hq s hs
    obtain ⟨n1, n2⟩ := next_ok hi hs hq
    have ht := tree_iff (nb := Q.nb (s + 1)) (idx := idx q % 2 ^ Q.nb (s + 1)) (cols := (x.sRows (s + 1) q).map fun v => [v 0, v 1, v 2])
      (want := x.sRoot (s + 1)) (path := x.sPaths (s + 1) q) (key := x.ys q) (by
        have : x.sRows (s + 1) q ≠ [] := by
          intro h0
          rw [h0] at r1
          exact absurd r1.symm (by positivity)
        obtain ⟨a, l, hal⟩ := List.exists_cons_of_ne_nil this
        rw [hal]; simp) (Nat.mod_lt _ (by positivity)) (hi.sPaths q hq s hs) (by
        intro i h
        rw [hbits i h, Nat.testBit_mod_two_pow, decide_eq_true h, Bool.true_and]; rfl)
    rw [List.map_map] at ht
    have hf := onFold_iff (r := Poseidon.blsMod) bls_large (ext := Q.ext) (pb := Q.nb s) (nb := Q.nb (s + 1)) (lb := Q.nb (s + 2)) (hp.big _ hs).1 (hp.dec s (by omega)).le
      (hp.big s (by omega)).2 (hp.dec _ hs) (vals := sig (x.sRows (s + 1) q)) (nxt := sig (x.next Q (s + 1) q)) (ys := x.ys q) (sp := x.special (s + 1))
      (group := (x.sRows (s + 1) q).map dec) (next := (x.next Q (s + 1) q).map dec) (spK := spK (s + 1)) (idx := idx q)
      ⟨by rw [List.length_map, r1], by rw [List.length_map, n1], fun i h => sig_lift r2 (by rw [r1]; exact h),
        fun i h => sig_lift n2 (by rw [n1]; exact h), hbits, hi.special s hs⟩
    exact ⟨fun h => ⟨ht.mp h.tree, hf.mp h.fold⟩, fun h => ⟨ht.mpr h.1, hf.mpr h.2⟩⟩
  have hL := onLast_iff (r := Poseidon.blsMod) bls_large (n := Q.nb (Q.steps.length - 1)) (m := Q.nb (Q.steps.length - 1) - (Q.ext - Q.nBits))
    (hp.big _ (by omega)).2 (finalPol := sig x.finalPol) (last := x.finalPol.map dec) (by rw [List.length_map, hi.finalPol.1])
    (fun i h => sig_lift hi.finalPol.2 (by rw [hi.finalPol.1]; exact h))
  constructor
  · intro h
    exact ⟨hE.mp h.evals, fun q hq t ht => (hT q hq t ht).mp ((h.first q hq).trees t ht), fun q hq => ((hV q hq).mp (h.first q hq).value).1,
      fun q hq => ((hV q hq).mp (h.first q hq).value).2, fun q hq s hs => ((hS q hq s hs).mp (h.later q hq s hs)).1,
      fun q hq s hs => ((hS q hq s hs).mp (h.later q hq s hs)).2, hL.mp h.last⟩
  · intro h
    exact ⟨hE.mpr h.evals, fun q hq => ⟨fun t ht => (hT q hq t ht).mpr (h.trees q hq t ht), (hV q hq).mpr ⟨h.div q hq, h.value q hq⟩⟩,
      fun q hq s hs => (hS q hq s hs).mpr ⟨h.sTrees q hq s hs, h.fold q hq s hs⟩, hL.mpr h.last⟩

/-! ### Example -/

theorem exQ_room (iv : Nat → Option (Nat × Nat)) (qCode' : List (VInstr K)) (hd : setDims (fun _ => none) exQ = some qCode')
    (hiv : ivals (16, 48) (fun _ => none) qCode' = some iv) (last : VInstr K) (hl : last ∈ qCode'.getLast?) (p : Nat × Nat)
    (hp : iv last.dest.id = some p) : p.1 ≤ 15 := by
  obtain rfl := Option.some.inj hd
  obtain rfl := Option.some.inj hiv
  obtain rfl := Option.some.inj hl
  have hp : some (0, 2) = some p := hp
  obtain rfl := Option.some.inj hp
  decide

/-- two layers of 16 and 4 values, five queries, three trees -/
def exPar (stmts qStmts : List (OnCode.Stmt Bls)) (out qOut : Sig Bls) : OnPar :=
  ⟨3, 4, 5, [4, 2], [1, 4, 5], 1, 2, stmts, out, OnCode.exSecs, qStmts, qOut⟩

theorem exPar_ok : ∃ stmts qStmts out qOut code' qCode', ParOk (exPar stmts qStmts out qOut) (fun _ => 7) exNCm exOn code' exQ qCode' := by
  obtain ⟨code', stmts, out, hE⟩ := exOn_ok (r := Poseidon.blsMod) exNCm (n := 3) (by norm_num)
  obtain ⟨qCode', qStmts, qOut, hQ⟩ := exQ_ok (r := Poseidon.blsMod)
  refine ⟨stmts, qStmts, out, qOut, code', qCode', by simp [exPar], ?_, ?_, by simp [exPar], hE, hQ, ?_, by decide, by decide⟩
  · intro s hs
    have hs : s < 2 := hs
    interval_cases s <;> simp [OnPar.nb, exPar]
  · intro s hs
    have hs : s < 2 := hs
    interval_cases s <;> simp [OnPar.nb, exPar]
  · exact fun iv hiv last hl p hp => exQ_room iv _ hQ.dims hiv last hl p hp

/-- an element as three numbers, and as three signals -/
noncomputable def K3 (x : Fin 3 → F) : K := coord (x 0) (x 1) (x 2)
def S (x : Fin 3 → F) : S3 Poseidon.blsMod := (canon (x 0), canon (x 1), canon (x 2))

theorem S_lift (x : Fin 3 → F) : Lift3 Out (f3 (S x)) (K3 x) := lift3_iff.mpr ⟨x 0, x 1, x 2, canon_out _, canon_out _, canon_out _, rfl⟩

/-- inputs of that shape -/
def exIn (c : Fin 8 → Fin 3 → F) (e : Fin 3 → Fin 3 → F) (p : F) (sp : Nat → Fin 3 → F) (idx : Nat → Nat) (root sRoot : Nat → Bls)
    (sib : Nat → Nat → Nat → Bls) (t : Nat → Nat) (u : Nat → Fin 3 → Nat) (g : Nat → Nat → Fin 3 → Nat) (f : Nat → Fin 3 → Nat) : OnIn :=
  { chal := List.ofFn fun i => S (c i), evals := [S (e 0), S (e 1), S (e 2)], publics := [canon p], special := fun s k => canon (sp s k),
    ys := fun q j => if (idx q).testBit j then 1 else 0, root := root,
    rows := fun q k => if k = 1 then [t q] else if k = 4 then [u q 0, u q 1, u q 2] else if k = 5 then [7] else [],
    paths := fun q k => [(List.range 16).map (sib q k)], sRoot := sRoot, sRows := fun _ q => (List.range 4).map (g q),
    sPaths := fun s q => [(List.range 16).map (sib q (s + 10))], finalPol := (List.range 4).map f }

section
variable (c : Fin 8 → Fin 3 → F) (e : Fin 3 → Fin 3 → F) (p : F) (sp : Nat → Fin 3 → F) (idx : Nat → Nat) (root sRoot : Nat → Bls)
  (sib : Nat → Nat → Nat → Bls) {t : Nat → Nat} (ht : ∀ q, t q < 2 ^ 64) {u : Nat → Fin 3 → Nat} (hu : ∀ q k, u q k < 2 ^ 64)
  {g : Nat → Nat → Fin 3 → Nat} (hg : ∀ q i k, g q i k < 2 ^ 64) {f : Nat → Fin 3 → Nat} (hf : ∀ i k, f i k < 2 ^ 64)
  (stmts qStmts : List (OnCode.Stmt Bls)) (out qOut : Sig Bls)
include ht hu hg hf

theorem exIn_base : InBase (exPar stmts qStmts out qOut) (exIn c e p sp idx root sRoot sib t u g f) [K3 (e 0), K3 (e 1), K3 (e 2)] [p] := by
  have hm4 : mLevels (2 ^ 4) = 1 := by simp [mLevels]
  have hm2 : mLevels (2 ^ 2) = 1 := by simp [mLevels]
  refine ⟨.cons (S_lift _) (.cons (S_lift _) (.cons (S_lift _) .nil)), by simp [exPar], .cons (canon_out p) .nil, ?_, ?_, ?_, ?_, ?_, ?_, ?_⟩
  · intro q k n hn
    simp only [exIn] at hn
    split_ifs at hn
    · simp only [List.mem_cons, List.not_mem_nil, or_false] at hn
      rw [hn]; exact ht q
    · simp only [List.mem_cons, List.not_mem_nil, or_false] at hn
      rcases hn with rfl | rfl | rfl <;> exact hu q _
    · simp only [List.mem_cons, List.not_mem_nil, or_false] at hn
      rw [hn]; norm_num
    · simp at hn
  · intro q _ k hk
    simp only [exPar, List.mem_cons, List.not_mem_nil, or_false] at hk
    rcases hk with rfl | rfl | rfl <;> simp [exIn]
  · exact fun q _ => ⟨_, rfl⟩
  · intro q _ k hk
    exact ⟨hm4.symm, by simp [exIn]⟩
  · intro q _ s hs
    have hs : s + 1 < 2 := hs
    obtain rfl : s = 0 := by omega
    refine ⟨by simp [exIn, exPar, OnPar.nb], fun v hv k => ?_⟩
    obtain ⟨i, -, rfl⟩ := List.mem_map.mp hv
    exact hg q i k
  · intro q _ s hs
    have hs : s + 1 < 2 := hs
    obtain rfl : s = 0 := by omega
    exact ⟨hm2.symm, by simp [exIn]⟩
  · refine ⟨by simp [exIn, exPar, OnPar.nb], fun v hv k => ?_⟩
    obtain ⟨i, -, rfl⟩ := List.mem_map.mp hv
    exact hf i k

/-- non-vacuity of C124: all hypotheses hold of that shape and of all 64-bit inputs -/
example (hidx : ∀ q, idx q < 16) : ∃ stmts qStmts out qOut,
    let Q := exPar stmts qStmts out qOut
    let x := exIn c e p sp idx root sRoot sib t u g f
    OnSat Q x 1 ↔ NativeOk Q x (List.ofFn fun i => K3 (c i)) [K3 (e 0), K3 (e 1), K3 (e 2)] (fun s => K3 (sp s)) idx
      (((K3 (e 1) - K3 (e 0)) * K3 (c 7) + algebraMap F K p) * algebraMap F K 7)
      (fun q => (algebraMap F K (t q) - K3 (e 0)) * (queryPoint mgK shiftK 4 (idx q) / (queryPoint mgK shiftK 4 (idx q) - K3 (c 7))) + dec (u q)) := by
  obtain ⟨stmts, qStmts, out, qOut, code', qCode', hp⟩ := exPar_ok
  refine ⟨stmts, qStmts, out, qOut, ?_⟩
  intro Q x
  refine onVerifier_iff (pubK := []) hp ⟨exIn_base c e p sp idx root sRoot sib ht hu hg hf stmts qStmts out qOut, ?_, by simp,
    fun s _ => ⟨sp (s + 1), fun k => canon_out _, rfl⟩, fun _ _ _ _ => rfl, fun q _ => hidx q⟩ ?_ ?_
  · rw [Reps3, List.forall₂_iff_get]
    refine ⟨by simp [x, exIn], fun i h1 h2 => ?_⟩
    simp only [x, exIn, List.get_eq_getElem, List.getElem_ofFn]
    exact S_lift _
  · simp [executeCode, exOn, vStep, getRef, vApply, ctxConstraint, Function.update]
  · intro q _
    simp [executeCode, exQ, vStep, getRef, vApply, ctxQuery, Function.update, extractVal, extK, x, exIn, Q, exPar, dec, OnPar.nb]
end

end Verif.Gadget.OnVerifier
