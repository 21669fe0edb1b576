import Verif.Stage.Model
import Verif.Map.Layout
import Verif.Stark.Prover
import Verif.Stark.Protocol

/-!
# The whole prover on its buffers, starky/src/stark_gen.rs L193-555

`genBuf` is `stark_gen` as a program on the context (`StarkContext`): it allocates the buffers, runs the compiled programs with `calculate_exps_parallel`, moves
polynomials with `get_pol`/`set_pol`, extends and merkelizes the sections, and talks to the transcript.  The field of the buffers is the tagged cubic extension
(`F3G`), of the trees the base field.  `none` is a panic or an error.

Simplifications: the transforms of `extend_and_merkelize`, of the quotient and of `LEv` are those of `Verif.FftP` and `Verif.FFT` on values without tags: the cells of the
sections are converted with `to_be` before the transform and not after it, and the result of the inverse transform of `LEv` has the dimension 3 of its operand
(`N ≥ 2`; for `N = 1` it would have dimension 1).  The parallel reduction of an opening is a sum from left to right.  The buffer `result` of
`extend_and_merkelize` (L280), which is reused, has an arbitrary content at every call.  The values of the public inputs (L252-268) are given.
-/
namespace Verif.Stage
open Fri FFT
open Verif.GL (F)
open Verif.Ext3 (F3G K ofF val)
open Verif.Interp (Sec Info algF3)
open Verif.Map (secN sec2)
open Verif.Stark (EvKey extendSec cellsOf splitQ lev putAll queryPol Proof)

noncomputable section

/-- an element of dimension 3: what `get_field` returns, transcript.rs L72-78, and the type of every element in which one of those occurs, f3g.rs L31-33, L63-66 -/
def lift3 (v : K) : F3G := Ext3.new (coords v).1 (coords v).2.1 (coords v).2.2

/-- `to_be` of every cell, stark_gen.rs L725-728, f3g.rs L69-72 -/
def toBes (l : List F3G) : Option (List F) := l.mapM Ext3.toBe

/-- a list as a buffer -/
def bufOf (l : List F) : FftP.Buf F := fun x => l.getD x 0

/-- What `stark_gen` uses of `StarkInfo`, `Program` and the constants of the run. -/
structure Full extends Setup where
  step4 : Code
  step5 : Code
  evMap : List EvKey
  qDeg : Nat
  /-- the number of threads of the transforms -/
  fftWorkers : Nat
  /-- contents of the reused buffer `result` -/
  dirty : Nat → FftP.Buf F

/-- the buffers at the beginning, stark_gen.rs L98-146, L205-268: the trace, the constants and the extended constants are given as lists of cells; `tmp` is what the
computation of the public inputs (L252-268) left in the temporaries -/
def initCtx (s : Info) (nb ext : Nat) (zi : Nat → Option F3G) (cm1 const_ fixed publics : List F) (tmp : List F3G) : Ctx where
  nbits := nb
  nbitsExt := nb + ext
  mem
    | .cm1_n => cm1.map ofF
    | .cm2_n => List.replicate (s.sectionsN .cm2_n * 2 ^ nb) Ext3.ZERO
    | .cm3_n => List.replicate (s.sectionsN .cm3_n * 2 ^ nb) Ext3.ZERO
    | .tmpexp_n => List.replicate (s.sectionsN .tmpexp_n * 2 ^ nb) Ext3.ZERO
    | .cm1_2ns => List.replicate (s.sectionsN .cm1_n * 2 ^ (nb + ext)) Ext3.ZERO
    | .cm2_2ns => List.replicate (s.sectionsN .cm2_n * 2 ^ (nb + ext)) Ext3.ZERO
    | .cm3_2ns => List.replicate (s.sectionsN .cm3_n * 2 ^ (nb + ext)) Ext3.ZERO
    | .cm4_2ns => List.replicate (s.sectionsN .cm4_n * 2 ^ (nb + ext)) Ext3.ZERO
    | .const_n => const_.map ofF
    | .const_2ns => fixed.map ofF
    | .q_2ns => List.replicate (s.qDim * 2 ^ (nb + ext)) Ext3.ZERO
    | .f_2ns => List.replicate (3 * 2 ^ (nb + ext)) Ext3.ZERO
    | .x_n => (List.range (2 ^ nb)).map fun k => ofF (Roots.mg nb ^ k)
    | .x_2ns => (List.range (2 ^ (nb + ext))).map fun k => ofF (Roots.shift * Roots.mg (nb + ext) ^ k)
    | .publics => publics.map ofF
    | .challenge => List.replicate 8 Ext3.ZERO
    | .tmp => tmp
    | _ => []
  xXi := []
  xWXi := []
  Zi := zi

/-- `ctx.challenge[k] = transcript.get_field()`, stark_gen.rs L366, L405, L473-474 -/
def setChal (c : Ctx) (k : Nat) (v : K) : Option Ctx := (Interp.setCell (c.mem .challenge) k (lift3 v)).map (c.put .challenge)

variable {Root Path Tree T : Type}

/-- `extend_and_merkelize`, stark_gen.rs L710-732, of the section of round `t`, and `to_extend`, merklehash.rs L271-276 (which asserts the length) -/
def extMerk (mt : MT F Root Path Tree) (S : Full) (t : Nat) (c : Ctx) : Option (Tree × Ctx) :=
  let w := S.info.sectionsN (secN t)
  (toBes (c.mem (secN t))).bind fun l =>
  (extendSec S.fftWorkers c.nbits (c.nbitsExt - c.nbits) w (bufOf l) (S.dirty t)).bind fun b =>
  (mt.merkelize (cellsOf b w (2 ^ c.nbitsExt)) w (2 ^ c.nbitsExt)).bind fun tree =>
  if (c.mem (sec2 t)).length = (cellsOf b w (2 ^ c.nbitsExt)).length then some (tree, c.put (sec2 t) ((cellsOf b w (2 ^ c.nbitsExt)).map ofF)) else none

/-- the pieces of the quotient, stark_gen.rs L371-396: from `q_2ns` into `cm4_2ns` -/
def quotBuf (S : Full) (c : Ctx) : Option Ctx :=
  (toBes (c.mem .q_2ns)).bind fun l => (toBes (c.mem .cm4_2ns)).bind fun d =>
  (splitQ Roots.mg Roots.shift S.fftWorkers c.nbits c.nbitsExt S.qDeg S.info.qDim (bufOf l) (fun _ => 0) (bufOf d)).map fun b =>
    c.put .cm4_2ns ((List.range d.length).map fun x => ofF (b x))

/-- `merkelize`, stark_gen.rs L735-752 -/
def merkBuf (mt : MT F Root Path Tree) (S : Full) (c : Ctx) : Option Tree :=
  (toBes (c.mem .cm4_2ns)).bind fun l => mt.merkelize l (S.info.sectionsN .cm4_2ns) (2 ^ c.nbitsExt)

/-- the polynomial of an opening, stark_gen.rs L431-445 with `get_pol_ref` L668-681: the buffer, the offset, the size of a row and the dimension -/
def evPol (s : Info) (c : Ctx) (ev : EvKey) : Option (List F3G × Nat × Nat × Nat) :=
  if ev.1 = .const_ then some (c.mem .const_2ns, ev.2.2, s.nConstants, 1)
  else if ev.1 = .cm then s.cm2ns[ev.2.2]?.bind fun id => s.varPolMap[id]?.map fun p => (c.mem p.section_, p.sectionPos, s.sectionsN p.section_, p.dim)
  else none

/-- one opening, stark_gen.rs L446-463 -/
def evalOne (s : Info) (c : Ctx) (l lp : List F3G) (ev : EvKey) : Option F3G :=
  (evPol s c ev).bind fun p =>
  (List.range (2 ^ c.nbits)).foldlM (fun acc k =>
    (if p.2.2.2 = 1 then p.1[k * 2 ^ (c.nbitsExt - c.nbits) * p.2.2.1 + p.2.1]? else Interp.vec3 algF3 p.1 (p.2.1 + k * 2 ^ (c.nbitsExt - c.nbits) * p.2.2.1)).bind fun v =>
    ((if ev.2.1 then lp else l)[k]?).bind fun y => (Ext3.mul v y).bind fun vy => Ext3.add acc vy) Ext3.ZERO

/-- the openings, stark_gen.rs L405-464 -/
def evalsBuf (S : Full) (c : Ctx) : Option Ctx :=
  (c.mem .challenge)[7]?.bind fun xi =>
  (lev mgK shiftK (val xi) c.nbits).bind fun l => (lev mgK shiftK (val xi * mgK c.nbits) c.nbits).bind fun lp =>
  (S.evMap.mapM (evalOne S.info c (l.map lift3) (lp.map lift3))).map (c.put .evals)

/-- `v[0]`, `v[1]`, `v[2]` of `v = e.as_elements()`, stark_gen.rs L507-515 -/
def three (e : F3G) : Option (List F) :=
  match Ext3.asElements e with
  | [a, b, d] => some [a, b, d]
  | _ => none

/-- `x / (x - a)` on the extended domain, stark_gen.rs L481-517 -/
def xDivTab (nbExt : Nat) (a : F3G) : Option (List F) :=
  let xs := (List.range (2 ^ nbExt)).map fun k => ofF (Roots.shift * Roots.mg nbExt ^ k)
  (xs.mapM fun x => Ext3.sub x a).bind fun ds => (batchInverse ds).bind fun is =>
  ((is.zip xs).mapM fun p => (Ext3.mul p.1 p.2).bind three).map List.flatten

/-- `xDivXSubXi`, `xDivXSubWXi`, stark_gen.rs L481-517 -/
def xDivBuf (c : Ctx) : Option Ctx :=
  (c.mem .challenge)[7]?.bind fun xi => (Ext3.mul xi (ofF (Roots.mg c.nbits))).bind fun wxi =>
  (xDivTab c.nbitsExt xi).bind fun a => (xDivTab c.nbitsExt wxi).map fun b => { c with xXi := a, xWXi := b }

/-- `fri_pol`, stark_gen.rs L520-527 -/
def friPolBuf (c : Ctx) : Option (List K) :=
  (List.range (2 ^ c.nbitsExt)).mapM fun i => (Interp.vec3 algF3 (c.mem .f_2ns) (i * 3)).map val

/-- `stark_gen`, stark_gen.rs L193-555, from the allocation of the buffers on; `ctree` is the tree of the constants.  `query_pol` as in `Stark.starkGen`. -/
def genBuf (mt : MT F Root Path Tree) (tr : Tr F K T) (cfg : Cfg K) (new : T) (S : Full) (ctree : Tree) (c : Ctx) : Option (Proof F Root Path K F3G × T) :=
  (putAll tr Ext3.asElements (c.mem .publics) new).bind fun t =>
  (extMerk mt S 1 c).bind fun (tree1, c) =>
  (tr.put [mt.rootElems (mt.root tree1)] t).bind fun t =>
  (tr.getField t).bind fun (u, t) =>
  (tr.getField t).bind fun (dv, t) =>
  (round2 S.toSetup (lift3 u) (lift3 dv) c).bind fun cn =>
  (extMerk mt S 2 cn.1).bind fun (tree2, c) =>
  (tr.put [mt.rootElems (mt.root tree2)] t).bind fun t =>
  (tr.getField t).bind fun (ga, t) =>
  (tr.getField t).bind fun (be, t) =>
  (round3 S.toSetup (lift3 ga) (lift3 be) (c, cn.2)).bind fun c =>
  (extMerk mt S 3 c).bind fun (tree3, c) =>
  (tr.put [mt.rootElems (mt.root tree3)] t).bind fun t =>
  (tr.getField t).bind fun (vc, t) =>
  (setChal c 4 vc).bind fun c =>
  (Interp.calcPar algF3 S.info S.zi S.step4.code S.step4.tmpUsed S.workers .step4 c).bind fun c =>
  (quotBuf S c).bind fun c =>
  (merkBuf mt S c).bind fun tree4 =>
  (tr.put [mt.rootElems (mt.root tree4)] t).bind fun t =>
  (tr.getField t).bind fun (xi, t) =>
  (setChal c 7 xi).bind fun c =>
  (evalsBuf S c).bind fun c =>
  (putAll tr Ext3.asElements (c.mem .evals) t).bind fun t =>
  (tr.getField t).bind fun (v1, t) =>
  (setChal c 5 v1).bind fun c =>
  (tr.getField t).bind fun (v2, t) =>
  (setChal c 6 v2).bind fun c =>
  (xDivBuf c).bind fun c =>
  (Interp.calcPar algF3 S.info S.zi S.step5.code S.step5.tmpUsed S.workers .step5 c).bind fun c =>
  (friPolBuf c).bind fun pol =>
  (prove mt tr encK cfg pol (fun i => (queryPol mt tree1 tree2 tree3 tree4 ctree i).getD []) t).bind fun (fri, t) =>
  if (fri.queries.head?.map fun q => q.pols.any List.isEmpty) = some true then none else
  some (⟨some (mt.root ctree), mt.root tree1, mt.root tree2, mt.root tree3, mt.root tree4, fri, c.mem .evals, c.mem .publics⟩, t)

end

end Verif.Stage
