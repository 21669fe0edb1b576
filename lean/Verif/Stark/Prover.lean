import Verif.Stark.Air
import Verif.Stark.Open
import Verif.Stark.Zh
import Verif.Fri.Instances

/-!
# The prover of the Goldilocks STARK, from the trace to the rounds of the protocol

`setup` is the part of `StarkInfo::new` (starky/src/starkinfo.rs L225-270) after the identities of the lookup, permutation
and connection arguments have been added; `rounds` is what `stark_gen` (starky/src/stark_gen.rs L193-555) computes between the
interactions with the transcript.  `none` is a panic or an error.
-/
set_option linter.unusedSectionVars false

namespace Verif.Stark
open Fri FFT Codegen Codegen.Spec
open Verif.GL (F)
open Verif.Ext3 (K coord)

/-! ### Setup -/

/-- what `StarkInfo::new` leaves for the prover and the verifier: the selected expressions, the number of quotient columns, the
code of steps 4 and 5, `ev_map`, and the verifier's programs -/
structure Setup (A : Type) where
  S : Finset Nat
  qDeg : Nat
  cExp : Expr A
  step42 : List (Instr A)
  step52 : List (Instr A)
  evMap : List EvKey
  info : VInfo A

/-- the intermediate polynomials are marked as calculated for both rows, starkinfo.rs L251-255 and starkinfo_cp_prover.rs
L92-95 -/
def imDone (S : Finset Nat) : List (Bool × Nat) := (S.sort (· ≤ ·)).flatMap fun k => [(false, k), (true, k)]

/-- starkinfo.rs L241-270 with starkinfo_cp_prover.rs L12-120, starkinfo_cp_ver.rs, starkinfo_fri_prover.rs L10-85 and
starkinfo_fri_ver.rs: `exps` are the expressions, `ids` the identities (`polIdentities`), `nCm` the committed columns so far, `pos`
the layout computed by `map`.  The last instruction of step 4, the product with `Zi` (starkinfo_cp_prover.rs L105-110), is in
`quotRow`.  `build_code` (starkinfo_codegen.rs) empties the list of codes and keeps the rest of the context.  The code of `map`
that renames registers of the prover's programs is not modelled: they are executed on named registers (`Codegen.Spec.exec`). -/
noncomputable def setup {A : Type} [Field A] (fuelI fuel : Nat) (exps : List (Expr A)) (ids : List Nat) (nCm ext : Nat) (pos : Nat → Option ColPos)
    (rest : List (Code A) → List (Instr A)) : Option (Setup A) :=
  (ImPols.generate fuelI exps ids nCm (2 ^ ext + 1)).bind fun g =>
  let im := g.1.sort (· ≤ ·)
  let exps0 := exps ++ [g.2.2]
  let qs := (List.range g.2.1).map fun p => nCm + g.1.card + p
  (pilCodeGen 0 exps0 fuel ⟨0, [], imDone g.1⟩ exps.length false none false).bind fun ctx =>
  (genVerifier 0 exps0 fuel im (im2cmOf g.1 nCm) exps.length qs rest).bind fun out =>
  (qEvOf out.ev qs).bind fun qEv =>
  (friExpr (nCm + g.1.card + g.2.1) out.ev.map).bind fun fe =>
  let exps1 := exps0 ++ [fe]
  (pilCodeGen 0 exps1 fuel ⟨ctx.tmpUsed, [], ctx.calculated⟩ (exps.length + 1) false (some (.f, 0)) false).bind fun ctx5 =>
  (genQuery 0 exps1 fuel im (im2cmOf g.1 nCm) pos (exps.length + 1) rest).map fun qc =>
  ⟨g.1, g.2.1, g.2.2, linearCode ctx, linearCode ctx5, out.ev.map, ⟨qEv, out.code, qc⟩⟩

/-- the loop over the children in `get_exp_dim`, starkinfo_map.rs L522-529 -/
def maxDim {E : Type} (rec : Expr E → Option Nat) : List (Expr E) → Nat → Option Nat
  | [], md => some md
  | v :: vs, md => (rec v).bind fun d => maxDim rec vs (if d > md then d else md)

/-- `get_exp_dim`, starkinfo_map.rs L519-541; `dims` is `cm_dims` (`q` references do not occur) -/
def expDim {E : Type} (exps : List (Expr E)) (dims : Nat → Option Nat) : Nat → Expr E → Option Nat
  | 0, _ => none
  | n + 1, .node l vs =>
    match l.op with
    | .add | .sub | .mul | .muladd | .addc | .mulc | .neg => maxDim (expDim exps dims n) vs 1
    | .cm => l.id.bind dims
    | .const_ | .number | .public_ | .x => some 1
    | .exp => l.id.bind fun i => (exps[i]?).bind fun e => expDim exps dims n e
    | .challenge | .eval | .xDivXSubXi | .xDivXSubWXi => some 3
    | _ => none

/-! ### The trace and its extension -/

/-- The contents of the sections `cm1_n`, `cm2_n`, `cm3_n` (row-major, base field cells), `cm2_n` computed from `u` and `defVal`
and `cm3_n` also from `gamma` and `beta`; the constants; widths of the sections. -/
structure Trace where
  width : Nat → Nat
  nConst : Nat
  cm1 : FftP.Buf F
  cm2 : K → K → FftP.Buf F
  cm3 : K → K → K → K → FftP.Buf F
  fixed : FftP.Buf F

/-- the section `s` given `ctx.challenge` -/
noncomputable def Trace.sec (T : Trace) (ch : List K) (s : Nat) : FftP.Buf F :=
  if s = 1 then T.cm1 else if s = 2 then T.cm2 (ch.getD 0 0) (ch.getD 1 0)
  else T.cm3 (ch.getD 0 0) (ch.getD 1 0) (ch.getD 2 0) (ch.getD 3 0)

/-- `interpolate` as it is called by `extend_and_merkelize`, stark_gen.rs L720-724, and stark_setup.rs L36-41: an empty source
returns at once (fft_p.rs L262); `dst` is the previous content of the result buffer -/
noncomputable def extendSec (workers nb ext width : Nat) (src dst : FftP.Buf F) : Option (FftP.Buf F) :=
  if width = 0 then some dst else FftP.interpolate Roots.mg Roots.shift workers src width nb dst (nb + ext)

/-- the cells handed to `merkelize`, stark_gen.rs L725-730 -/
def cellsOf (b : FftP.Buf F) (width h : Nat) : List F := (List.range (width * h)).map b

/-- the parameters of a run -/
structure Run where
  workers : Nat
  nb : Nat
  ext : Nat
  /-- previous contents of the result buffer, which is reused -/
  dirty : Nat → FftP.Buf F
  pos : Nat → Option ColPos
  qDim : Nat
  nCm : Nat
  publics : List K

noncomputable section

variable (R : Run) (U : Setup K) (T : Trace)

/-- the extended section `s` as a list of cells -/
def extCells (ch : List K) (s : Nat) : Option (List F) :=
  (extendSec R.workers R.nb R.ext (T.width s) (T.sec ch s) (R.dirty s)).map fun b => cellsOf b (T.width s) (2 ^ (R.nb + R.ext))

/-- `const_2ns`, stark_setup.rs L32-41 -/
def constCells : Option (List F) :=
  (extendSec R.workers R.nb R.ext T.nConst T.fixed fun _ => 0).map fun b => cellsOf b T.nConst (2 ^ (R.nb + R.ext))

/-- the width of a section of the extended domain; the fourth holds the pieces of the quotient -/
def width4 (s : Nat) : Nat := if s = 4 then R.qDim * U.qDeg else T.width s

/-- `x_2ns`, stark_gen.rs L244-248 -/
def xExt (j : Nat) : K := shiftK * mgK (R.nb + R.ext) ^ j

/-- What the generated code reads at row `j` of the extended domain (interpreter.rs `get_i`/`get_i_expr`, C41, C42): the next row
is `2^ext` rows further, cyclically. -/
def extStore (cells : Nat → List F) (fixed : List F) (chal evals : List K) (xd xdw : List K) (j : Nat) : Store K := fun t i p =>
  let r := (j + if p then 2 ^ R.ext else 0) % 2 ^ (R.nb + R.ext)
  match t with
  | .cm => (R.pos i).map fun c => colVal (algebraMap F K) coord (cells c.tree) c.pos (width4 R U T c.tree) c.dim r
  | .const_ => if i < T.nConst then some (colVal (algebraMap F K) coord fixed i T.nConst 1 r) else none
  | .public_ => R.publics[i]?
  | .challenge => chal[i]?
  | .eval => evals[i]?
  | .x => some (xExt R j)
  | .xDivXSubXi => xd[j]?
  | .xDivXSubWXi => xdw[j]?
  | _ => none

/-- running a segment at one row and reading the destination of its last instruction -/
def rowValue {A : Type} [Field A] (code : List (Instr A)) (σ : Store A) : Option A :=
  code.getLast?.bind fun last => (exec (fieldOps A) code σ).bind fun σ' => readN σ' last.dest

/-- step 4 at row `j`, with the final product by `Zi` (starkinfo_cp_prover.rs L105-110, stark_gen.rs L251, L368) -/
def quotRow (σ : Store K) (j : Nat) : Option K :=
  (rowValue U.step42 (withIm σ (U.S.sort (· ≤ ·)) (im2cmOf U.S R.nCm))).map fun v => v * zhInv mgK shiftK R.nb R.ext 0 j

/-- the sections 1, 2, 3 on the extended domain -/
def cells123 (ch : List K) : Option (Nat → List F) :=
  (extCells R T ch 1).bind fun a => (extCells R T ch 2).bind fun b => (extCells R T ch 3).map fun c =>
    fun s => if s = 1 then a else if s = 2 then b else if s = 3 then c else []

/-- stark_gen.rs L368-396: step 4 on every row, its cells (`q_dim` coordinates per row), and `cm4_2ns` -/
def cells4 (ch : List K) (fixed : List F) (cells : Nat → List F) : Option (List F) :=
  ((List.range (2 ^ (R.nb + R.ext))).mapM fun j => quotRow R U (extStore R U T cells fixed ch [] [] [] j) j).bind fun rows =>
  let q2ns : FftP.Buf F := fun x => (encK.enc (rows.getD (x / R.qDim) 0)).getD (x % R.qDim) 0
  (splitQ Roots.mg Roots.shift R.workers R.nb (R.nb + R.ext) U.qDeg R.qDim q2ns (fun _ => 0) (fun _ => 0)).map fun b =>
    cellsOf b (R.qDim * U.qDeg) (2 ^ (R.nb + R.ext))

/-- all four sections -/
def cells1234 (ch : List K) (fixed : List F) : Option (Nat → List F) :=
  (cells123 R T ch).bind fun cells => (cells4 R U T ch fixed cells).map fun c4 => fun s => if s = 4 then c4 else cells s

/-- stark_gen.rs L405-464: the openings at `xi` (challenge 7) and, for the next row, at `xi * w` -/
def openings (ch : List K) (fixed : List F) (cells : Nat → List F) : Option (List K) :=
  (lev mgK shiftK (ch.getD 7 0) R.nb).bind fun l => (lev mgK shiftK (ch.getD 7 0 * mgK R.nb) R.nb).bind fun lp =>
  U.evMap.mapM fun k =>
    let lv := if k.2.1 then lp else l
    if k.1 = .const_ then some (openEval lv (colVal (algebraMap F K) coord fixed k.2.2 T.nConst 1) R.nb R.ext)
    else if k.1 = .cm then (R.pos k.2.2).map fun c =>
      openEval lv (colVal (algebraMap F K) coord (cells c.tree) c.pos (width4 R U T c.tree) c.dim) R.nb R.ext
    else none

/-- stark_gen.rs L481-517: `x / (x - a)` on the extended domain, with one batch inversion -/
def xDivs (a : K) : List K :=
  let xs := (List.range (2 ^ (R.nb + R.ext))).map (xExt R)
  List.zipWith (fun d x => d * x) (batchInverse (xs.map fun x => x - a)) xs

/-- stark_gen.rs L518-527: step 5 on every row; the result is register `f` 0 -/
def friRows (ch evals : List K) (fixed : List F) (cells : Nat → List F) : Option (List K) :=
  (List.range (2 ^ (R.nb + R.ext))).mapM fun j =>
    (exec (fieldOps K) U.step52 (extStore R U T cells fixed ch evals (xDivs R (ch.getD 7 0)) (xDivs R (ch.getD 7 0 * mgK R.nb)) j)).bind
      fun σ => σ .f 0 false

/-- The rounds of the prover (stark_gen.rs); `ofK` builds a stored element (with its dimension tag) from its value, the publics are
given, `fixed` are the cells of the constant tree `ctree`. -/
def rounds {P Root Path Tree : Type} (mt : MT F Root Path Tree) (ofK : K → P) (val : P → K) (publics : List P) (fixed : List F) (ctree : Tree) :
    Rounds K P Tree where
  publics := publics
  tree1 := (extCells R T (List.replicate 8 0) 1).bind fun c => mt.merkelize c (T.width 1) (2 ^ (R.nb + R.ext))
  tree2 ch := (extCells R T ch 2).bind fun c => mt.merkelize c (T.width 2) (2 ^ (R.nb + R.ext))
  tree3 ch := (extCells R T ch 3).bind fun c => mt.merkelize c (T.width 3) (2 ^ (R.nb + R.ext))
  tree4 ch := (cells1234 R U T ch fixed).bind fun c => mt.merkelize (c 4) (R.qDim * U.qDeg) (2 ^ (R.nb + R.ext))
  evals ch := (cells1234 R U T ((ch.take 5) ++ [0, 0, 0]) fixed).bind fun c => (openings R U T ch fixed c).map fun l => l.map ofK
  friPol ch evals := (cells1234 R U T ((ch.take 5) ++ [0, 0, 0]) fixed).bind fun c => friRows R U T ch (evals.map val) fixed c
  constTree := ctree

end

end Verif.Stark
