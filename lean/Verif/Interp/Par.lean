import Verif.Interp.Props

/-!
# Model of `calculate_exps_parallel`, starky/src/stark_gen.rs L786-960

`none` is a panic.  The chunks run in parallel in the code (`par_iter_mut`), each on its own context, so their order is
irrelevant; here they run one after the other.
-/
namespace Verif.Interp

variable {E B : Type} (K : Alg E B)

/-- `ExecInfo`, stark_gen.rs L793-803; the two base-field sections are inputs together (`inBase`), `width` is `set_width`. -/
structure Exec where
  dom : Dom
  inp : List Sec
  inBase : Bool
  out : List Sec
  width : Sec → Nat

/-- `step`, stark_gen.rs L807-857 -/
inductive Step | step2prev | step3prev | step3 | step4 | step5

/-- `set_width`, stark_gen.rs L859-875; `map_sectionsN.get` answers for the sections of `Index` (starkinfo_codegen.rs
L162-177), so the last cases only concern `x_n`, `x_2ns`. -/
def setWidth (s : Info) : Sec → Nat
  | .const_n => s.nConstants
  | .const_2ns => s.nConstants
  | .x_n => 1
  | .x_2ns => 1
  | t => s.sectionsN t

/-- the table of sections per step, stark_gen.rs L807-857 -/
def execInfo (s : Info) : Step → Exec
  | .step2prev => ⟨.n, [.cm1_n, .const_n], false, [.cm2_n, .cm3_n, .tmpexp_n], setWidth s⟩
  | .step3prev => ⟨.n, [.cm1_n, .cm2_n, .cm3_n, .const_n, .x_n], false, [.cm3_n, .tmpexp_n], setWidth s⟩
  | .step3 => ⟨.n, [.cm1_n, .cm2_n, .cm3_n, .const_n, .x_n], false, [.cm3_n, .tmpexp_n], setWidth s⟩
  | .step4 => ⟨.ns2, [.cm1_2ns, .cm2_2ns, .cm3_2ns, .const_2ns, .x_2ns], false, [.q_2ns], setWidth s⟩
  | .step5 => ⟨.ns2, [.cm1_2ns, .cm2_2ns, .cm3_2ns, .cm4_2ns, .const_2ns], true, [.f_2ns], setWidth s⟩

/-- `n_per_thread`, stark_gen.rs L886-893, with the constants of constant.rs L116-117 -/
def perThread (n workers : Nat) : Nat :=
  let a := (n - 1) / workers + 1
  let b := if a > 2 ^ 18 then 2 ^ 18 else a
  if b < 2 ^ 12 then 2 ^ 12 else b

/-- The rows of a section copied into a chunk: `cur` rows from row `i`, then `next` rows from row `(i + cur) % n`,
stark_gen.rs L913-936 -/
def sliceRows {α : Type} (l : List α) (width i cur n next : Nat) : Option (List α) :=
  ((List.range (cur * width)).mapM fun j => l[i * width + j]?).bind fun a =>
  ((List.range (next * width)).mapM fun j => l[(i + cur) % n * width + j]?).map fun b => a ++ b

/-- one input section, stark_gen.rs L911-937 -/
def addInput (ex : Exec) (c : Ctx E B) (i cur n next : Nat) (t : Ctx E B) (s : Sec) : Option (Ctx E B) :=
  (sliceRows (c.mem s) (ex.width s) i cur n next).map (t.put s)

/-- one output section: allocated if still empty, stark_gen.rs L945-950 -/
def addOutput (ex : Exec) (cur next : Nat) (t : Ctx E B) (s : Sec) : Ctx E B :=
  if t.mem s = [] then t.put s (List.replicate (ex.width s * (cur + next)) K.zero) else t

/-- the fresh context of a chunk from row `i`, stark_gen.rs L899-908 and L944; `zi off` is
`build_Zh_Inv(nbits, extend_bits, off)` -/
def freshCtx (zi : Nat → Nat → Option E) (c : Ctx E B) (i : Nat) : Ctx E B :=
  { nbits := c.nbits, nbitsExt := c.nbitsExt,
    mem := fun s => if s = .evals ∨ s = .publics ∨ s = .challenge then c.mem s else []
    xXi := [], xWXi := [], Zi := zi i }

/-- The context of the chunk of `cur` rows from row `i`, stark_gen.rs L897-950. -/
def chunkCtx (ex : Exec) (zi : Nat → Nat → Option E) (c : Ctx E B) (i cur n next : Nat) : Option (Ctx E B) :=
  (ex.inp.foldlM (addInput ex c i cur n next) (freshCtx zi c i)).bind fun t =>
  (if ex.inBase then
    (sliceRows c.xXi 3 i cur n next).bind fun a => (sliceRows c.xWXi 3 i cur n next).map fun b => { t with xXi := a, xWXi := b }
  else some t).map fun t => ex.out.foldl (addOutput K ex cur next) t

/-- the assignments `out[start + k] = tmp[k]` -/
def splice {α : Type} (l : List α) (start : Nat) (v : List α) : Option (List α) :=
  if start + v.length ≤ l.length then some (l.take start ++ v ++ l.drop (start + v.length)) else none

/-- the write-back of one section of one chunk, stark_gen.rs L957-962 -/
def writeBack1 (ex : Exec) (next start : Nat) (t : Ctx E B) (c : Ctx E B) (s : Sec) : Option (Ctx E B) :=
  if ex.width s * next ≤ (t.mem s).length then
    (splice (c.mem s) (start * ex.width s) ((t.mem s).take ((t.mem s).length - ex.width s * next))).map (c.put s)
  else none

/-- `calculate_exps_parallel`, stark_gen.rs L786-965, with `n_per_thread = npt`. -/
def calcParN (s : Info) (ex : Exec) (zi : Nat → Nat → Option E) (code : List (Instr E)) (tmpUsed npt : Nat) (c : Ctx E B) :
    Option (Ctx E B) :=
  let n := modOf c.nbits c.nbitsExt ex.dom
  let next := nextOf c.nbits c.nbitsExt ex.dom
  ((List.range ((n + npt - 1) / npt)).mapM fun q =>
    (chunkCtx K ex zi c (q * npt) (min npt (n - q * npt)) n next).bind fun t =>
    (calculateExps K s code tmpUsed ex.dom (min npt (n - q * npt)) t).map fun t => (q * npt, t)).bind fun ts =>
  ts.foldlM (fun c p => ex.out.foldlM (writeBack1 ex next p.1 p.2) c) c

/-- `calculate_exps_parallel`, stark_gen.rs L786-965; `workers` is `get_max_workers()`. -/
def calcPar (s : Info) (zi : Nat → Nat → Option E) (code : List (Instr E)) (tmpUsed workers : Nat) (st : Step) (c : Ctx E B) :
    Option (Ctx E B) :=
  let ex := execInfo s st
  calcParN K s ex zi code tmpUsed (perThread (modOf c.nbits c.nbitsExt ex.dom) workers) c

end Verif.Interp
