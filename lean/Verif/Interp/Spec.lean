import Verif.Interp.Model

/-!
# What a segment means

An independent, row-oriented reading of a segment: a section is a matrix whose rows have a fixed width; a column is
one or three adjacent cells of every row; a node denotes the value of its column at the current row, or, when it is
primed, at the row `step` further (cyclically).  An instruction computes its operation on the meanings of its operands
and replaces the value of its destination column at the current row, leaving everything else alone.
-/
namespace Verif.Interp.Spec
open Verif.Interp

variable {E B : Type} [DecidableEq E] (K : Alg E B)

/-- A column: `dim` adjacent cells starting at `pos` in every row of a section whose rows are `width` cells wide. -/
structure Col where
  sec : Sec
  pos : Nat
  dim : Nat
  width : Nat

/-- the cell in row `row` and column `col` of a matrix stored row by row -/
def cell (l : List E) (width row col : Nat) : Option E := l[row * width + col]?

/-- The value of a column at a row: one cell, or the extension element whose coordinates are three cells. -/
def readCol (m : Sec → List E) (c : Col) (row : Nat) : Option E :=
  if c.dim = 1 then cell (m c.sec) c.width row c.pos
  else if c.dim = 3 then do
    let a ← cell (m c.sec) c.width row c.pos
    let b ← cell (m c.sec) c.width row (c.pos + 1)
    let d ← cell (m c.sec) c.width row (c.pos + 2)
    K.fromVec [← K.toBe a, ← K.toBe b, ← K.toBe d]
  else none

/-- Replacing the value of a column at a row.  A value fits a column of its own dimension; a base-field value also fits a
three-cell column, as `(v, 0, 0)`, provided the two other cells of that row have not been written yet (hold zero, as in a
freshly allocated buffer). -/
def writeCol (m : Sec → List E) (c : Col) (row : Nat) (v : E) : Option (Sec → List E) :=
  let l := m c.sec
  let at_ := row * c.width + c.pos
  if at_ + c.dim ≤ l.length then
    if c.dim = 1 ∧ K.dim v = 1 then some (Function.update m c.sec (l.set at_ v))
    else if c.dim = 3 ∧ K.dim v = 3 then
      match K.elems v with
      | [a, b, d] => some (Function.update m c.sec
          (((l.set at_ (K.ofB a)).set (at_ + 1) (K.ofB b)).set (at_ + 2) (K.ofB d)))
      | _ => none
    else if c.dim = 3 ∧ K.dim v = 1 ∧ l[at_ + 1]? = some K.zero ∧ l[at_ + 2]? = some K.zero then
      some (Function.update m c.sec (((l.set at_ v).set (at_ + 1) K.zero).set (at_ + 2) K.zero))
    else none
  else none

/-- the column of a committed or temporary polynomial -/
def polCol (s : Info) (polId : Nat) : Option Col :=
  s.varPolMap[polId]?.bind fun p =>
  if p.section_ = .tmp then none else some ⟨p.section_, p.sectionPos, p.dim, s.sectionsN p.section_⟩

/-- the column of a node in the domain -/
def nodeCol (s : Info) (dom : Dom) (r : Node E) : Option Col :=
  match r.ty, dom with
  | .const_, .n => some ⟨.const_n, r.id, 1, s.nConstants⟩
  | .const_, .ns2 => some ⟨.const_2ns, r.id, 1, s.nConstants⟩
  | .cm, .n => s.cmN[r.id]?.bind (polCol s)
  | .cm, .ns2 => s.cm2ns[r.id]?.bind (polCol s)
  | .tmpExp, .n => s.tmpexpN[r.id]?.bind (polCol s)
  | .q, .ns2 => some ⟨.q_2ns, r.id, s.qDim, s.qDim⟩
  | .f, .ns2 => some ⟨.f_2ns, r.id, 3, 3⟩
  | .x, .n => some ⟨.x_n, 0, 1, 1⟩
  | .x, .ns2 => some ⟨.x_2ns, 0, 1, 1⟩
  | _, _ => none

/-- The row a node refers to when the current row is `i`: `i`, or `i + step` cyclically for a primed node. -/
def rowOf (N step : Nat) (prime : Bool) (i : Nat) : Nat := if prime then (i + step) % N else i

/-- Row `i` of a base-field table of extension elements -/
def readBase (l : List B) (i : Nat) : Option E := do
  K.fromVec [← l[3 * i]?, ← l[3 * i + 1]?, ← l[3 * i + 2]?]

/-- The meaning of an operand at row `i` -/
def meaning (s : Info) (dom : Dom) (N step : Nat) (c : Ctx E B) (i : Nat) (r : Node E) : Option E :=
  match r.ty with
  | .tmp => (c.mem .tmp)[r.id]?
  | .number => r.value
  | .public_ => (c.mem .publics)[r.id]?
  | .challenge => (c.mem .challenge)[r.id]?
  | .eval => (c.mem .evals)[r.id]?
  | .xDivXSubXi => readBase K c.xXi i
  | .xDivXSubWXi => readBase K c.xWXi i
  | .Zi => c.Zi i
  | .const_ | .cm | .tmpExp => (nodeCol s dom r).bind fun col => readCol K c.mem col (rowOf N step r.prime i)
  | .x => (nodeCol s dom r).bind fun col => readCol K c.mem col i
  | .q | .f | .other => none

/-- Storing a value in the destination of an instruction at row `i`: a temporary, or the column of the node. -/
def store (s : Info) (dom : Dom) (N step : Nat) (c : Ctx E B) (i : Nat) (r : Node E) (v : E) : Option (Ctx E B) :=
  match r.ty with
  | .tmp => if r.id < (c.mem .tmp).length then some { c with mem := Function.update c.mem .tmp ((c.mem .tmp).set r.id v) }
    else none
  | .cm | .tmpExp => (nodeCol s dom r).bind fun col =>
    (writeCol K c.mem col (rowOf N step r.prime i) v).map fun m => { c with mem := m }
  | .q | .f => (nodeCol s dom r).bind fun col => (writeCol K c.mem col i v).map fun m => { c with mem := m }
  | _ => none

/-- The operation of an instruction on the values of its operands -/
def apply : OpTy → List E → Option E
  | .add, [a, b] => K.add a b
  | .sub, [a, b] => K.sub a b
  | .mul, [a, b] => K.mul a b
  | .copy, [a] => some a
  | _, _ => none

/-- One instruction at row `i` -/
def stepI (s : Info) (dom : Dom) (N step : Nat) (i : Nat) (c : Ctx E B) (ins : Instr E) : Option (Ctx E B) := do
  let vs ← ins.src.mapM (meaning K s dom N step c i)
  let v ← apply K ins.op vs
  store K s dom N step c i ins.dest v

/-- A segment at row `i`: its instructions in order -/
def run (s : Info) (dom : Dom) (N step : Nat) (code : List (Instr E)) (c : Ctx E B) (i : Nat) : Option (Ctx E B) :=
  code.foldlM (stepI K s dom N step i) c

end Verif.Interp.Spec
