import Verif.Codegen.Model
import Mathlib.Data.Finset.Card
import Mathlib.Data.Finset.Sort
import Mathlib.Data.Int.Order.Basic

/-!
# Selection of the intermediate polynomials (starky/src/starkinfo_cp_prover.rs)

`HashMap<usize, bool>` used as a set (every stored flag is `true`, L230) is a `Finset`; `i32` degrees are integers.
Recursion follows references between expressions, so it is modelled with fuel; `none` stands for a panic (unknown
operator, missing child, reference out of range) or exhausted fuel (unbounded recursion in the code).
-/
namespace Verif.ImPols
open Verif.Codegen

variable {E : Type}

/-- `["add", "sub", "addc", "mulc", "neg"].contains(..)`, L141 -/
def linOp : Op → Bool
  | .add | .sub | .addc | .mulc | .neg => true
  | _ => false

/-- `["number", "public", "challenge"].contains(..)`, L154, L166, L176 -/
def constOp : Op → Bool
  | .number | .public_ | .challenge => true
  | _ => false

/-- `["x", "const", "cm"].contains(..)`, L156 -/
def varOp : Op → Bool
  | .x | .const_ | .cm => true
  | _ => false

/-- the loop over the children in `get_exp_dim`, L248-254 -/
def dimFold (rec : Expr E → Option Int) : List (Expr E) → Int → Option Int
  | [], md => some md
  | v :: vs, md => (rec v).bind fun d => dimFold rec vs (if d > md then d else md)

/-- `get_exp_dim`, starkinfo_cp_prover.rs L243-267 -/
def getExpDim (exps : List (Expr E)) : Nat → Expr E → Option Int
  | 0, _ => none
  | n + 1, .node l vs =>
    match l.op with
    | .add | .sub | .addc | .mulc | .neg => dimFold (getExpDim exps n) vs 1
    | .mul => (vs[0]?).bind fun a => (vs[1]?).bind fun b =>
        (getExpDim exps n a).bind fun x => (getExpDim exps n b).bind fun y => some (x + y)
    | .muladd => (vs[0]?).bind fun a => (vs[1]?).bind fun b => (vs[2]?).bind fun c =>
        (getExpDim exps n a).bind fun x => (getExpDim exps n b).bind fun y => (getExpDim exps n c).bind fun z =>
        some (max (x + y) z)
    | .cm | .const_ | .x => some 1
    | .exp => l.id.bind fun i => (exps[i]?).bind fun e => getExpDim exps n e
    | .number | .public_ | .challenge | .eval => some 0
    | _ => none

/-- what `_calculate_im_pols` returns, with the new value of `*abs_max_d` -/
abbrev Res := (Option (Finset Nat) × Int) × Int

/-- the loop over the children of a linear operator, L142-153; `md` and the running `im_e` -/
def linFold (rec : Expr E → Option (Finset Nat) → Int → Option Res) :
    List (Expr E) → Option (Finset Nat) → Int → Int → Option Res
  | [], im, md, A => some ((im, md), A)
  | v :: vs, im, md, A =>
    (rec v im A).bind fun r => linFold rec vs r.1.1 (if r.1.2 > md then r.1.2 else md) r.2

/-- L195-203: keep the candidate when it is the first one or strictly smaller than the best one -/
def pick (e2 : Option (Finset Nat)) (d : Int) (eb : Option (Finset Nat)) (ed : Int) : Option (Finset Nat) × Int :=
  match e2, eb with
  | none, _ => (eb, ed)
  | some s, none => (some s, d)
  | some s, some t => if s.card < t.card then (some s, d) else (some t, ed)

/-- L204-209: the best candidate adds nothing to the input -/
def done (im eb : Option (Finset Nat)) : Bool :=
  match eb, im with
  | some t, some s => t.card = s.card
  | _, _ => false

/-- the loop `for l in 0..=max_deg`, L190-211, with its early return; `eb`, `ed` are the best candidate so far -/
def mulLoop (rec : Expr E → Option (Finset Nat) → Nat → Int → Option Res) (a b : Expr E) (im : Option (Finset Nat))
    (maxDeg : Nat) : List Nat → Option (Finset Nat) → Int → Int → Option Res
  | [], eb, ed, A => some ((eb, ed), A)
  | l :: ls, eb, ed, A =>
    (rec a im l A).bind fun r1 => (rec b r1.1.1 (maxDeg - l) r1.2).bind fun r2 =>
      let p := pick r2.1.1 (r1.1.2 + r2.1.2) eb ed
      if done im p.1 then some (p, r2.2) else mulLoop rec a b im maxDeg ls p.1 p.2 r2.2

/-- the `exp` case after the recursive call, L224-237 -/
def expRes (id : Nat) (maxDeg : Nat) (r : Res) : Res :=
  match r.1.1 with
  | none => ((none, -1), r.2)
  | some s => if r.1.2 > maxDeg then ((some (insert id s), 1), if r.1.2 > r.2 then r.1.2 else r.2)
      else ((some s, r.1.2), r.2)

/-- `_calculate_im_pols`, starkinfo_cp_prover.rs L123-241: arguments `exp`, `im_expressions`, `max_deg`, `*abs_max_d`;
`abs_max` is constant through the recursion. -/
def imCalc (exps : List (Expr E)) (absMax : Nat) : Nat → Expr E → Option (Finset Nat) → Nat → Int → Option Res
  | 0, _, _, _, _ => none
  | _ + 1, _, none, _, A => some ((none, -1), A)
  | n + 1, .node l vs, some s, maxDeg, A =>
    if linOp l.op then linFold (fun v im A => imCalc exps absMax n v im maxDeg A) vs (some s) 0 A
    else if constOp l.op then some ((some s, 0), A)
    else if varOp l.op then (if maxDeg < 1 then some ((none, -1), A) else some ((some s, 1), A))
    else if l.op = .mul then
      (vs[0]?).bind fun a => (vs[1]?).bind fun b =>
        if constOp a.label.op then imCalc exps absMax n b (some s) maxDeg A
        else if constOp b.label.op then imCalc exps absMax n a (some s) maxDeg A
        else (getExpDim exps (n + 1) (.node l vs)).bind fun dim =>
          if dim ≤ maxDeg then some ((some s, dim), A)
          else mulLoop (imCalc exps absMax n) a b (some s) maxDeg (List.range (maxDeg + 1)) none (-1) A
    else if l.op = .exp then
      if maxDeg < 1 then some ((none, -1), A)
      else l.id.bind fun i =>
        if i ∈ s then some ((some s, 1), A)
        else (exps[i]?).bind fun e => (imCalc exps absMax n e (some s) absMax A).map (expRes i maxDeg)
    else none

/-- `calculate_im_pols`, L269-289 -/
def calculateImPols (fuel : Nat) (exps : List (Expr E)) (e : Expr E) (maxDeg : Nat) : Option (Option (Finset Nat) × Int) :=
  (imCalc exps maxDeg fuel e (some ∅) maxDeg 0).map fun r => (r.1.1, max r.1.2 r.2 - 1)

/-- `q_deg as usize` of an `i32` -/
def asUsize (q : Int) : Nat := (q % 2 ^ 64).toNat

/-- one iteration of the loop of `generate_constraint_polynomial`, L39-47: state `(self.im_exps, self.q_deg)` -/
def selectStep (st : Finset Nat × Nat) (r : Option (Finset Nat) × Int) : Finset Nat × Nat :=
  match r.1 with
  | none => st
  | some s => if st.2 = 0 ∨ s.card + asUsize r.2 < st.1.card + st.2 then (s, asUsize r.2) else st

/-- the loop `for d in 2..=max_deg`, L36-48 (`self.im_exps` is initially empty) -/
def selectLoop (fuel : Nat) (exps : List (Expr E)) (c : Expr E) (maxDeg : Nat) : Option (Finset Nat × Nat) :=
  ((List.range' 2 (maxDeg - 1)).mapM (calculateImPols fuel exps c)).map fun rs => rs.foldl selectStep (∅, 0)

/-- `E::challenge("vc")`, L26; index 4, constant.rs L45 -/
def vcE : Expr E := .node { op := .challenge, id := some 4 } []

/-- `E::exp(id, None)`, expressionops.rs L24-28 -/
def expE (i : Nat) : Expr E := .node { op := .exp, id := some i } []

/-- `Expression::new("cm", 0, Some(i), None, None)`, L64 -/
def cmE (i : Nat) : Expr E := .node { op := .cm, id := some i } []

/-- `c_exp = if nop { e } else { add(mul(vc, c_exp), e) }`, L30-34 and L66-70; `nop` is `none` -/
def combine (c : Option (Expr E)) (e : Expr E) : Option (Expr E) :=
  match c with
  | none => some e
  | some c => some (.node { op := .add } [.node { op := .mul } [vcE, c], e])

/-- the combination of the polynomial identities, L27-35; `ids` are the expression numbers `pi.e` -/
def identExp (ids : List Nat) : Option (Expr E) := ids.foldl (fun c i => combine c (expE i)) none

/-- the constraints of the selected expressions, L58-71: the expression `list[i]` minus the column `nCommitments + i` -/
def addIm (exps : List (Expr E)) (nCommitments : Nat) : List (Nat × Nat) → Option (Expr E) → Option (Expr E)
  | [], c => c
  | (k, i) :: rest, c => (exps[k]?).bind fun e =>
      addIm exps nCommitments rest (combine c (.node { op := .sub } [e, cmE (nCommitments + i)]))

/-- `generate_constraint_polynomial`, L12-86 up to the allocation of the quotient columns: the selected set, `q_deg` and
`c_exp`.  Without identities `calculate_im_pols` panics on `nop`; `vec![0usize; q_deg]` (L81) panics when the size in bytes
exceeds `isize::MAX`. -/
def generate (fuel : Nat) (exps : List (Expr E)) (ids : List Nat) (nCommitments maxDeg : Nat) :
    Option (Finset Nat × Nat × Expr E) :=
  (identExp ids).bind fun c => (selectLoop fuel exps c maxDeg).bind fun (S, q) =>
    if q * 8 < 2 ^ 63 then (addIm exps nCommitments ((S.sort (· ≤ ·)).zipIdx) (some c)).map fun c' => (S, q, c') else none

end Verif.ImPols
