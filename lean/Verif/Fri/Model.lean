import Verif.FFT.Model

/-!
# Model of the FRI prover and verifier, starky/src/fri.rs

Generic in the extension field `A` (`F: FieldExtension`), the base field `G` of the committed buffers, the Merkle tree
(`M: MerkleTree`) and the transcript (`T: Transcript`), as the code is.  `none` is an error return or a panic.
The root table of the reused `standard_fft` is not threaded: every call starts from an empty one (its contents never
change a result, `FFT.fft_spec` and `FFT.ifft_formula` hold for every table).
-/
namespace Verif.Fri
open FFT

/-- The part of `trait MerkleTree` FRI uses, starky/src/traits.rs L24-55. -/
structure MT (G Root Path Tree : Type) where
  merkelize : List G → Nat → Nat → Option Tree
  root : Tree → Root
  rootElems : Root → List G
  defaultRoot : Root
  groupProof : Tree → Nat → Option (List G × Path)
  verify : Root → Path → Nat → List G → Option Bool

/-- `trait Transcript`, starky/src/traits.rs L57-63. -/
structure Tr (G A T : Type) where
  getField : T → Option (A × T)
  put : List (List G) → T → Option T
  perms : Nat → Nat → T → Option (List Nat × T)

/-- `FieldExtension::as_elements` (three elements) and `from_vec` of three elements, starky/src/traits.rs. -/
structure Enc (G A : Type) where
  enc : A → List G
  dec : G → G → G → A

/-- Constants and `struct FRI`, starky/src/fri.rs L15-20; `mg` is `F::from(MG.0[i])`. -/
structure Cfg (A : Type) where
  mg : Nat → A
  shift : A
  shiftInv : A
  inNbits : Nat
  maxDegNbits : Nat
  nQueries : Nat
  steps : List Nat

variable {G A Root Path Tree T : Type} [Field A] [DecidableEq A]

/-- `standard_fft.ifft` -/
def ifftC (mg : Nat → A) (p : List A) : Option (List A) := (ifft mg (fun _ => []) p).map Prod.fst

/-- `for _j in 0..reduction_bits { shift = shift * shift }`, starky/src/fri.rs L147-150, L266-268 -/
def sqN : Nat → A → A
  | 0, s => s
  | n + 1, s => sqN n (s * s)

/-- `get_transposed_buffer`, starky/src/fri.rs L299-317 (the slots are written in this order when the length is a
multiple of `2^tb`, as it is for the power-of-two layers; the dimension assert is dropped with the dimension tag). -/
def transposed (E : Enc G A) (pol : List A) (tb : Nat) : List G :=
  ((List.range (2 ^ tb)).map fun i =>
    ((List.range (pol.length / 2 ^ tb)).map fun j => E.enc (pol.getD (j * 2 ^ tb + i) 0)).flatten).flatten

/-- `get3`, starky/src/fri.rs L320-322 -/
def get3 (E : Enc G A) (arr : List G) (idx : Nat) : Option A :=
  (arr[idx * 3]?).bind fun a => (arr[idx * 3 + 1]?).bind fun b => (arr[idx * 3 + 2]?).map fun c => E.dec a b c

/-- `split3`, starky/src/fri.rs L325-331 (a length that is not a multiple of three indexes out of bounds). -/
def split3 (E : Enc G A) : List G → Option (List A)
  | [] => some []
  | a :: b :: c :: rest => (split3 E rest).map (E.dec a b c :: ·)
  | _ => none

/-- One group, starky/src/fri.rs L116-123: `ppar[i] = pol[i*pol2_n + g]`, inverse FFT, scale by powers of `sinv`,
evaluate at the challenge. -/
def foldGroup (mg : Nat → A) (pol : List A) (pol2N nX g : Nat) (sinv x : A) : Option A :=
  (ifftC mg ((List.range nX).map fun i => pol.getD (i * pol2N + g) 0)).map fun c =>
    evalPol (polMulAxi c 1 sinv) x

/-- The loop over groups from `g` on, starky/src/fri.rs L112-126, carrying `sinv`. -/
def layerLoop (mg : Nat → A) (pol : List A) (pol2N nX : Nat) (wi x : A) : Nat → Nat → A → Option (List A)
  | 0, _, _ => some []
  | n + 1, g, sinv => (foldGroup mg pol pol2N nX g sinv x).bind fun v =>
      (layerLoop mg pol pol2N nX wi x n (g + 1) (sinv * wi)).map (v :: ·)

/-- The next layer `pol2_e`, starky/src/fri.rs L102-126; the first step copies (L113-114). -/
def layer (mg : Nat → A) (first : Bool) (pol : List A) (polBits nBits : Nat) (shiftInv x : A) : Option (List A) :=
  let pol2N := 2 ^ nBits
  let nX := pol.length / pol2N
  if nX = 0 then none
  else if first then some ((List.range (pol.length / nX)).map fun g => pol.getD g 0)
  else layerLoop mg pol pol2N nX (mg polBits)⁻¹ x (pol.length / nX) 0 shiftInv

/-- What one step produces: challenge, next layer and, except for the last step, the tree over it. -/
structure StepOut (A Tree : Type) where
  x : A
  layer : List A
  tree : Option Tree

/-- the puts of the last step, starky/src/fri.rs L137-141: one put of three one-element vectors per value -/
def putLast (E : Enc G A) (tr : Tr G A T) (last : List A) (t : T) : Option T :=
  last.foldlM (fun t e => tr.put ((E.enc e).map fun g => [g]) t) t

/-- The commit loop, starky/src/fri.rs L101-151. -/
def proveLoop (mt : MT G Root Path Tree) (tr : Tr G A T) (E : Enc G A) (mg : Nat → A) :
    Bool → List Nat → List A → Nat → A → T → Option (List (StepOut A Tree) × T)
  | _, [], _, _, _, t => some ([], t)
  | first, nb :: rest, pol, polBits, shiftInv, t =>
    if polBits < nb then none else
    (tr.getField t).bind fun (x, t) =>
    (layer mg first pol polBits nb shiftInv x).bind fun pol2 =>
    match rest with
    | nb' :: _ =>
      (mt.merkelize (transposed E pol2 nb') (3 * (2 ^ nb / 2 ^ nb')) (2 ^ nb')).bind fun tree =>
      (tr.put [mt.rootElems (mt.root tree)] t).bind fun t =>
      (proveLoop mt tr E mg false rest pol2 nb (sqN (polBits - nb) shiftInv) t).map fun (outs, t) =>
        (⟨x, pol2, some tree⟩ :: outs, t)
    | [] =>
      (putLast E tr pol2 t).bind fun t =>
      (proveLoop mt tr E mg false rest pol2 nb (sqN (polBits - nb) shiftInv) t).map fun (outs, t) =>
        (⟨x, pol2, none⟩ :: outs, t)

/-- an entry of `pol_queries`, starky/src/fri.rs L24 -/
abbrev Q (G Path : Type) := List (List G × Path)

/-- starky/src/fri.rs L23-26 -/
structure Query (G Root Path : Type) where
  root : Root
  pols : List (Q G Path)

/-- starky/src/fri.rs L59-62 -/
structure FriProof (G Root Path A : Type) where
  queries : List (Query G Root Path)
  last : List A

/-- The query loop for `si ≥ 1`, starky/src/fri.rs L167-182: `ys %= 1 << steps[si].nBits`, then open. -/
def openLoop (mt : MT G Root Path Tree) : List Nat → List (StepOut A Tree) → List Nat → Option (List (Query G Root Path))
  | [], _, _ => some []
  | nb :: rest, o :: outs, ys =>
    o.tree.bind fun tree =>
    ((ys.map (· % 2 ^ nb)).mapM fun y => (mt.groupProof tree y).map fun r => [r]).bind fun qs =>
    (openLoop mt rest outs (ys.map (· % 2 ^ nb))).map fun r => ⟨mt.root tree, qs⟩ :: r
  | _ :: _, [], _ => none

/-- `prove`, starky/src/fri.rs L84-184; `q0` is `query_pol`. -/
def prove (mt : MT G Root Path Tree) (tr : Tr G A T) (E : Enc G A) (c : Cfg A) (pol : List A) (q0 : Nat → Q G Path) (t : T) :
    Option (FriProof G Root Path A × T) :=
  if 2 ^ Helper.log2Any pol.length ≠ pol.length ∨ Helper.log2Any pol.length ≠ c.inNbits then none else
  (proveLoop mt tr E c.mg true c.steps pol c.inNbits c.shiftInv t).bind fun (outs, t) =>
  (c.steps.head?).bind fun nb0 =>
  (tr.perms c.nQueries nb0 t).bind fun (ys, t) =>
  (openLoop mt c.steps.tail outs ys).map fun qs =>
    (⟨⟨mt.defaultRoot, ys.map q0⟩ :: qs, ((outs.getLast?).map StepOut.layer).getD pol⟩, t)

/-- The verifier's transcript phase, starky/src/fri.rs L196-213; the roots are those of the queries from `si + 1` on. -/
def challenges (mt : MT G Root Path Tree) (tr : Tr G A T) (E : Enc G A) (last : List A) :
    List Nat → List (Query G Root Path) → T → Option (List A × T)
  | [], _, t => some ([], t)
  | [_], _, t =>
    (tr.getField t).bind fun (x, t) =>
    (tr.put ((last.map fun e => (E.enc e).map fun g => [g]).flatten) t).map fun t => ([x], t)
  | _ :: nb' :: rest, qs, t =>
    (tr.getField t).bind fun (x, t) =>
    (qs.head?).bind fun q =>
    (tr.put [mt.rootElems q.root] t).bind fun t =>
    (challenges mt tr E last (nb' :: rest) qs.tail t).map fun (xs, t) => (x :: xs, t)

/-- The opened group of query `i` at step `si`, starky/src/fri.rs L220-246: `some (some g)` the values, `some none` the
`Ok(false)` of an empty group at step 0, `none` an error. -/
def openedGroup (mt : MT G Root Path Tree) (E : Enc G A) (cq : Q G Path → Nat → Option (List A)) (first : Bool)
    (q : Query G Root Path) (i y : Nat) : Option (Option (List A)) :=
  (q.pols[i]?).bind fun qi =>
  if first then (cq qi y).map fun g => if g = [] then none else some g
  else (qi.head?).bind fun vp =>
    (mt.verify q.root vp.2 y vp.1).bind fun ok => if ok then (split3 E vp.1).map some else none

/-- The value the verifier expects, starky/src/fri.rs L252-259. -/
def expected (E : Enc G A) (last : List A) (rest : List Nat) (qs : List (Query G Root Path)) (i y : Nat) : Option A :=
  match rest with
  | nb' :: _ => (qs.head?).bind fun q => (q.pols[i]?).bind fun qi => (qi.head?).bind fun vp => get3 E vp.1 (y / 2 ^ nb')
  | [] => last[y]?

/-- One query at one step, starky/src/fri.rs L235-262. -/
def checkOne (mt : MT G Root Path Tree) (E : Enc G A) (mg : Nat → A) (cq : Q G Path → Nat → Option (List A)) (last : List A)
    (first : Bool) (rest : List Nat) (q : Query G Root Path) (qs : List (Query G Root Path)) (polBits : Nat) (shift x : A)
    (ys : List Nat) (i : Nat) : Option Bool :=
  (ys[i]?).bind fun y =>
  (openedGroup mt E cq first q i y).bind fun g? =>
  match g? with
  | none => some false
  | some g => (ifftC mg g).bind fun c =>
      (expected E last rest qs i y).map fun e => decide (evalPol c (x * (shift * mg polBits ^ y)⁻¹) = e)

/-- `for i in 0..n_queries`, stopping at the first failure -/
def allM (f : Nat → Option Bool) : List Nat → Option Bool
  | [] => some true
  | i :: is => (f i).bind fun b => if b then allM f is else some false

/-- Degree check of the last layer, starky/src/fri.rs L277-295. -/
def finalCheck (mg : Nat → A) (inNbits maxDegNbits polBits : Nat) (last : List A) : Option Bool :=
  if inNbits < maxDegNbits then none else
  let maxDeg := if polBits < inNbits - maxDegNbits then 0 else 2 ^ (polBits - (inNbits - maxDegNbits))
  (ifftC mg last).map fun c => (List.range c.length).all fun i => decide (maxDeg + 1 ≤ i → c.getD i 0 = 0)

/-- The check loop, starky/src/fri.rs L232-275, followed by the degree check. -/
def checkLoop (mt : MT G Root Path Tree) (E : Enc G A) (c : Cfg A) (cq : Q G Path → Nat → Option (List A)) (last : List A) :
    Bool → List Nat → List A → List (Query G Root Path) → Nat → A → List Nat → Option Bool
  | _, [], _, _, polBits, _, _ => finalCheck c.mg c.inNbits c.maxDegNbits polBits last
  | first, nb :: rest, x :: xs, q :: qs, polBits, shift, ys =>
    if polBits < nb then none else
    (allM (checkOne mt E c.mg cq last first rest q qs polBits shift x ys) (List.range c.nQueries)).bind fun ok =>
    if !ok then some false else
    checkLoop mt E c cq last false rest xs qs nb (sqN (polBits - nb) shift)
      (match rest with | nb' :: _ => ys.map (· % 2 ^ nb') | [] => ys)
  | _, _ :: _, [], _, _, _, _ => none
  | _, _ :: _, _ :: _, [], _, _, _ => none

/-- `verify`, starky/src/fri.rs L187-296; `cq` is `check_query`. -/
def verify (mt : MT G Root Path Tree) (tr : Tr G A T) (E : Enc G A) (c : Cfg A) (proof : FriProof G Root Path A)
    (cq : Q G Path → Nat → Option (List A)) (t : T) : Option (Bool × T) :=
  if proof.queries.length ≠ c.steps.length then none else
  (challenges mt tr E proof.last c.steps proof.queries.tail t).bind fun (xs, t) =>
  (c.steps.head?).bind fun nb0 =>
  (tr.perms c.nQueries nb0 t).bind fun (ys, t) =>
  (checkLoop mt E c cq proof.last true c.steps xs proof.queries c.inNbits c.shift ys).map fun b => (b, t)

end Verif.Fri
