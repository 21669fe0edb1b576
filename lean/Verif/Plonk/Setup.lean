import Verif.Plonk.Spec
import Mathlib.Logic.Function.Basic
import Mathlib.Data.List.Dedup

/-!
# Gate placement: model of recursion/src/compressor12/plonk_setup.rs L46-379

The signal map `s_map` (12 columns) and the constant polynomials are kept row by row.  All constant polynomials start as zero
(starky/src/polsarray.rs L39-46); writes of zero over a row that has not been touched are left out.
A selector key (`str_key`, the five hexadecimal selector values joined by commas) is the tuple of the five values.
-/
namespace Verif.Plonk

variable {F : Type} [Field F] [DecidableEq F]

/-- one row of the signal map and of the constant polynomials `C[0..12]`, `GATE`, `POSEIDON12`, `PARTIAL`, `CMULADD`, `EVPOL4`, `FFT4` -/
structure Row (F : Type) where
  s : Nat → Nat
  C : Nat → F
  gate : F
  poseidon : F
  partial_ : F
  cmuladd : F
  evpol : F
  fft : F

/-- an empty row -/
def Row.zero : Row F := ⟨fun _ => 0, fun _ => 0, 0, 0, 0, 0, 0, 0⟩

/-- the selector key of a gate, recursion/src/r1cs2plonk.rs L29-39 -/
abbrev Key (F : Type) := F × F × F × F × F

/-- `str_key` -/
def Gate.key (g : Gate F) : Key F := (g.qm, g.ql, g.qr, g.qo, g.qc)

/-- `ParRow`, recursion/src/compressor12/plonk_setup.rs L262-266 -/
structure ParRow where
  row : Nat
  nUsed : Nat
  deriving DecidableEq

/-- the mutable locals of the placement loop, recursion/src/compressor12/plonk_setup.rs L268-269 -/
structure PS (F : Type) where
  rows : Nat → Row F
  r : Nat
  part : List (Key F × ParRow)
  half : List ParRow

/-- `s_map[u*3..u*3+3][row] = (c.0, c.1, c.2)`, recursion/src/compressor12/plonk_setup.rs L278-280, 304-306, 337-339 -/
def Row.setSlot (x : Row F) (u : Nat) (g : Gate F) : Row F :=
  { x with s := Function.update (Function.update (Function.update x.s (u * 3) g.sl) (u * 3 + 1) g.sr) (u * 3 + 2) g.so }

/-- the six coefficient writes at `b` (0 or 6), recursion/src/compressor12/plonk_setup.rs L289-303 and L310-323 -/
def Row.setC (x : Row F) (b : Nat) (k : Key F) : Row F :=
  { x with C := fun i => if i = b + 3 then k.1 else if i = b then k.2.1 else if i = b + 1 then k.2.2.1 else if i = b + 2 then k.2.2.2.1
      else if i = b + 4 then k.2.2.2.2 else if i = b + 5 then 0 else x.C i }

/-- `partial_rows.get(&k)` -/
def findKey (m : List (Key F × ParRow)) (k : Key F) : Option ParRow :=
  match m with
  | [] => none
  | e :: m => if e.1 = k then some e.2 else findKey m k

/-- `partial_rows.remove(&k)` -/
def removeKey (m : List (Key F × ParRow)) (k : Key F) : List (Key F × ParRow) := m.filter fun e => decide (e.1 ≠ k)

/-- one iteration of the placement loop, recursion/src/compressor12/plonk_setup.rs L271-343; `none` is an index out of range: the signal map has
`nUsed` rows and the polynomials `N` -/
def place (nUsed N : Nat) (st : PS F) (g : Gate F) : Option (PS F) :=
  match findKey st.part g.key with
  | some pr =>
    let rows := Function.update st.rows pr.row ((st.rows pr.row).setSlot pr.nUsed g)
    if pr.nUsed + 1 = 2 then
      some { st with rows := rows, half := st.half ++ [⟨pr.row, pr.nUsed + 1⟩], part := removeKey st.part g.key }
    else if pr.nUsed + 1 = 4 then
      some { st with rows := rows, part := removeKey st.part g.key }
    else
      some { st with rows := rows, part := (g.key, ⟨pr.row, pr.nUsed + 1⟩) :: removeKey st.part g.key }
  | none =>
    match st.half with
    | pr :: half =>
      some { st with
        rows := Function.update st.rows pr.row (((st.rows pr.row).setC 6 g.key).setSlot pr.nUsed g)
        half := half
        part := (g.key, ⟨pr.row, pr.nUsed + 1⟩) :: st.part }
    | [] =>
      if st.r < nUsed ∧ st.r < N then
        some { st with
          rows := Function.update st.rows st.r { ((st.rows st.r).setC 0 g.key).setSlot 0 g with
            gate := 1, poseidon := 0, partial_ := 0, cmuladd := 0, evpol := 0, fft := 0 }
          part := (g.key, ⟨st.r, 1⟩) :: st.part
          r := st.r + 1 }
      else none

/-- copy the three signals of slot `u` to slot `u + 1`, recursion/src/compressor12/plonk_setup.rs L348-350, L354-356 -/
def Row.copySlot (x : Row F) (u : Nat) : Row F :=
  { x with s := Function.update (Function.update (Function.update x.s (u * 3 + 3) (x.s (u * 3))) (u * 3 + 4) (x.s (u * 3 + 1))) (u * 3 + 5) (x.s (u * 3 + 2)) }

/-- termination of one incomplete row, recursion/src/compressor12/plonk_setup.rs L345-360 -/
def finishPart (st : PS F) (pr : ParRow) : Option (PS F) :=
  if pr.nUsed = 1 then
    some { st with
      rows := Function.update st.rows pr.row ((st.rows pr.row).copySlot 0)
      half := st.half ++ [⟨pr.row, pr.nUsed + 1⟩] }
  else if pr.nUsed = 3 then
    some { st with rows := Function.update st.rows pr.row ((st.rows pr.row).copySlot 2) }
  else none

/-- clear the second half of a row, recursion/src/compressor12/plonk_setup.rs L362-379 -/
def Row.clearHalf (x : Row F) : Row F :=
  { x with s := fun i => if 6 ≤ i ∧ i < 12 then 0 else x.s i, C := fun i => if 6 ≤ i ∧ i < 12 then 0 else x.C i }

/-- the placement of all gates from row `r0` on, recursion/src/compressor12/plonk_setup.rs L262-379 (the order in which `partial_rows` is iterated
does not matter: the entries concern different rows) -/
def placeAll (nUsed N r0 : Nat) (rows : Nat → Row F) (gates : List (Gate F)) : Option (PS F) := do
  let st ← gates.foldlM (place nUsed N) { rows := rows, r := r0, part := [], half := [] }
  let st ← st.part.foldlM (fun st e => finishPart st e.2) st
  return { st with rows := st.half.foldl (fun rows hr => Function.update rows hr.row (rows hr.row).clearHalf) st.rows }

/-- number of uses of a key -/
def uses (gates : List (Gate F)) (k : Key F) : Nat := gates.countP fun g => decide (g.key = k)

/-- the distinct keys -/
def keys (gates : List (Gate F)) : List (Key F) := (gates.map Gate.key).dedup

/-- the first sum of `NormalPlonkInfo::new`, recursion/src/compressor12/plonk_setup.rs L56-70: half rows needed -/
def halves (gates : List (Gate F)) : Nat := ((keys gates).map fun k => (uses gates k - 1) / 2 + 1).sum

/-- `NormalPlonkInfo::new`, recursion/src/compressor12/plonk_setup.rs L55-71; `none`: with no gate at all `N - 1` underflows -/
def plonkN (gates : List (Gate F)) : Option Nat :=
  if halves gates = 0 then none else some ((halves gates - 1) / 2 + 1)

/-! ### The identities of the generated PIL, recursion/src/compressor12/compressor12_pil.rs -/

/-- the normal gate identities, recursion/src/compressor12/compressor12_pil.rs L109-124, for the committed values `a` of a row -/
def Row.NormalGates (x : Row F) (a : Nat → F) : Prop :=
  (x.C 3 * (a 0 * a 1) + x.C 0 * a 0 + x.C 1 * a 1 + x.C 2 * a 2 + x.C 4) * x.gate = 0 ∧
  (x.C 3 * (a 3 * a 4) + x.C 0 * a 3 + x.C 1 * a 4 + x.C 2 * a 5 + x.C 4) * x.gate = 0 ∧
  (x.C 9 * (a 6 * a 7) + x.C 6 * a 6 + x.C 7 * a 7 + x.C 8 * a 8 + x.C 10) * x.gate = 0 ∧
  (x.C 9 * (a 9 * a 10) + x.C 6 * a 9 + x.C 7 * a 10 + x.C 8 * a 11 + x.C 10) * x.gate = 0

end Verif.Plonk
