import Verif.Plonk.Model

/-!
# What an R1CS, a PLONK gate and an addition mean
-/
namespace Verif.Plonk

variable {F : Type} [Field F] [DecidableEq F]

/-- value of a linear combination under a wire assignment -/
def evalLC (w : Nat → F) (lc : List (Nat × F)) : F := (lc.map fun e => e.2 * w e.1).sum

/-- the R1CS constraint `A * B = C` -/
def Con.Sat (w : Nat → F) (c : Con F) : Prop := evalLC w c.a * evalLC w c.b = evalLC w c.c

/-- What the compressor puts in a cell carrying wire `s` (recursion/src/compressor12/compressor12_exec.rs L79: wire 0 gives 0). -/
def cell (w : Nat → F) (s : Nat) : F := if s = 0 then 0 else w s

/-- the PLONK gate equation on the cells -/
def Gate.Holds (w : Nat → F) (g : Gate F) : Prop :=
  g.qm * cell w g.sl * cell w g.sr + g.ql * cell w g.sl + g.qr * cell w g.sr + g.qo * cell w g.so + g.qc = 0

/-- the witness extended by the additions: variable `n + i` is defined by the `i`-th addition -/
def extend (n : Nat) (adds : List (Add F)) (w : Nat → F) : Nat → F :=
  match adds with
  | [] => w
  | a :: as => extend (n + 1) as (Function.update w n (a.c1 * w a.sl + a.c2 * w a.sr))

/-- the linear combination only uses wires below `n` -/
def UsesBelow (n : Nat) (lc : List (Nat × F)) : Prop := ∀ e ∈ lc, e.1 < n

/-- every wire of the constraint is below `n` and occurs once in each linear combination -/
def Con.Wf (n : Nat) (c : Con F) : Prop :=
  (UsesBelow n c.a ∧ UsesBelow n c.b ∧ UsesBelow n c.c) ∧
  (c.a.map (·.1)).Nodup ∧ (c.b.map (·.1)).Nodup ∧ (c.c.map (·.1)).Nodup

/-- no wire other than the constant one occurs -/
def Constant (lc : List (Nat × F)) : Prop := ∀ e ∈ lc, e.1 ≠ 0 → e.2 = 0

/-- no wire occurs at all -/
def Null (lc : List (Nat × F)) : Prop := ∀ e ∈ lc, e.2 = 0

end Verif.Plonk
