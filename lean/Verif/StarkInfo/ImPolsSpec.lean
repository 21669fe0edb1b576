import Verif.StarkInfo.ImPols
import Mathlib.Algebra.Polynomial.Degree.Operations
import Mathlib.Algebra.Polynomial.Degree.Lemmas

/-!
# What the degree of a constraint expression is

Independent of the selection algorithm: the polynomial denoted by an expression when a set of expressions has been
replaced by committed columns.
-/
namespace Verif.ImPols.Spec
open Verif.Codegen Polynomial

variable {R : Type} [CommRing R]

/-- polynomials for the columns (`true`: the column shifted by one row), values for the publics and challenges -/
structure Env (R : Type) [CommRing R] where
  cm : Nat → Bool → R[X]
  fixed : Nat → Bool → R[X]
  x : R[X]
  pub : Nat → R
  chal : Nat → R
  /-- the columns committed for selected expressions -/
  im : Nat → Bool → R[X]

/-- every column has degree at most `B` (for a trace of `N` rows, `B = N - 1`) -/
structure Env.Bounded (env : Env R) (B : Nat) : Prop where
  cm : ∀ i p, (env.cm i p).natDegree ≤ B
  fixed : ∀ i p, (env.fixed i p).natDegree ≤ B
  x : env.x.natDegree ≤ B
  im : ∀ i p, (env.im i p).natDegree ≤ B

/-- `PolyOf exps S env p e f`: the expression `e`, at the current row (`p = false`) or at the next row (`p = true`), denotes
the polynomial `f`; a reference to an expression of `S` denotes the column committed for it, any other reference denotes
what the referenced expression denotes. -/
inductive PolyOf (exps : List (Expr R)) (S : Finset Nat) (env : Env R) : Bool → Expr R → R[X] → Prop
  | add {p l a b f g} : l.op = .add → PolyOf exps S env p a f → PolyOf exps S env p b g →
      PolyOf exps S env p (.node l [a, b]) (f + g)
  | sub {p l a b f g} : l.op = .sub → PolyOf exps S env p a f → PolyOf exps S env p b g →
      PolyOf exps S env p (.node l [a, b]) (f - g)
  | mul {p l a b f g} : l.op = .mul → PolyOf exps S env p a f → PolyOf exps S env p b g →
      PolyOf exps S env p (.node l [a, b]) (f * g)
  | addc {p l a f k} : l.op = .addc → l.const_ = some k → PolyOf exps S env p a f →
      PolyOf exps S env p (.node l [a]) (f + C k)
  | mulc {p l a f k} : l.op = .mulc → l.const_ = some k → PolyOf exps S env p a f →
      PolyOf exps S env p (.node l [a]) (f * C k)
  | neg {p l a f} : l.op = .neg → PolyOf exps S env p a f → PolyOf exps S env p (.node l [a]) (-f)
  | number {p l v} : l.op = .number → l.value = some v → PolyOf exps S env p (.node l []) (C v)
  | cm {p l i} : l.op = .cm → l.id = some i → PolyOf exps S env p (.node l []) (env.cm i (l.next || p))
  | fixed {p l i} : l.op = .const_ → l.id = some i → PolyOf exps S env p (.node l []) (env.fixed i (l.next || p))
  | x {p l} : l.op = .x → PolyOf exps S env p (.node l []) env.x
  | pub {p l i} : l.op = .public_ → l.id = some i → PolyOf exps S env p (.node l []) (C (env.pub i))
  | chal {p l i} : l.op = .challenge → l.id = some i → PolyOf exps S env p (.node l []) (C (env.chal i))
  | im {p l i} : l.op = .exp → l.id = some i → i ∈ S → PolyOf exps S env p (.node l []) (env.im i (l.next || p))
  | exp {p l i e f} : l.op = .exp → l.id = some i → i ∉ S → exps[i]? = some e → PolyOf exps S env (l.next || p) e f →
      PolyOf exps S env p (.node l []) f

/-- the degree of the expression is at most `d` when every reference to another expression counts as one column -/
inductive InLe {E : Type} : Expr E → Nat → Prop
  | lin {l vs d} : linOp l.op = true → (∀ v ∈ vs, InLe v d) → InLe (.node l vs) d
  | const {l vs d} : constOp l.op = true → InLe (.node l vs) d
  | var {l vs d} : varOp l.op = true → 1 ≤ d → InLe (.node l vs) d
  | mul {l a b x y d} : l.op = .mul → InLe a x → InLe b y → x + y ≤ d → InLe (.node l [a, b]) d
  | exp {l vs d} : l.op = .exp → 1 ≤ d → InLe (.node l vs) d

/-- the expression is built from the supported operators, its references exist, and following them terminates -/
inductive Closed {E : Type} (exps : List (Expr E)) : Expr E → Prop
  | lin {l vs} : linOp l.op = true → (∀ v ∈ vs, Closed exps v) → Closed exps (.node l vs)
  | leaf {l vs} : constOp l.op = true ∨ varOp l.op = true → Closed exps (.node l vs)
  | mul {l a b} : l.op = .mul → Closed exps a → Closed exps b → Closed exps (.node l [a, b])
  | exp {l vs i e} : l.op = .exp → l.id = some i → exps[i]? = some e → Closed exps e → Closed exps (.node l vs)

end Verif.ImPols.Spec
