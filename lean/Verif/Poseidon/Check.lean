import Verif.Poseidon.Equiv
import Mathlib.Algebra.CharP.Basic

/-!
# Checking the tables

A checker on lists of natural numbers that the kernel can run, and the proof that it implies the identities of `Compat` in every commutative ring
of characteristic `p`.
-/
namespace Verif.Poseidon
open Matrix

/-- The tables of one width of the optimized form, cut into rows: `cF` the `h + 1` first blocks of `C`, `cP` the constants of the partial rounds,
`cL` the last `h - 1` blocks; `M`, `P` row by row; `S` one partial round per row. -/
structure Table where
  cF : List (List Nat)
  cP : List Nat
  cL : List (List Nat)
  m : List (List Nat)
  p : List (List Nat)
  s : List (List Nat)

/-- the vector `C` of the code -/
def Table.flatC (T : Table) : List Nat := T.cF.flatten ++ (T.cP ++ T.cL.flatten)
/-- the vector `S` of the code -/
def Table.flatS (T : Table) : List Nat := T.s.flatten

/-- entry `[i][j]` of a table -/
def at2 (l : List (List Nat)) (i j : Nat) : Nat := (l.getD i []).getD j 0

/-- the tables as field elements, `load_constants` in starky/src/poseidon_opt.rs L21-51, poseidon_bn128_opt.rs L11-66, poseidon_bls12381_opt.rs
L11-68; `from_hex` panics on a number that is not below the modulus (excluded by `Table.below`) -/
def Table.opt (F : Type) [NatCast F] (T : Table) : Opt F where
  c k := ((T.flatC.getD k 0 : Nat) : F)
  m j i := ((at2 T.m j i : Nat) : F)
  p j i := ((at2 T.p j i : Nat) : F)
  s k := ((T.flatS.getD k 0 : Nat) : F)

/-- a flat vector of constants of the plain form, given block by block -/
def flat (F : Type) [NatCast F] (c : List (List Nat)) (k : Nat) : F := ((c.flatten.getD k 0 : Nat) : F)
/-- a matrix of the plain form -/
def entry (F : Type) [NatCast F] (m : List (List Nat)) (i j : Nat) : F := ((at2 m i j : Nat) : F)

/-! ### The checker -/

/-- scalar product -/
def dot : List Nat → List Nat → Nat
  | a :: as, b :: bs => a * b + dot as bs
  | _, _ => 0

/-- every row has length `w` -/
def rect (w : Nat) : List (List Nat) → Bool
  | [] => true
  | r :: rs => r.length == w && rect w rs

/-- product of a matrix and a vector -/
def matVec (p : Nat) (m : List (List Nat)) (x : List Nat) : List Nat := m.map fun row => dot row x % p

/-- the vector is evaluated before the continuation is run -/
def forceL {β : Type} : List Nat → (List Nat → β) → β
  | [], k => k []
  | a :: as, k => Nat.casesOn (motive := fun _ => β) a (forceL as fun as' => k (0 :: as')) fun b => forceL as fun as' => k ((b + 1) :: as')

theorem forceL_eq {β : Type} (l : List Nat) (k : List Nat → β) : forceL l k = k l := by
  induction l generalizing k with
  | nil => rfl
  | cons a as ih =>
    cases a with
    | zero => exact ih _
    | succ b => exact ih _

/-- the rows 1.. without their first entry -/
def minor (m : List (List Nat)) : List (List Nat) := m.tail.map List.tail

/-- the matrix `lowD` applied to a vector, `k` times -/
def lowIter (p : Nat) (low : List (List Nat)) : Nat → List Nat → (List Nat → Bool) → Bool
  | 0, x, f => f x
  | k + 1, x, f => forceL (x.headD 0 :: matVec p low x.tail) fun y => lowIter p low k y f

/-- the sparse matrices: `low` the minor of the matrix, `lowT` its transpose, `m00`, `row`, `col` the rest of the matrix -/
def chainOk (p n : Nat) (low lowT : List (List Nat)) (m00 : Nat) (row col : List Nat) : List (List Nat) → Bool
  | [] => true
  | [a] => a.headD 0 == m00 && matVec p lowT (a.tail.take n) == row && a.tail.drop n == col
  | a :: b :: l => a.headD 0 == b.headD 0 && matVec p lowT (a.tail.take n) == b.tail.take n && matVec p low (b.tail.drop n) == a.tail.drop n &&
      chainOk p n low lowT m00 row col (b :: l)

/-- difference of vectors -/
def subMod (p : Nat) (a b : List Nat) : List Nat := List.zipWith (fun x y => (x + (p - y)) % p) a b

/-- the constants of the partial rounds -/
def carryOk (p : Nat) (m : List (List Nat)) : List Nat → List Nat → List (List Nat) → Bool
  | e, [], _ => e.all fun x => x == 0
  | _, _ :: _, [] => false
  | e, q :: qs, row :: rows => e.headD 0 == 0 && forceL (subMod p (matVec p m (q :: e.tail)) row) fun e' => carryOk p m e' qs rows

/-- the constants of consecutive full rounds -/
def fullOk (p : Nat) (m : List (List Nat)) : List (List Nat) → List (List Nat) → Bool
  | [], _ => true
  | _ :: _, [] => false
  | a :: as, b :: bs => matVec p m a == b && fullOk p m as bs

/-- sizes -/
def Table.sized (T : Table) (n h np : Nat) : Bool :=
  T.cF.length == h + 1 && rect (n + 1) T.cF && T.cP.length == np && T.cL.length == h - 1 && rect (n + 1) T.cL &&
  T.m.length == n + 1 && rect (n + 1) T.m && T.p.length == n + 1 && rect (n + 1) T.p && T.s.length == np && rect (2 * n + 1) T.s

/-- every constant is below the modulus -/
def Table.below (T : Table) (p : Nat) : Bool :=
  T.cF.all (·.all (· < p)) && T.cP.all (· < p) && T.cL.all (·.all (· < p)) && T.m.all (·.all (· < p)) && T.p.all (·.all (· < p)) && T.s.all (·.all (· < p))

/-- the whole check: `T` the optimized tables, `c`, `m` the plain ones -/
def Table.check (T : Table) (p n h np : Nat) (c m : List (List Nat)) : Bool :=
  T.sized n h np && (2 * h + np ≤ c.length : Bool) && rect (n + 1) c && c.all (·.all (· < p)) && m.length == n + 1 && rect (n + 1) m &&
  ((List.range (n + 1)).all fun i => (List.range (n + 1)).all fun j => at2 T.m j i == at2 m i j) &&
  T.cF.headD [] == c.headD [] &&
  fullOk p m ((T.cF.tail).take (h - 1)) c.tail &&
  ((List.zip T.m T.p).all fun q => lowIter p (minor m) np q.1 fun y => y == q.2) &&
  chainOk p n (minor m) (minor T.m) (at2 m 0 0) (m.headD []).tail (T.m.headD []).tail T.s &&
  forceL (subMod p (matVec p m (T.cF.getD h [])) (c.getD h [])) (fun e => carryOk p m e T.cP (c.drop (h + 1))) &&
  fullOk p m T.cL (c.drop (h + np + 1))

/-- the inverse of the mixing matrix, checked on the columns -/
def invOk (p : Nat) (mInv : List (List Nat)) (n : Nat) (mo : List (List Nat)) : Bool :=
  mInv.length == n + 1 && rect (n + 1) mInv && mo.length == n + 1 && rect (n + 1) mo &&
  (List.range (n + 1)).all fun j => matVec p mInv (mo.getD j []) == (List.range (n + 1)).map fun i => if i = j then 1 else 0

/-- round constants of the plain form that belong to given optimized tables: the constants of the code are added after the power map, before the
mixing, so they are carried through the matrix (for a hash whose plain constants are not in the code) -/
def Table.plainC (T : Table) (p n : Nat) (m : List (List Nat)) : List (List Nat) :=
  T.cF.headD [] :: (T.cF.tail.map (matVec p m) ++ (T.cP.map fun q => matVec p m (q :: List.replicate n 0)) ++ T.cL.map (matVec p m))

/-- the matrix of the plain form -/
def Table.plainM (T : Table) (n : Nat) : List (List Nat) := (List.range (n + 1)).map fun i => (List.range (n + 1)).map fun j => at2 T.m j i

end Verif.Poseidon
