import Mathlib.Data.Fintype.BigOperators
import Mathlib.Algebra.BigOperators.Fin
import Mathlib.Tactic.Ring

/-!
# The Poseidon permutation as it is computed by the crate

Both forms: the optimized one of poseidon_opt.rs / poseidon_bn128_opt.rs / poseidon_bls12381_opt.rs (sparse matrices in the partial rounds) and
the plain one of poseidon_bn128.rs / poseidon_bls12381.rs.  A state of `t` elements is a function on `Fin t`; reading a constant outside its
table panics in the code, and the lengths of the tables are checked where the tables are defined.
-/
namespace Verif.Poseidon

variable {F : Type} [CommRing F] {t : Nat}

/-- the tables `C`, `M`, `P`, `S` of one width, `Constants` in starky/src/poseidon_opt.rs L11-19 -/
structure Opt (F : Type) where
  c : Nat → F
  m : Nat → Nat → F
  p : Nat → Nat → F
  s : Nat → F

/-- a counted loop `for r in 0..n` -/
def loop {X : Type} (f : Nat → X → X) : Nat → X → X
  | 0, x => x
  | n + 1, x => f n (loop f n x)

/-- `state[i] += C[k + i]`, starky/src/poseidon_opt.rs L101, L106-108, L126-128, L167-169 -/
def addC (c : Nat → F) (k : Nat) (x : Fin t → F) : Fin t → F := fun i => x i + c (k + i)

/-- the power map on every element, starky/src/poseidon_opt.rs L105, L125, L166, L186 -/
def sboxAll (σ : F → F) (x : Fin t → F) : Fin t → F := fun i => σ (x i)

/-- `tmp_state[i] = sum_j M[j][i] * state[j]`, starky/src/poseidon_opt.rs L110-122, L130-142, L171-183, L187-197 -/
def mulT (m : Nat → Nat → F) (x : Fin t → F) : Fin t → F := fun i => ∑ j : Fin t, m j i * x j

/-- round `r` of the partial rounds, starky/src/poseidon_opt.rs L144-163; `z` is `state[0]` after its power and constant -/
def partialOpt (σ : F → F) (K : Opt F) (h : Nat) (r : Nat) (x : Fin t → F) : Fin t → F := fun i =>
  if i.val = 0 then ∑ j : Fin t, K.s ((t * 2 - 1) * r + j) * (if j.val = 0 then σ (x j) + K.c ((h + 1) * t + r) else x j)
  else x i + K.s ((t * 2 - 1) * r + t + i - 1) * (σ (x ⟨0, i.pos⟩) + K.c ((h + 1) * t + r))

/-- `hash_inner` between the initialisation and the output, starky/src/poseidon_opt.rs L101-197 (the same text in poseidon_bn128_opt.rs L123-221 and
poseidon_bls12381_opt.rs L129-226); `σ` is `pow7` or `pow5`, `h = n_rounds_f / 2`, `np = n_rounds_p` -/
def optPerm (σ : F → F) (K : Opt F) (h np : Nat) (x : Fin t → F) : Fin t → F :=
  let x := addC K.c 0 x
  let x := loop (fun r x => mulT K.m (addC K.c ((r + 1) * t) (sboxAll σ x))) (h - 1) x
  let x := mulT K.p (addC K.c ((h - 1 + 1) * t) (sboxAll σ x))
  let x := loop (partialOpt σ K h) np x
  let x := loop (fun r x => mulT K.m (addC K.c ((h + 1) * t + np + r * t) (sboxAll σ x))) (h - 1) x
  mulT K.m (sboxAll σ x)

/-- `sbox`, starky/src/poseidon_bn128.rs L83-91 -/
def sboxAt (σ : F → F) (nf np i : Nat) (x : Fin t → F) : Fin t → F :=
  if i < nf / 2 ∨ i ≥ nf / 2 + np then sboxAll σ x else fun j => if j.val = 0 then σ (x j) else x j

/-- `mix`, starky/src/poseidon_bn128.rs L93-104 -/
def mix (m : Nat → Nat → F) (x : Fin t → F) : Fin t → F := fun i => ∑ j : Fin t, m i j * x j

/-- one round of the plain form, starky/src/poseidon_bn128.rs L133-137 -/
def plainRound (σ : F → F) (c : Nat → F) (m : Nat → Nat → F) (nf np i : Nat) (x : Fin t → F) : Fin t → F :=
  mix m (sboxAt σ nf np i (addC c (i * t) x))

/-- the rounds of the plain form, starky/src/poseidon_bn128.rs L133-137 (and poseidon_bls12381.rs L133-137) -/
def plainPerm (σ : F → F) (c : Nat → F) (m : Nat → Nat → F) (nf np : Nat) (x : Fin t → F) : Fin t → F :=
  loop (plainRound σ c m nf np) (nf + np) x

/-- `pow5`, starky/src/poseidon_bn128_opt.rs L85-90 -/
def pow5 (x : F) : F := (x * x) * (x * x) * x

/-- `pow7`, starky/src/poseidon_opt.rs L68-74 -/
def pow7 (x : F) : F := (x * x * x) * (x * x * x) * x

theorem pow5_eq (x : F) : pow5 x = x ^ 5 := by unfold pow5; ring
theorem pow7_eq (x : F) : pow7 x = x ^ 7 := by unfold pow7; ring

end Verif.Poseidon
