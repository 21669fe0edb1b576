import Verif.Stark.FriExpr
import Verif.FFT.Roots

/-!
# Model of the lookup, permutation and connection arguments of the setup

`generate_step2` (starky/src/starkinfo.rs) and `generate_step3` (starky/src/starkinfo_Z.rs): for every plookup, permutation and
connection identity of the PIL the setup appends expressions, identities and committed columns.

Simplifications: the metadata `deg`, `idQ`, `keep`, `line`, `fileName` and the counter `nQ` are dropped (they do not influence the
value of an expression), the code generated for the new expressions (`pil_code_gen`, `build_code`) is not produced here (its
correctness is the subject of `Verif.Codegen`).
-/
namespace Verif.Grand
open Codegen Stark

variable {A : Type}

/-- `PlookupIdentity` / `PermutationIdentity`, starky/src/types.rs L107-128: lists of expression numbers and optional selectors (`None`
for `f` or `t` panics in the code; the vectors are taken to be present) -/
structure LookupId where
  f : List Nat
  t : List Nat
  selF : Option Nat := none
  selT : Option Nat := none

/-- `ConnectionIdentity`, starky/src/types.rs L131-138 -/
structure ConnId where
  pols : List Nat
  conns : List Nat

/-- the part of `PIL` that the generation reads and extends, starky/src/types.rs L142-160: `expressions`, `polIdentities`,
`nCommitments` -/
structure PilSt (A : Type) where
  exps : List (Expr A)
  ids : List Nat
  nCm : Nat

/-- `PCCTX`, starky/src/starkinfo.rs L15-25 -/
structure PCtx where
  fExp : Nat := 0
  tExp : Nat := 0
  h1 : Nat := 0
  h2 : Nat := 0
  z : Nat := 0
  c1 : Nat := 0
  c2 : Nat := 0
  num : Nat := 0
  den : Nat := 0

/-- `E::exp`, expressionops.rs L24-28 -/
def eExp (i : Nat) (next : Bool := false) : Expr A := .node { op := .exp, id := some i, next := next } []
/-- `E::cm`, expressionops.rs L30-34 -/
def eCm (i : Nat) (next : Bool := false) : Expr A := .node { op := .cm, id := some i, next := next } []
/-- `E::number`, expressionops.rs L60-62 (the string is the decimal form of the element) -/
def eNum (v : A) : Expr A := .node { op := .number, value := some v } []
/-- `E::x`, expressionops.rs L80-82 -/
def eX : Expr A := .node { op := .x } []

/-- `u`, `defVal`, `gamma`, `beta` of `CHALLENGE_MAP`, starky/src/constant.rs L37-48 -/
def eU : Expr A := eChallenge 0
def eDef : Expr A := eChallenge 1
def eGamma : Expr A := eChallenge 2
def eBeta : Expr A := eChallenge 3

/-- the combination of the table columns, starky/src/starkinfo.rs L336-344, starkinfo_Z.rs L39-49 -/
def lcT (ts : List Nat) : Expr A := ts.foldl (fun acc j => if isNop acc then eExp j else eAdd (eMul eU acc) (eExp j)) eNop

/-- the combination of the looked-up columns, starky/src/starkinfo.rs L358-366, starkinfo_Z.rs L66-74 -/
def lcF (fs : List Nat) : Expr A := fs.foldl (fun acc j => if isNop acc then eExp j else eAdd (eMul acc eU) (eExp j)) eNop

/-- `(e - d) * sel + d`, starky/src/starkinfo.rs L346-352 and L367-374, starkinfo_Z.rs L51-57 and L76-82 -/
def select (e d : Expr A) : Option Nat → Expr A
  | none => e
  | some s => eAdd (eMul (eSub e d) (eExp s)) d

/-- one plookup identity in `generate_step2`, starky/src/starkinfo.rs L332-399 -/
def step2One (st : PilSt A) (pi : LookupId) : PilSt A × PCtx :=
  let tId := st.exps.length
  let tE := select (lcT pi.t) eDef pi.selT
  let fE := select (lcF pi.f) (eExp tId) pi.selF
  (⟨st.exps ++ [tE, fE], st.ids, st.nCm + 2⟩, { fExp := tId + 1, tExp := tId, h1 := st.nCm, h2 := st.nCm + 1 })

/-- a loop that threads the state and collects the contexts -/
def runAll {X Y : Type} (one : PilSt A → X → Option (PilSt A × Y)) : PilSt A → List X → Option (PilSt A × List Y)
  | st, [] => some (st, [])
  | st, x :: xs => (one st x).bind fun r => (runAll one r.1 xs).map fun s => (s.1, r.2 :: s.2)

/-- one permutation identity in `generate_permutation_LC`, starky/src/starkinfo_Z.rs L38-102; panics on an empty side -/
def permLCOne (st : PilSt A) (pi : LookupId) : Option (PilSt A × PCtx) :=
  let tE := select (lcT pi.t) eDef pi.selT
  let fE := select (lcF pi.f) eDef pi.selF
  if isNop tE || isNop fE then none
  else some (⟨st.exps ++ [tE, fE], st.ids, st.nCm⟩, { fExp := st.exps.length + 1, tExp := st.exps.length })

variable [One A]

/-- `L1 * (Z - 1)`, starky/src/starkinfo_Z.rs L131-133, L225-227, L384-386 -/
def zStart (l1 z : Nat) : Expr A := eMul (eCol .const_ l1) (eSub (eCm z) (eNum 1))

/-- `Z' * den - Z * num`, starky/src/starkinfo_Z.rs L182-185, L261-264, L400-403 -/
def zStep (z num den : Nat) : Expr A := eSub (eMul (eCm z true) (eExp den)) (eMul (eCm z) (eExp num))

/-- the plookup numerator, starky/src/starkinfo_Z.rs L147-156 -/
def lookupNum (f t : Nat) : Expr A :=
  eMul (eMul (eAdd (eExp f) eGamma)
    (eAdd (eAdd (eExp t) (eMul (eExp t true) eBeta)) (eMul eGamma (eAdd (eNum 1) eBeta)))) (eAdd (eNum 1) eBeta)

/-- the plookup denominator, starky/src/starkinfo_Z.rs L165-174 -/
def lookupDen (h1 h2 : Nat) : Expr A :=
  eMul (eAdd (eAdd (eCm h1) (eMul (eCm h2) eBeta)) (eMul eGamma (eAdd (eNum 1) eBeta)))
    (eAdd (eAdd (eCm h2) (eMul (eCm h1 true) eBeta)) (eMul eGamma (eAdd (eNum 1) eBeta)))

/-- one plookup identity in `generate_plookup_Z`, starky/src/starkinfo_Z.rs L113-197; panics when the reference to `L1` is missing -/
def plookupZOne (l1 : Option Nat) (st : PilSt A) (c : PCtx) : Option (PilSt A × PCtx) :=
  l1.map fun l =>
  let n := st.exps.length
  let z := st.nCm
  (⟨st.exps ++ [zStart l z, lookupNum c.fExp c.tExp, lookupDen c.h1 c.h2, zStep z (n + 1) (n + 2)], st.ids ++ [n, n + 3], st.nCm + 1⟩,
    { c with z := z, c1 := n, num := n + 1, den := n + 2, c2 := n + 3 })

/-- one permutation identity in `generate_permutation_Z`, starky/src/starkinfo_Z.rs L213-279 -/
def permZOne (l1 : Option Nat) (st : PilSt A) (c : PCtx) : Option (PilSt A × PCtx) :=
  l1.map fun l =>
  let n := st.exps.length
  let z := st.nCm
  (⟨st.exps ++ [zStart l z, eAdd (eExp c.fExp) eBeta, eAdd (eExp c.tExp) eBeta, zStep z (n + 1) (n + 2)], st.ids ++ [n, n + 3], st.nCm + 1⟩,
    { c with z := z, c1 := n, num := n + 1, den := n + 2, c2 := n + 3 })

/-- `f + beta * label + gamma`, starky/src/starkinfo_Z.rs L311-320, L353-362 -/
def connFactor (f : Nat) (label : Expr A) : Expr A := eAdd (eAdd (eExp f) (eMul eBeta label)) eGamma

/-- the loop over the columns of a connection, starky/src/starkinfo_Z.rs L336-376: `num`, `den` are the numbers of the current products,
`ks` the remaining multipliers; panics when `connections` is shorter than `pols` -/
def connLoop (exps : List (Expr A)) (num den : Nat) : List Nat → List Nat → List A → Option (List (Expr A) × Nat × Nat)
  | [], _, _ => some (exps, num, den)
  | p :: ps, c :: cs, k :: ks =>
    let nE := eMul (eExp num) (eAdd (eAdd (eExp p) (eMul (eMul eBeta (eNum k)) eX)) eGamma)
    let dE := eMul (eExp den) (connFactor p (eExp c))
    connLoop (exps ++ [nE, dE]) exps.length (exps.length + 1) ps cs ks
  | _ :: _, _, _ => none

/-- one connection identity in `generate_connections_Z`, starky/src/starkinfo_Z.rs L295-421; `emb` reads the decimal form of a Goldilocks
element; `get_ks(pols.len() - 1)` panics for a single column -/
def connZOne (emb : GL.F → A) (l1 : Option Nat) (st : PilSt A) (ci : ConnId) : Option (PilSt A × PCtx) :=
  match ci.pols, ci.conns with
  | p :: ps, c :: cs =>
    (Roots.getKs ps.length).bind fun ks =>
    (connLoop (st.exps ++ [connFactor p eX, connFactor p (eExp c)]) st.exps.length (st.exps.length + 1) ps cs (ks.map emb)).bind fun r =>
    l1.map fun l =>
    let n := r.1.length
    let z := st.nCm
    (⟨r.1 ++ [zStart l z, zStep z r.2.1 r.2.2], st.ids ++ [n, n + 1], st.nCm + 1⟩,
      { z := z, c1 := n, num := r.2.1, den := r.2.2, c2 := n + 1 })
  | _, _ => none

/-- the identities of the PIL, starky/src/types.rs L152-154 (missing permutation and connection identities are empty lists) -/
structure Args where
  plookups : List LookupId
  permutations : List LookupId
  connections : List ConnId

/-- the contexts `pu_ctx`, `pe_ctx`, `ci_ctx` of `StarkInfo` -/
structure ArgCtx where
  pu : List PCtx
  pe : List PCtx
  ci : List PCtx

/-- `generate_step2` followed by `generate_step3`, starky/src/starkinfo.rs L237-241, L324-408, starkinfo_Z.rs L12-31 -/
def genArgs (emb : GL.F → A) (l1 : Option Nat) (st : PilSt A) (a : Args) : Option (PilSt A × ArgCtx) :=
  (runAll (fun s p => some (step2One s p)) st a.plookups).bind fun r2 =>
  (runAll permLCOne r2.1 a.permutations).bind fun rl =>
  (runAll (plookupZOne l1) rl.1 r2.2).bind fun rp =>
  (runAll (permZOne l1) rp.1 rl.2).bind fun re =>
  (runAll (connZOne emb l1) re.1 a.connections).map fun rc => (rc.1, ⟨rp.2, re.2, rc.2⟩)

end Verif.Grand
