import Verif.StarkInfo.MapSection
import Verif.Stark.Prover
import Verif.Grand.Model

/-!
# `StarkInfo::map`: where every polynomial is stored (starky/src/starkinfo_map.rs L10-242)

`none` is a panic.  `PolType.exp_id`, which is always 0 here, is left out; `map_sections` (the lists of polynomials per section) is
not read by the prover or the verifier and is left out as well.
-/
namespace Verif.Map
open Verif.Interp (Sec PolType Info)
open Verif.StarkInfo
open Verif.Codegen (Expr)
open Verif.Grand (PCtx)

/-- The part of `StarkInfo` that `map` reads, and `pil.expressions`: `imExps id` is `im_exps.contains_key(id) && im_exps[id]`. -/
structure In (E : Type) where
  exps : List (Expr E)
  nCm1 : Nat
  nCm2 : Nat
  nCm3 : Nat
  nCm4 : Nat
  pu : List PCtx
  pe : List PCtx
  ci : List PCtx
  imExps : Nat → Bool
  imList : List Nat
  cExp : Nat
  qDeg : Nat

/-- The fields that `map` fills: `var_pol_map`, `cm_n`, `cm_2ns`, `tmpexp_n`, the local map `tmpexps`, `exp2pol` (an association
list, the latest entry first) and `pil.cm_dims`. -/
structure St where
  pols : List PolType := []
  cmN : List Nat := []
  cm2ns : List Nat := []
  tmpexpN : List Nat := []
  tmpexps : List (Nat × Nat) := []
  exp2pol : List (Nat × Nat) := []
  cmDims : List Nat := []

/-- two calls of `add_pol` and the pushes to `cm_n`, `cm_2ns`, e.g. starkinfo_map.rs L27-42, with the assignment to `pil.cm_dims`
L43 at `slot` -/
def addCm (secN sec2 : Sec) (dim slot : Nat) (s : St) : Option St :=
  if slot < s.cmDims.length then
    some { s with
      pols := s.pols ++ [⟨secN, 0, dim⟩, ⟨sec2, 0, dim⟩]
      cmN := s.cmN ++ [s.pols.length]
      cm2ns := s.cm2ns ++ [s.pols.length + 1]
      cmDims := s.cmDims.set slot dim }
  else none

/-- a column for a temporary expression that is neither an intermediate polynomial nor already there, e.g. starkinfo_map.rs L75-86 -/
def addTmp {E : Type} (i : In E) (id dim : Nat) (s : St) : St :=
  if i.imExps id = false ∧ s.tmpexps.lookup id = none then
    { s with
      tmpexps := (id, s.tmpexpN.length) :: s.tmpexps
      pols := s.pols ++ [⟨.tmpexp_n, 0, dim⟩]
      tmpexpN := s.tmpexpN ++ [s.pols.length]
      exp2pol := (id, s.pols.length) :: s.exp2pol }
  else s

variable {E : Type}

/-- `get_exp_dim(pil, &pil.expressions[id])`, starkinfo_map.rs L519-541; `fuel` bounds the recursion -/
def dimOf (i : In E) (fuel : Nat) (s : St) (id : Nat) : Option Nat :=
  i.exps[id]?.bind fun e => Stark.expDim i.exps (fun k => s.cmDims[k]?) fuel e

/-- the columns of the first round, starkinfo_map.rs L26-43 -/
def stage1 (i : In E) (s : St) : Option St := (List.range i.nCm1).foldlM (fun s k => addCm .cm1_n .cm1_2ns 1 k s) s

/-- one lookup, starkinfo_map.rs L47-100 -/
def lookup1 (i : In E) (fuel : Nat) (s : St) (cn : PCtx × Nat) : Option St :=
  (dimOf i fuel s cn.1.fExp).bind fun df => (dimOf i fuel s cn.1.tExp).bind fun dt =>
  let dim := max df dt
  (addCm .cm2_n .cm2_2ns dim (i.nCm1 + cn.2 * 2) s).bind fun s =>
  (addCm .cm2_n .cm2_2ns dim (i.nCm1 + cn.2 * 2 + 1) s).map fun s =>
  addTmp i cn.1.tExp dim (addTmp i cn.1.fExp dim s)

/-- one grand product, starkinfo_map.rs L102-157 -/
def product1 (i : In E) (s : St) (cn : PCtx × Nat) : Option St :=
  (addCm .cm3_n .cm3_2ns 3 (i.nCm1 + i.nCm2 + cn.2) s).map fun s => addTmp i cn.1.den 3 (addTmp i cn.1.num 3 s)

/-- one intermediate polynomial, starkinfo_map.rs L159-174 (L172 writes the dimension to the slot of a grand product) -/
def im1 (i : In E) (fuel : Nat) (s : St) (kn : Nat × Nat) : Option St :=
  (dimOf i fuel s kn.1).bind fun dim =>
  (addCm .cm3_n .cm3_2ns dim (i.nCm1 + i.nCm2 + kn.2) s).map fun s' => { s' with exp2pol := (kn.1, s.pols.length) :: s'.exp2pol }

/-- one piece of the quotient, starkinfo_map.rs L178-198 -/
def quot1 (i : In E) (qDim : Nat) (s : St) (k : Nat) : Option St := addCm .cm4_n .cm4_2ns qDim (i.nCm1 + i.nCm2 + i.nCm3 + k) s

/-- What `map` leaves: the columns, `q_dim`, the indices of the columns of `q_2ns` and `f_2ns`, and the layout of the sections. -/
structure Out where
  st : St
  qDim : Nat
  q2ns : Nat
  f2ns : Nat
  lay : Layout

/-- the columns, starkinfo_map.rs L22-198 -/
def columns (i : In E) (fuel : Nat) : Option (St × Nat) :=
  (stage1 i { cmDims := List.replicate (i.nCm1 + i.nCm2 + i.nCm3 + i.nCm4) 0 }).bind fun s =>
  (i.pu.zipIdx.foldlM (lookup1 i fuel) s).bind fun s =>
  ((i.pu ++ i.pe ++ i.ci).zipIdx.foldlM (product1 i) s).bind fun s =>
  (i.imList.zipIdx.foldlM (im1 i fuel) s).bind fun s =>
  (dimOf i fuel s i.cExp).bind fun qDim =>
  ((List.range i.qDeg).foldlM (quot1 i qDim) s).map fun s => (s, qDim)

/-- `map`, starkinfo_map.rs L10-213: the columns and `map_section` (the offsets L214-229 are `StarkInfo.offsets`) -/
def map (i : In E) (fuel : Nat) : Option Out :=
  (columns i fuel).map fun r =>
  let pols := r.1.pols ++ [⟨.q_2ns, 0, r.2⟩, ⟨.f_2ns, 0, 3⟩]
  ⟨{ r.1 with pols := pols }, r.2, r.1.pols.length, r.1.pols.length + 1, mapSection pols⟩

/-- The part of the result that the interpreter uses: `var_pol_map` after `map_section`, `cm_n`, `cm_2ns`, `tmpexp_n`,
`map_sectionsN`, `n_constants`, `q_dim`. -/
def Out.info (o : Out) (nConst : Nat) : Info :=
  ⟨o.st.cmN, o.st.cm2ns, o.st.tmpexpN, o.lay.pols, o.lay.n, nConst, o.qDim⟩

/-- the tree of a section of the extended domain, starkinfo_map.rs L255-277 -/
def treeOf : Sec → Option Nat
  | .cm1_2ns => some 1
  | .cm2_2ns => some 2
  | .cm3_2ns => some 3
  | .cm4_2ns => some 4
  | _ => none

/-- the position of a committed column in its Merkle tree, starkinfo_map.rs L255-281: the tree, `tree_pos`, `dim` -/
def Out.pos (o : Out) (k : Nat) : Option Stark.ColPos :=
  o.st.cm2ns[k]?.bind fun p => o.lay.pols[p]?.bind fun x => (treeOf x.section_).map fun t => ⟨t, x.sectionPos, x.dim⟩

end Verif.Map
