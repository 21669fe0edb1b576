import Verif.Stage.Pure
import Verif.Interp.Par
import Verif.Map.Model

/-!
# The second and third round of the prover on its buffers, starky/src/stark_gen.rs L292-356

The sections are the lists of cells of the prover's context (`Interp.Ctx`), the programs run with `calculate_exps_parallel`
(`Interp.calcPar`), and the polynomials are moved with `get_pol` and `set_pol`.  `none` is a panic.  Between the rounds the code extends and
merkelizes a section (L311-312, L358-359); this reads the sections of the trace domain and is modelled in `Verif.Stark.Prover`.
-/
namespace Verif.Stage
open Verif.GL (F)
open Verif.Ext3 (F3G ofF)
open Verif.Interp (Sec Info algF3)
open Verif.Grand (PCtx ArgCtx)

abbrev Ctx := Interp.Ctx F3G F

/-- `map_deg`, starkinfo_map.rs L230-242, and `Index::get`, starkinfo_codegen.rs L162-177: any other name gives `usize::MAX` -/
def mapDeg (nbits nbitsExt : Nat) : Sec → Nat
  | .cm1_n | .cm2_n | .cm3_n | .cm4_n | .tmpexp_n => 2 ^ nbits
  | .cm1_2ns | .cm2_2ns | .cm3_2ns | .cm4_2ns | .q_2ns | .f_2ns => 2 ^ nbitsExt
  | _ => 18446744073709551615

/-- one iteration of `get_pol`, stark_gen.rs L692-705: a cell as it is, or three cells, each of dimension 1, as one element -/
def getRow (dim at_ : Nat) (l : List F3G) : Option F3G :=
  if dim = 1 then l[at_]? else if dim = 3 then Interp.vec3 algF3 l at_ else none

/-- `get_pol`, stark_gen.rs L683-708, with `get_pol_ref` L668-681 (for another dimension it panics at once) -/
def getPol (s : Info) (c : Ctx) (id : Nat) : Option (List F3G) :=
  s.varPolMap[id]?.bind fun p =>
  if p.dim = 1 ∨ p.dim = 3 then
    (List.range (mapDeg c.nbits c.nbitsExt p.section_)).mapM fun i => getRow p.dim (p.sectionPos + i * s.sectionsN p.section_) (c.mem p.section_)
  else none

/-- one iteration of `set_pol`, stark_gen.rs L602-616 -/
def setRow (dim at_ : Nat) (v : F3G) (l : List F3G) : Option (List F3G) :=
  if dim = 1 then Interp.setCell l at_ v
  else if dim = 3 then
    let e := Ext3.asElements v
    if 1 < e.length then
      e[0]?.bind fun a => e[1]?.bind fun b => e[2]?.bind fun d =>
      (Interp.setCell l at_ (ofF a)).bind fun l => (Interp.setCell l (at_ + 1) (ofF b)).bind fun l => Interp.setCell l (at_ + 2) (ofF d)
    else
      e[0]?.bind fun a =>
      (Interp.setCell l at_ (ofF a)).bind fun l => (Interp.setCell l (at_ + 1) Ext3.ZERO).bind fun l => Interp.setCell l (at_ + 2) Ext3.ZERO
  else none

/-- `set_pol`, stark_gen.rs L594-620; `pol[i]` panics when the polynomial is too short -/
def setPol (s : Info) (c : Ctx) (id : Nat) (pol : List F3G) : Option Ctx :=
  s.varPolMap[id]?.bind fun p =>
  if p.dim = 1 ∨ p.dim = 3 then
    ((List.range (mapDeg c.nbits c.nbitsExt p.section_)).foldlM (fun l i => pol[i]?.bind fun v =>
      setRow p.dim (p.sectionPos + i * s.sectionsN p.section_) v l) (c.mem p.section_)).map (c.put p.section_)
  else none

/-- one lookup, stark_gen.rs L301-309; `e2p` is `exp2pol` and `n` is `n_cm` -/
def lookupStep (s : Info) (e2p : Nat → Option Nat) (cn : Ctx × Nat) (pu : PCtx) : Option (Ctx × Nat) :=
  ((e2p pu.fExp).bind (getPol s cn.1)).bind fun f => ((e2p pu.tExp).bind (getPol s cn.1)).bind fun t =>
  (calculateH1H2 f t).bind fun h =>
  (s.cmN[cn.2]?.bind fun id => setPol s cn.1 id h.1).bind fun c =>
  (s.cmN[cn.2 + 1]?.bind fun id => setPol s c id h.2).map fun c => (c, cn.2 + 2)

/-- one grand product, stark_gen.rs L329-335, L339-345, L348-354 -/
def productStep (s : Info) (e2p : Nat → Option Nat) (cn : Ctx × Nat) (ci : PCtx) : Option (Ctx × Nat) :=
  ((e2p ci.num).bind (getPol s cn.1)).bind fun num => ((e2p ci.den).bind (getPol s cn.1)).bind fun den =>
  (calculateZ num den).bind fun z =>
  (s.cmN[cn.2]?.bind fun id => setPol s cn.1 id z).map fun c => (c, cn.2 + 1)

/-- two challenges, stark_gen.rs L293-294, L319-320 -/
def setChallenges (c : Ctx) (k : Nat) (a b : F3G) : Option Ctx :=
  (Interp.setCell (c.mem .challenge) k a).bind fun l => (Interp.setCell l (k + 1) b).map (c.put .challenge)

/-- a program as the prover stores it: the instructions after `fix_prover_code` and the number of temporaries -/
structure Code where
  code : List (Interp.Instr F3G)
  tmpUsed : Nat

/-- What the two rounds use of `StarkInfo` and `Program`. -/
structure Setup where
  info : Info
  e2p : Nat → Option Nat
  cx : ArgCtx
  nCm1 : Nat
  zi : Nat → Nat → Option F3G
  workers : Nat
  step2prev : Code
  step3prev : Code
  step3 : Code

/-- the second round after the challenges have been drawn, stark_gen.rs L293-309 -/
def round2 (S : Setup) (u dv : F3G) (c : Ctx) : Option (Ctx × Nat) :=
  (setChallenges c 0 u dv).bind fun c =>
  (Interp.calcPar algF3 S.info S.zi S.step2prev.code S.step2prev.tmpUsed S.workers .step2prev c).bind fun c =>
  S.cx.pu.foldlM (lookupStep S.info S.e2p) (c, S.nCm1)

/-- the third round after the challenges have been drawn, stark_gen.rs L319-356; the three loops over lookups, permutations and connections
are one loop over their concatenation -/
def round3 (S : Setup) (ga be : F3G) (cn : Ctx × Nat) : Option Ctx :=
  (setChallenges cn.1 2 ga be).bind fun c =>
  (Interp.calcPar algF3 S.info S.zi S.step3prev.code S.step3prev.tmpUsed S.workers .step3prev c).bind fun c =>
  ((S.cx.pu ++ S.cx.pe ++ S.cx.ci).foldlM (productStep S.info S.e2p) (c, cn.2)).bind fun cn =>
  Interp.calcPar algF3 S.info S.zi S.step3.code S.step3.tmpUsed S.workers .step3 cn.1

end Verif.Stage
