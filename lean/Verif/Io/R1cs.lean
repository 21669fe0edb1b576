import Verif.Io.Witness
import Mathlib.Data.List.Sort

/-!
# R1CS files: model of algebraic/src/r1cs_file.rs

Names of templates are kept as bytes (`from_utf8_lossy` is the identity on valid UTF-8).  The unused fields of the header that only copy
bytes are kept too.
-/
namespace Verif.Io

/-- `Header`, algebraic/src/r1cs_file.rs L14-26 -/
structure Header where
  fieldSize : Nat
  prime : List Byte
  nWires : Nat
  nPubOut : Nat
  nPubIn : Nat
  nPrvIn : Nat
  nLabels : Nat
  nConstraints : Nat
  useCustomGates : Bool
deriving DecidableEq

/-- a linear combination: wire and coefficient -/
abbrev LCF := List (Nat × Nat)

/-- template name and parameters -/
structure GateDecl where
  name : List Byte
  params : List Nat
deriving DecidableEq

/-- id and signals -/
structure GateUse where
  id : Nat
  signals : List Nat
deriving DecidableEq

/-- `R1CSFile`, algebraic/src/r1cs_file.rs L28-37 (the version is always 1) -/
structure R1csFile where
  header : Header
  constraints : List (LCF × LCF × LCF)
  wireMapping : List Nat
  gates : List GateDecl
  uses : List GateUse
deriving DecidableEq

/-- the engine: modulus, and bytes of a field element (`NUM_BITS.div_ceil(8)`, 32 for BN254 and BLS12-381, 8 for Goldilocks) -/
structure Eng where
  p : Nat
  k : Nat

/-- `read_header`, algebraic/src/r1cs_file.rs L52-71 -/
def rdHeader (size : Nat) : Rd Header := do
  let fieldSize ← rdLe 4
  let prime ← rdN fieldSize
  check (size = 32 + fieldSize)
  let nWires ← rdLe 4
  let nPubOut ← rdLe 4
  let nPubIn ← rdLe 4
  let nPrvIn ← rdLe 4
  let nLabels ← rdLe 8
  let nConstraints ← rdLe 4
  return ⟨fieldSize, prime, nWires, nPubOut, nPubIn, nPrvIn, nLabels, nConstraints, false⟩

/-- `sort_by` on the key (stable) -/
def sortLC (l : LCF) : LCF := l.mergeSort fun a b => decide (a.1 ≤ b.1)

/-- the loop of `read_constraint_vec`, algebraic/src/r1cs_file.rs L79-87: the vector is sorted after every element -/
def rdTerms (e : Eng) : Nat → LCF → Rd LCF
  | 0, vec => pure vec
  | n + 1, vec => do
    let i ← rdLe 4
    let v ← rdField e.k e.p
    rdTerms e n (sortLC (vec ++ [(i, v)]))

/-- `read_constraint_vec`, algebraic/src/r1cs_file.rs L73-89 -/
def rdLC (e : Eng) : Rd LCF := do
  let n ← rdLe 4
  rdTerms e n []

/-- one constraint, algebraic/src/r1cs_file.rs L99-103 -/
def rdCon (e : Eng) : Rd (LCF × LCF × LCF) := do
  let a ← rdLC e
  let b ← rdLC e
  let c ← rdLC e
  return (a, b, c)

/-- `read_map`, algebraic/src/r1cs_file.rs L108-120; with no wire `vec[0]` panics -/
def rdMap (size nWires : Nat) : Rd (List Nat) := do
  check (size = nWires * 8)
  let vec ← rdMany (rdLe 8) nWires
  check (vec[0]? = some 0)
  return vec

/-- `read_to_string`, algebraic/src/r1cs_file.rs L122-135: up to a zero byte; at the end of the file the loop never ends -/
def rdStr : Rd (List Byte) := fun bs =>
  if (0 : Byte) ∈ bs then some (bs.takeWhile (· ≠ 0), (bs.dropWhile (· ≠ 0)).drop 1) else none

/-- one template, algebraic/src/r1cs_file.rs L145-151 -/
def rdDecl (e : Eng) : Rd GateDecl := do
  let name ← rdStr
  let n ← rdLe 4
  let params ← rdMany (rdField e.k e.p) n
  return ⟨name, params⟩

/-- `read_custom_gates_list`, algebraic/src/r1cs_file.rs L137-154 -/
def rdDecls (e : Eng) : Rd (List GateDecl) := do
  let n ← rdLe 4
  rdMany (rdDecl e) n

/-- the signals of a use, algebraic/src/r1cs_file.rs L174-180; `none` is an index out of range -/
def takeSignals : Nat → List Nat → Option (List Nat × List Nat)
  | 0, ws => some ([], ws)
  | n + 1, lsb :: msb :: ws => (takeSignals n ws).map fun q => ((msb * 0x100000000 + lsb) :: q.1, q.2)
  | _ + 1, _ => none

/-- the uses, algebraic/src/r1cs_file.rs L169-182 -/
def takeUses : Nat → List Nat → Option (List GateUse)
  | 0, _ => some []
  | n + 1, id :: ns :: ws => (takeSignals ns ws).bind fun q => (takeUses n q.2).map fun us => ⟨id, q.1⟩ :: us
  | _ + 1, _ => none

/-- `read_custom_gates_uses_list`, algebraic/src/r1cs_file.rs L156-184 -/
def rdUses (size : Nat) : Rd (List GateUse) := do
  let ws ← rdMany (rdLe 4) (size / 4)
  match ws with
  | [] => fail
  | n :: ws => fun bs => (takeUses n ws).map fun us => (us, bs)

/-- the scan of the section table, algebraic/src/r1cs_file.rs L209-216: `pos` is the position of the stream; the map gives offset and size, and a
later section of the same type replaces an earlier one.  The size is cast to `i64` to seek. -/
def scanSections (file : List Byte) : Nat → Nat → (Nat → Option (Nat × Nat)) → Option (Nat → Option (Nat × Nat))
  | 0, _, m => some m
  | n + 1, pos, m =>
    match rdLe 4 (file.drop pos) with
    | none => none
    | some (ty, bs) =>
      match rdLe 8 bs with
      | none => none
      | some (size, _) =>
        let off := pos + 12
        let m := Function.update m ty (some (off, size))
        if size < 2 ^ 63 then scanSections file n (off + size) m
        else if off + size < 2 ^ 64 then none
        else scanSections file n (off + size - 2 ^ 64) m

/-- the three accepted primes, algebraic/src/r1cs_file.rs L236-239 -/
def primeBLS : List Byte := [0x01, 0x00, 0x00, 0x00, 0xff, 0xff, 0xff, 0xff, 0xfe, 0x5b, 0xfe, 0xff, 0x02, 0xa4, 0xbd, 0x53, 0x05, 0xd8, 0xa1, 0x09, 0x08, 0xd8,
  0x39, 0x33, 0x48, 0x7d, 0x9d, 0x29, 0x53, 0xa7, 0xed, 0x73]
def primeGL : List Byte := [0x01, 0x00, 0x00, 0x00, 0xff, 0xff, 0xff, 0xff]

/-- the optional section of templates, algebraic/src/r1cs_file.rs L253-260 -/
def declsAt (e : Eng) (file : List Byte) : Option (Nat × Nat) → Option (List GateDecl)
  | some (off, _) => (rdDecls e (file.drop off)).map (·.1)
  | none => some []

/-- the optional section of uses, algebraic/src/r1cs_file.rs L262-270 -/
def usesAt (file : List Byte) : Option (Nat × Nat) → Option (List GateUse)
  | some (off, size) => (rdUses size (file.drop off)).map (·.1)
  | none => some []

/-- `from_reader`, algebraic/src/r1cs_file.rs L186-270; `none` is an error, a panic or an endless loop -/
def fromReader (e : Eng) (file : List Byte) : Option R1csFile := do
  let (magic, bs) ← rdN 4 file
  if magic ≠ [0x72, 0x31, 0x63, 0x73] then none else
  let (version, bs) ← rdLe 4 bs
  if version ≠ 1 then none else
  let (n, _) ← rdLe 4 bs
  let tbl ← scanSections file n 12 fun _ => none
  let (off, size) ← tbl 1
  let (h, _) ← rdHeader size (file.drop off)
  let h : Header := { h with useCustomGates := (tbl 5).isSome && (tbl 4).isSome }
  if ¬ (h.fieldSize = 32 ∨ h.fieldSize = 8) then none else
  if h.fieldSize ≠ e.k then none else
  if ¬ (h.prime = primeHex ∨ h.prime = primeBLS ∨ h.prime = primeGL) then none else
  let (off, _) ← tbl 2
  let (cons, _) ← rdMany (rdCon e) h.nConstraints (file.drop off)
  let (off, size) ← tbl 3
  let (map, _) ← rdMap size h.nWires (file.drop off)
  let gates ← declsAt e file (tbl 4)
  let uses ← usesAt file (tbl 5)
  return ⟨h, cons, map, gates, uses⟩

/-! ### Specification: the encoding (https://github.com/iden3/r1csfile/blob/master/doc/r1cs_bin_format.md) -/

def encHeader (h : Header) : List Byte :=
  le 4 h.fieldSize ++ (h.prime ++ (le 4 h.nWires ++ (le 4 h.nPubOut ++ (le 4 h.nPubIn ++ (le 4 h.nPrvIn ++ (le 8 h.nLabels ++ le 4 h.nConstraints))))))
def encTerm (e : Eng) (t : Nat × Nat) : List Byte := le 4 t.1 ++ le e.k t.2
def encLC (e : Eng) (l : LCF) : List Byte := le 4 l.length ++ l.flatMap (encTerm e)
def encCon (e : Eng) (c : LCF × LCF × LCF) : List Byte := encLC e c.1 ++ (encLC e c.2.1 ++ encLC e c.2.2)
def encCons (e : Eng) (cs : List (LCF × LCF × LCF)) : List Byte := cs.flatMap (encCon e)
def encMap (m : List Nat) : List Byte := m.flatMap (le 8)
def encDecl (e : Eng) (d : GateDecl) : List Byte := d.name ++ (0 :: (le 4 d.params.length ++ d.params.flatMap (le e.k)))
def encDecls (e : Eng) (ds : List GateDecl) : List Byte := le 4 ds.length ++ ds.flatMap (encDecl e)
def encUse (u : GateUse) : List Byte := le 4 u.id ++ (le 4 u.signals.length ++ u.signals.flatMap (le 8))
def encUses (us : List GateUse) : List Byte := le 4 us.length ++ us.flatMap encUse

/-- a section: type and payload -/
def encSection (s : Nat × List Byte) : List Byte := le 4 s.1 ++ (le 8 s.2.length ++ s.2)

/-- a file with the given sections -/
def encFile (secs : List (Nat × List Byte)) : List Byte :=
  [0x72, 0x31, 0x63, 0x73] ++ (le 4 1 ++ (le 4 secs.length ++ secs.flatMap encSection))

/-- well-formed linear combination -/
def LCOk (e : Eng) (l : LCF) : Prop := l.length < 2 ^ 32 ∧ ∀ t ∈ l, t.1 < 2 ^ 32 ∧ t.2 < e.p
def ConOk (e : Eng) (c : LCF × LCF × LCF) : Prop := LCOk e c.1 ∧ LCOk e c.2.1 ∧ LCOk e c.2.2
def DeclOk (e : Eng) (d : GateDecl) : Prop := (0 : Byte) ∉ d.name ∧ d.params.length < 2 ^ 32 ∧ ∀ v ∈ d.params, v < e.p
def UseOk (u : GateUse) : Prop := u.id < 2 ^ 32 ∧ u.signals.length < 2 ^ 32 ∧ ∀ s ∈ u.signals, s < 2 ^ 64

/-- a circuit that the format can represent and the parser accepts -/
structure FileOk (e : Eng) (f : R1csFile) : Prop where
  k : e.k = 8 ∨ e.k = 32
  p : e.p ≤ 256 ^ e.k
  fieldSize : f.header.fieldSize = e.k
  primeLen : f.header.prime.length = e.k
  prime : f.header.prime = primeHex ∨ f.header.prime = primeBLS ∨ f.header.prime = primeGL
  nums : f.header.nWires < 2 ^ 32 ∧ f.header.nPubOut < 2 ^ 32 ∧ f.header.nPubIn < 2 ^ 32 ∧ f.header.nPrvIn < 2 ^ 32 ∧ f.header.nLabels < 2 ^ 64
  nCons : f.header.nConstraints = f.constraints.length ∧ f.constraints.length < 2 ^ 32
  cons : ∀ c ∈ f.constraints, ConOk e c
  map : f.wireMapping.length = f.header.nWires ∧ (∀ v ∈ f.wireMapping, v < 2 ^ 64) ∧ f.wireMapping[0]? = some 0
  gates : f.gates.length < 2 ^ 32 ∧ ∀ d ∈ f.gates, DeclOk e d
  uses : f.uses.length < 2 ^ 32 ∧ ∀ u ∈ f.uses, UseOk u

/-- the last section of a type (a later one replaces an earlier one) -/
def lastOf (secs : List (Nat × List Byte)) (ty : Nat) : Option (List Byte) :=
  (secs.reverse.find? fun s => s.1 = ty).map (·.2)

/-- a linear combination sorted by wire, keeping the order of equal wires -/
def SortedFrom (l l' : LCF) : Prop :=
  l'.Perm l ∧ l'.Pairwise (fun a b => a.1 ≤ b.1) ∧ ∀ i, l'.filter (fun t => t.1 = i) = l.filter (fun t => t.1 = i)

end Verif.Io
