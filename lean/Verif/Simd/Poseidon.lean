import Verif.Simd.FieldProps
import Verif.Simd.PosConst
import Verif.Poseidon.Gl
import Verif.Poseidon.Hash

/-!
# The vectorized Poseidon permutation over Goldilocks

`avx2_poseidon_gl.rs` and `avx512_poseidon_gl.rs` (starky/src/arch/x86_64) are the same text over `g = 1` and `g = 2` groups of four lanes; the AVX-512 form
computes two permutations at once.  What differs (the packed arithmetic, `mult_avx_72`, the transposition) is the argument `isa`.  The field type of the
inputs and outputs is `F`; `into_repr` and `from_repr` are those of C02.
-/
namespace Verif.Simd
open Verif.GL (F MODULUS)
open Verif.Poseidon (Res)

/-- the operations that the two files implement with different instructions -/
structure Isa (g : Nat) where
  add : Reg (4 * g) → Reg (4 * g) → Reg (4 * g)
  mul : Reg (4 * g) → Reg (4 * g) → Reg (4 * g)
  square : Reg (4 * g) → Reg (4 * g)
  reduce : Reg (4 * g) → Reg (4 * g) → Reg (4 * g)
  mult72 : Reg (4 * g) → Reg (4 * g) → Reg (4 * g) × Reg (4 * g)
  transpose : Reg (4 * g) → Reg (4 * g) → Reg (4 * g) → Reg (4 * g) → Fin 4 → Reg (4 * g)

/-- `mult_avx_72`, avx2_poseidon_gl.rs L280-313: (high word, low word) -/
def Avx2.mult72 (a b : Reg 4) : Reg 4 × Reg 4 :=
  let ah := srl 32 a
  let chl := mulLo32 ah b
  let cll := mulLo32 a b
  let cllh := srl 32 cll
  let r0 := add64 chl cllh
  let r0l := sll 32 r0
  (srl 32 r0, blend32 0xaa cll r0l)

/-- `mult_avx512_72`, avx512_poseidon_gl.rs L277-309 -/
def Avx512.mult72 (a b : Reg 8) : Reg 8 × Reg 8 :=
  let ah := movehdup a
  let chl := mulLo32 ah b
  let cll := mulLo32 a b
  let cllh := srl 32 cll
  let r0 := add64 chl cllh
  let r0l := moveldup r0
  (srl 32 r0, blend32 0xAAAA cll r0l)

/-- the transposition in `mmult_avx_4x12`, avx2_poseidon_gl.rs L171-191 (and L231-251) -/
def Avx2.transpose (r0 r1 r2 r3 : Reg 4) : Fin 4 → Reg 4 :=
  let t0 := permute2x128 0b00100000 r0 r2
  let t1 := permute2x128 0b00100000 r1 r3
  let t2 := permute2x128 0b00110001 r0 r2
  let t3 := permute2x128 0b00110001 r1 r3
  ![unpacklo (n := 2) t0 t1, unpackhi (n := 2) t0 t1, unpacklo (n := 2) t2 t3, unpackhi (n := 2) t2 t3]

/-- the transposition in `mmult_avx512_4x12`, avx512_poseidon_gl.rs L172-190 (and L230-248) -/
def Avx512.transpose (r0 r1 r2 r3 : Reg 8) : Fin 4 → Reg 8 :=
  let t02 := Avx512.interleave2 r0 r2
  let t13 := Avx512.interleave2 r1 r3
  ![unpacklo (n := 4) t02.1 t13.1, unpackhi (n := 4) t02.1 t13.1, unpacklo (n := 4) t02.2 t13.2, unpackhi (n := 4) t02.2 t13.2]

/-- the AVX2 implementation -/
def isaAvx2 : Isa 1 where
  add := Avx2.add
  mul := Avx2.mul
  square := Avx2.square
  reduce h l := Avx2.reduce128 (h, l)
  mult72 := Avx2.mult72
  transpose := Avx2.transpose

/-- the AVX-512 implementation -/
def isaAvx512 : Isa 2 where
  add := Avx512.add
  mul := Avx512.mul
  square := Avx512.square
  reduce h l := Avx512.reduce128 (h, l)
  mult72 := Avx512.mult72
  transpose := Avx512.transpose

variable {g : Nat}

/-- the three registers `st0`, `st1`, `st2` -/
structure St (g : Nat) where
  s0 : Reg (4 * g)
  s1 : Reg (4 * g)
  s2 : Reg (4 * g)

/-- register number `j` of `pack_slice(&tbl[o..])`, avx2_poseidon_gl.rs L63, L116, L130, L264; fields/src/packed.rs L73-84 -/
def reg (tbl : List Nat) (o j : Nat) : Reg (4 * g) := fun k => BitVec.ofNat 64 (tbl.getD (o + 4 * g * j + k) 0)

/-- `spmv_avx_4x12`, avx2_poseidon_gl.rs L56-65, avx512_poseidon_gl.rs L57-66 -/
def spmv (isa : Isa g) (st : St g) (tbl : List Nat) (o : Nat) : Reg (4 * g) :=
  isa.add (isa.add (isa.mul st.s0 (reg tbl o 0)) (isa.mul st.s1 (reg tbl o 1))) (isa.mul st.s2 (reg tbl o 2))

/-- `spmv_avx_4x12_8`, avx2_poseidon_gl.rs L257-277, avx512_poseidon_gl.rs L254-274 -/
def spmv8 (isa : Isa g) (st : St g) (tbl : List Nat) (o : Nat) : Reg (4 * g) :=
  let c0 := isa.mult72 st.s0 (reg tbl o 0)
  let c1 := isa.mult72 st.s1 (reg tbl o 1)
  let c2 := isa.mult72 st.s2 (reg tbl o 2)
  let ch := isa.add (isa.add c0.1 c1.1) c2.1
  let cl := isa.add (isa.add c0.2 c1.2) c2.2
  isa.reduce ch cl

/-- `pow7`, avx2_poseidon_gl.rs L78-84, avx512_poseidon_gl.rs L79-85 -/
def pow7V (isa : Isa g) (x : Reg (4 * g)) : Reg (4 * g) :=
  let aux := x
  let x := isa.square x
  let x := isa.mul x aux
  let x := isa.square x
  isa.mul x aux

/-- `pow7_triple`, avx2_poseidon_gl.rs L87-107, avx512_poseidon_gl.rs L88-108 (the three registers do not interact) -/
def pow7Triple (isa : Isa g) (st : St g) : St g := ⟨pow7V isa st.s0, pow7V isa st.s1, pow7V isa st.s2⟩

/-- `add_avx`, avx2_poseidon_gl.rs L110-120, avx512_poseidon_gl.rs L111-121 -/
def addAvx (isa : Isa g) (st : St g) (tbl : List Nat) (o : Nat) : St g :=
  ⟨isa.add st.s0 (reg tbl o 0), isa.add st.s1 (reg tbl o 1), isa.add st.s2 (reg tbl o 2)⟩

/-- `mult_add_avx`, avx2_poseidon_gl.rs L123-134, avx512_poseidon_gl.rs L124-135 -/
def multAdd (isa : Isa g) (st : St g) (s0 : Reg (4 * g)) (tbl : List Nat) (o : Nat) : St g :=
  ⟨isa.add st.s0 (isa.mul (reg tbl o 0) s0), isa.add st.s1 (isa.mul (reg tbl o 1) s0), isa.add st.s2 (isa.mul (reg tbl o 2) s0)⟩

/-- `mmult_avx_4x12`, avx2_poseidon_gl.rs L156-194, and `mmult_avx_4x12_8`, L216-254 (avx512_poseidon_gl.rs L157-193, L215-251); `f` is `spmv` or `spmv8` -/
def mmult4 (isa : Isa g) (f : St g → List Nat → Nat → Reg (4 * g)) (st : St g) (tbl : List Nat) (o : Nat) : Reg (4 * g) :=
  let r0 := f st tbl o
  let r1 := f st tbl (o + 12 * g)
  let r2 := f st tbl (o + 24 * g)
  let r3 := f st tbl (o + 36 * g)
  let c := isa.transpose r0 r1 r2 r3
  isa.add (isa.add (isa.add (c 0) (c 1)) (c 2)) (c 3)

/-- `mmult_avx`, avx2_poseidon_gl.rs L137-152, and `mmult_avx_8`, L197-212 (avx512_poseidon_gl.rs L138-153, L196-211) -/
def mmult (isa : Isa g) (f : St g → List Nat → Nat → Reg (4 * g)) (st : St g) (tbl : List Nat) : St g :=
  ⟨mmult4 isa f st tbl 0, mmult4 isa f st tbl (48 * g), mmult4 isa f st tbl (96 * g)⟩

/-- `into_repr`, fields/src/field_gl.rs L348-352, on the element as a residue class (C02) -/
def reprF (a : F) : U64 := BitVec.ofNat 64 a.val
/-- `from_repr`, fields/src/field_gl.rs L325-336; `none` makes the `unwrap` panic (C02) -/
def ofRepr (x : U64) : Option F := if x.toNat < MODULUS then some (x.toNat : F) else none

/-- lane `i` of group `q` -/
def ln (q : Fin g) (i : Fin 4) : Fin (4 * g) := ⟨4 * q + i, by omega⟩
/-- the group of a lane -/
def grp (k : Fin (4 * g)) : Fin g := ⟨k / 4, by omega⟩

/-- `sum`, the four lanes of a group added in the scalar field, avx2_poseidon_gl.rs L375-378, avx512_poseidon_gl.rs L395-402 -/
def laneSum (x : Reg (4 * g)) (q : Fin g) : Option F :=
  (ofRepr (x (ln q 0))).bind fun a => (ofRepr (x (ln q 1))).bind fun b => (ofRepr (x (ln q 2))).bind fun c => (ofRepr (x (ln q 3))).bind fun d =>
    some (a + b + c + d)

/-- round `r` of the partial rounds, avx2_poseidon_gl.rs L360-399, avx512_poseidon_gl.rs L357-428 -/
def partialRound (isa : Isa g) (T : Tbl) (r : Nat) (st : St g) : Option (St g) :=
  let sArr : Reg (4 * g) := fun k => if k.val % 4 = 0 then st.s0 k else 0
  let x := pow7V isa sArr
  let cArr : Reg (4 * g) := fun k => if k.val % 4 = 0 then BitVec.ofNat 64 (T.c.getD ((4 + 1) * (12 * g) + r) 0) else 0
  let x := isa.add x cArr
  let st : St g := ⟨fun k => if k.val % 4 = 0 then x k else st.s0 k, st.s1, st.s2⟩
  let tmp := spmv isa st T.s (12 * g * 2 * r)
  -- all the lane sums are computed (and unwrapped) before the state is written
  if h : ∀ q : Fin g, (laneSum tmp q).isSome then
    let s0 : Reg (4 * g) := fun k => x (ln (grp k) 0)
    let st := multAdd isa st s0 T.s (12 * g * (2 * r + 1))
    some ⟨fun k => if k.val % 4 = 0 then reprF ((laneSum tmp (grp k)).get (h _)) else st.s0 k, st.s1, st.s2⟩
  else none

/-- a counted loop whose body may panic -/
def loopM {X : Type} (f : Nat → X → Option X) : Nat → X → Option X
  | 0, x => some x
  | n + 1, x => (loopM f n x).bind (f n)

/-- the permutation, avx2_poseidon_gl.rs L350-414, avx512_poseidon_gl.rs L345-443, with `n_rounds_f = 8`, `n_rounds_p = 22` and `t = 12 g` -/
def perm (isa : Isa g) (T : Tbl) (st : St g) : Option (St g) :=
  let st := addAvx isa st T.c 0
  let st := Poseidon.loop (fun r st => mmult isa (spmv8 isa) (addAvx isa (pow7Triple isa st) T.c ((r + 1) * (12 * g))) T.m) 3 st
  let st := mmult isa (spmv isa) (addAvx isa (pow7Triple isa st) T.c (48 * g)) T.p
  (loopM (partialRound isa T) 22 st).map fun st =>
    let st := Poseidon.loop (fun r st => mmult isa (spmv8 isa) (addAvx isa (pow7Triple isa st) T.c ((4 + 1) * (12 * g) + 22 + r * (12 * g))) T.m) 3 st
    mmult isa (spmv isa) (pow7Triple isa st) T.m

/-- `pack_slice_mut` of the representations of the state, avx2_poseidon_gl.rs L339-348, avx512_poseidon_gl.rs L335-344 -/
def load (l : List F) : St g :=
  let reg (j : Nat) : Reg (4 * g) := fun k => reprF (l.getD (4 * g * j + k) 0)
  ⟨reg 0, reg 1, reg 2⟩

/-- `hash`, avx2_poseidon_gl.rs L315-422, avx512_poseidon_gl.rs L311-450: `result_vec` has the `4 g` elements of `st0`, so `result_vec[..out]` panics when `out`
is larger -/
def hashV (isa : Isa g) (T : Tbl) (inp init : List F) (out : Nat) : Res F :=
  if inp.length ≠ 8 * g then .err
  else if init.length ≠ 4 * g then .err
  else
    match perm isa T (load (inp ++ init)) with
    | none => .panic
    | some st =>
      match (List.ofFn st.s0).mapM ofRepr with
      | none => .panic
      | some l => if out ≤ l.length then .ok (l.take out) else .panic

/-- the AVX2 `Poseidon::hash` -/
def hashAvx2 (inp init : List F) (out : Nat) : Res F := hashV isaAvx2 tblAvx2 inp init out
/-- the AVX-512 `Poseidon::hash` -/
def hashAvx512 (inp init : List F) (out : Nat) : Res F := hashV isaAvx512 tblAvx512 inp init out

end Verif.Simd
