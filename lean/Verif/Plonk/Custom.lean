import Verif.Plonk.Place
import Verif.Plonk.PoseidonConst
import Verif.F3G.Lemmas
import Mathlib.Tactic.LinearCombination
import Mathlib.Algebra.BigOperators.Fin

/-!
# Custom gates of the compressor: model of recursion/src/compressor12/plonk_setup.rs L81-160 and L381-662, of the identities of
recursion/src/compressor12/compressor12_pil.rs L126-362, and what they mean

Columns 12 and above do not exist; a row is written with all its 12 columns and all its selectors, as the code does for every row of a
custom gate.
-/
set_option linter.unusedSectionVars false
namespace Verif.Plonk.Custom
open Verif.GL (F)
open Verif.Ext3 (K coord)

/-! ### The identities of the generated PIL -/

/-- the coefficients of the twelve `POSEIDON12` identities, recursion/src/compressor12/compressor12_pil.rs L173-184 -/
def mds : List (List Nat) := [
  [25, 15, 41, 16, 2, 28, 13, 13, 39, 18, 34, 20],
  [20, 17, 15, 41, 16, 2, 28, 13, 13, 39, 18, 34],
  [34, 20, 17, 15, 41, 16, 2, 28, 13, 13, 39, 18],
  [18, 34, 20, 17, 15, 41, 16, 2, 28, 13, 13, 39],
  [39, 18, 34, 20, 17, 15, 41, 16, 2, 28, 13, 13],
  [13, 39, 18, 34, 20, 17, 15, 41, 16, 2, 28, 13],
  [13, 13, 39, 18, 34, 20, 17, 15, 41, 16, 2, 28],
  [28, 13, 13, 39, 18, 34, 20, 17, 15, 41, 16, 2],
  [2, 28, 13, 13, 39, 18, 34, 20, 17, 15, 41, 16],
  [16, 2, 28, 13, 13, 39, 18, 34, 20, 17, 15, 41],
  [41, 16, 2, 28, 13, 13, 39, 18, 34, 20, 17, 15],
  [15, 41, 16, 2, 28, 13, 13, 39, 18, 34, 20, 17]]

/-- an entry of the matrix -/
def mdsAt (i j : Nat) : F := (((mds.getD i []).getD j 0 : Nat) : F)

/-- the polynomials `a{i}_1 .. a{i}_R`, recursion/src/compressor12/compressor12_pil.rs L130-170 -/
def sboxR (x : Row F) (a : Nat → F) (i : Nat) : F :=
  let t1 := a i + x.C i
  let t2 := t1 * t1
  let t4 := t2 * t2
  let t6 := t4 * t2
  let t7 := t6 * t1
  if i = 0 then t7 else x.partial_ * (t1 - t7) + t7

/-- the `POSEIDON12` identities, recursion/src/compressor12/compressor12_pil.rs L173-184 -/
def PoseidonId (x : Row F) (a a' : Nat → F) : Prop :=
  ∀ i < 12, x.poseidon * (a' i - ∑ j ∈ Finset.range 12, mdsAt i j * sboxR x a j) = 0

/-- the `CMULADD` identities, recursion/src/compressor12/compressor12_pil.rs L187-211 -/
def CMulAddId (x : Row F) (a : Nat → F) : Prop :=
  let ca0 := (a 0 + x.C 0) * x.C 9
  let ca1 := (a 1 + x.C 1) * x.C 9
  let ca2 := (a 2 + x.C 2) * x.C 9
  let ca3 := a 3 + x.C 3
  let ca4 := a 4 + x.C 4
  let ca5 := a 5 + x.C 5
  let ca6 := (a 6 + x.C 6) * x.C 10
  let ca7 := (a 7 + x.C 7) * x.C 10
  let ca8 := (a 8 + x.C 8) * x.C 10
  let ca9 := a 9
  let ca10 := a 10
  let ca11 := a 11
  let cA := (ca0 + ca1) * (ca3 + ca4)
  let cB := (ca0 + ca2) * (ca3 + ca5)
  let cC := (ca1 + ca2) * (ca4 + ca5)
  let cD := ca0 * ca3
  let cE := ca1 * ca4
  let cF := ca2 * ca5
  x.cmuladd * (ca9 - (cC + cD - cE - cF) - ca6) = 0 ∧
  x.cmuladd * (ca10 - (cA + cC - 2 * cE - cD) - ca7) = 0 ∧
  x.cmuladd * (ca11 - (cB - cD + cE) - ca8) = 0

/-- the right-hand sides `g0 .. g11`, recursion/src/compressor12/compressor12_pil.rs L215-229: coordinate `c` (0, 1, 2) of output `k` (0..3) -/
def fftG (x : Row F) (a : Nat → F) (k c : Nat) : F :=
  match k with
  | 0 => x.C 0 * a c + x.C 1 * a (3 + c) + x.C 2 * a (6 + c) + x.C 3 * a (9 + c) + x.C 6 * a c + x.C 7 * a (3 + c)
  | 1 => x.C 0 * a c - x.C 1 * a (3 + c) + x.C 4 * a (6 + c) - x.C 5 * a (9 + c) + x.C 6 * a c - x.C 7 * a (3 + c)
  | 2 => x.C 0 * a c + x.C 1 * a (3 + c) - x.C 2 * a (6 + c) - x.C 3 * a (9 + c) + x.C 6 * a (6 + c) + x.C 8 * a (9 + c)
  | _ => x.C 0 * a c - x.C 1 * a (3 + c) - x.C 4 * a (6 + c) + x.C 5 * a (9 + c) + x.C 6 * a (6 + c) - x.C 8 * a (9 + c)

/-- the `FFT4` identities, recursion/src/compressor12/compressor12_pil.rs L231-242 -/
def FftId (x : Row F) (a a' : Nat → F) : Prop := ∀ k < 4, ∀ c < 3, x.fft * (a' (3 * k + c) - fftG x a k c) = 0

/-- three coordinates -/
structure T3 where
  x0 : F
  x1 : F
  x2 : F

/-- the closure `c_mul_add`, recursion/src/compressor12/compressor12_pil.rs L249-331: `a * b + c` -/
def cMulAdd (a b c : T3) : T3 :=
  let A := (a.x0 + a.x1) * (b.x0 + b.x1)
  let B := (a.x0 + a.x2) * (b.x0 + b.x2)
  let C := (a.x1 + a.x2) * (b.x1 + b.x2)
  let D := a.x0 * b.x0
  let E := a.x1 * b.x1
  let F := a.x2 * b.x2
  ⟨C + D - E - F + c.x0, A + C - 2 * E - D + c.x1, B - D + E + c.x2⟩

/-- three consecutive columns -/
def t3 (a : Nat → F) (i : Nat) : T3 := ⟨a i, a (i + 1), a (i + 2)⟩

/-- `acc4`, recursion/src/compressor12/compressor12_pil.rs L333-348 -/
def acc4 (a a' : Nat → F) : T3 :=
  let acc1 := cMulAdd (t3 a' 0) (t3 a' 3) (t3 a 9)
  let acc2 := cMulAdd acc1 (t3 a' 3) (t3 a 6)
  let acc3 := cMulAdd acc2 (t3 a' 3) (t3 a 3)
  cMulAdd acc3 (t3 a' 3) (t3 a 0)

/-- the `EVPOL4` identities, recursion/src/compressor12/compressor12_pil.rs L353-355 -/
def EvPolId (x : Row F) (a a' : Nat → F) : Prop :=
  x.evpol * (a' 6 - (acc4 a a').x0) = 0 ∧ x.evpol * (a' 7 - (acc4 a a').x1) = 0 ∧ x.evpol * (a' 8 - (acc4 a a').x2) = 0

/-- all the gate identities of a row: recursion/src/compressor12/compressor12_pil.rs L106-355 -/
def AllGates (x : Row F) (a a' : Nat → F) : Prop :=
  x.NormalGates a ∧ PoseidonId x a a' ∧ CMulAddId x a ∧ FftId x a a' ∧ EvPolId x a a'

/-! ### The setup -/

/-- `r1cs.custom_gates[i]`: template name and parameters -/
structure Decl where
  name : String
  params : List F

/-- `r1cs.custom_gates_uses[i]` -/
structure Use where
  id : Nat
  signals : List Nat

/-- `CustomGateInfo` without the counters, recursion/src/compressor12/plonk_setup.rs L81-92 -/
structure Info where
  cMulAddId : Nat
  poseidonId : Nat
  evPolId : Nat
  fft : List (Nat × List F)

/-- the first loop of `from_r1cs`, recursion/src/compressor12/plonk_setup.rs L103-131: ids start at 0; a later declaration of the same kind replaces an earlier
one; `none` is a failed assertion or an unknown template -/
def scan (decls : List Decl) (i : Nat) (info : Info) : Option Info :=
  match decls with
  | [] => some info
  | d :: ds =>
    if d.name = "CMulAdd" then if d.params = [] then scan ds (i + 1) { info with cMulAddId := i } else none
    else if d.name = "Poseidon12" then if d.params = [] then scan ds (i + 1) { info with poseidonId := i } else none
    else if d.name = "EvPol4" then if d.params = [] then scan ds (i + 1) { info with evPolId := i } else none
    else if d.name = "FFT4" then scan ds (i + 1) { info with fft := info.fft ++ [(i, d.params)] }
    else none

/-- `CustomGateInfo::from_r1cs`, recursion/src/compressor12/plonk_setup.rs L101-131 -/
def fromR1cs (decls : List Decl) : Option Info := scan decls 0 ⟨0, 0, 0, []⟩

/-- `fft_params.get(&id)` (ids are distinct) -/
def Info.fftOf (info : Info) (id : Nat) : Option (List F) := (info.fft.find? fun e => e.1 = id).map (·.2)

/-- the rows reserved for one use, recursion/src/compressor12/plonk_setup.rs L133-148 and L185-190; `none`: panic -/
def rowsOf (info : Info) (u : Use) : Option Nat :=
  if u.id = info.cMulAddId then some 1
  else if u.id = info.poseidonId then some 31
  else if (info.fftOf u.id).isSome then some 2
  else if u.id = info.evPolId then some 2
  else none

/-- row `j` of a `Poseidon12` use, recursion/src/compressor12/plonk_setup.rs L389-428 -/
def poseidonRow (sig : List Nat) (j : Nat) : Row F :=
  { s := fun c => if c < 12 then sig.getD (j * 12 + c) 0 else 0
    C := fun c => if c < 12 then ((CPOSEIDON.getD (j * 12 + c) 0 : Nat) : F) else 0
    gate := 0
    poseidon := if j < 30 then 1 else 0
    partial_ := if j < 30 then (if 4 ≤ j ∧ j < 26 then 1 else 0) else 0
    cmuladd := 0
    evpol := 0
    fft := 0 }

/-- the row of a `CMulAdd` use, recursion/src/compressor12/plonk_setup.rs L433-466; `s` is the signal row -/
def cMulAddRow (s : Nat → Nat) : Row F :=
  { s := s
    C := fun c => if c = 9 ∨ c = 10 then 1 else 0
    gate := 0
    poseidon := 0
    partial_ := 0
    cmuladd := 1
    evpol := 0
    fft := 0 }

/-- twelve consecutive signals from `off` -/
def sigRow (sig : List Nat) (off : Nat) : Nat → Nat := fun c => if c < 12 then sig.getD (off + c) 0 else 0

/-- the constants of the first row of an `FFT4` use, recursion/src/compressor12/plonk_setup.rs L505-578; `none`: missing parameter or invalid type -/
def fftC (p : List F) : Option (Nat → F) :=
  match p[3]?, p[2]?, p[1]?, p[0]? with
  | some t, some scale, some incW, some firstW =>
    let firstW2 := firstW * firstW
    if t.val = 4 then
      some fun c => match c with
        | 0 => scale
        | 1 => scale * firstW2
        | 2 => scale * firstW
        | 3 => scale * firstW * firstW2
        | 4 => scale * firstW * incW
        | 5 => scale * firstW * firstW2 * incW
        | _ => 0
    else if t.val = 2 then
      some fun c => match c with
        | 6 => scale
        | 7 => scale * firstW
        | 8 => scale * firstW * incW
        | _ => 0
    else none
  | _, _, _, _ => none

/-- a row with only signals -/
def plainRow (s : Nat → Nat) : Row F := ⟨s, fun _ => 0, 0, 0, 0, 0, 0, 0⟩

/-- one use of a custom gate, recursion/src/compressor12/plonk_setup.rs L383-662; the state is the rows and `r`.  `none` is a panic: wrong number of signals, an
index out of range (`nUsed` rows in the signal map, `N` in the polynomials), an unknown id. -/
def placeUse (info : Info) (nUsed N : Nat) (st : (Nat → Row F) × Nat) (u : Use) : Option ((Nat → Row F) × Nat) :=
  if u.id = info.poseidonId then
    if u.signals.length = 31 * 12 ∧ st.2 + 30 < nUsed ∧ st.2 + 30 < N then
      some (fun ρ => if st.2 ≤ ρ ∧ ρ < st.2 + 31 then poseidonRow u.signals (ρ - st.2) else st.1 ρ, st.2 + 31)
    else none
  else if u.id = info.cMulAddId then
    if st.2 < N then
      if st.2 < nUsed then
        if 12 ≤ u.signals.length then
          some (Function.update st.1 st.2 (cMulAddRow (sigRow u.signals 0)), st.2 + 1)
        else none
      else some (Function.update st.1 st.2 (cMulAddRow (st.1 st.2).s), st.2 + 1)
    else none
  else match info.fftOf u.id with
    | some p =>
      if 24 ≤ u.signals.length ∧ st.2 + 1 < nUsed ∧ st.2 + 1 < N then
        (fftC p).map fun C => (Function.update (Function.update st.1 st.2 { plainRow (sigRow u.signals 0) with C := C, fft := 1 })
          (st.2 + 1) (plainRow (sigRow u.signals 12)), st.2 + 2)
      else none
    | none =>
      if u.id = info.evPolId then
        if 21 ≤ u.signals.length ∧ st.2 + 1 < nUsed ∧ st.2 + 1 < N then
          some (Function.update (Function.update st.1 st.2 { plainRow (sigRow u.signals 0) with evpol := 1 })
            (st.2 + 1) (plainRow fun c => if c < 9 then u.signals.getD (12 + c) 0 else 0), st.2 + 2)
        else none
      else none

/-- all uses -/
def placeUses (info : Info) (nUsed N : Nat) (st : (Nat → Row F) × Nat) (us : List Use) : Option ((Nat → Row F) × Nat) :=
  us.foldlM (placeUse info nUsed N) st

/-! ### Specification: what a custom gate means -/

/-- one round of Poseidon on 12 elements: add the round constants `c`, raise to the seventh power every element (full round) or the first one only
(partial round), multiply by the MDS matrix -/
def posRound (full : Bool) (c : Nat → F) (x : Nat → F) (i : Nat) : F :=
  ∑ j ∈ Finset.range 12, mdsAt i j * (if full ∨ j = 0 then (x j + c j) ^ 7 else x j + c j)

/-- an element of the cubic extension from three consecutive values -/
noncomputable def e3 (y : Nat → F) (i : Nat) : K := coord (y i) (y (i + 1)) (y (i + 2))

/-- the template of a declared gate -/
inductive Kind where
  | cMulAdd
  | poseidon12
  | evPol4
  | fft4 (params : List F)

/-- the number of signals of a template -/
def Kind.arity : Kind → Nat
  | .cMulAdd => 12
  | .poseidon12 => 372
  | .evPol4 => 21
  | .fft4 _ => 24

/-- rows that a use occupies -/
def Kind.rows : Kind → Nat
  | .cMulAdd => 1
  | .poseidon12 => 31
  | .evPol4 => 2
  | .fft4 _ => 2

/-- the template named by a declaration -/
def Decl.kind (d : Decl) : Option Kind :=
  if d.name = "CMulAdd" then some .cMulAdd
  else if d.name = "Poseidon12" then some .poseidon12
  else if d.name = "EvPol4" then some .evPol4
  else if d.name = "FFT4" then some (.fft4 d.params)
  else none

/-- **The relation that a template imposes** on the values `y 0, y 1, ..` of its signals:
* `CMulAdd`: `y9..11 = y0..2 * y3..5 + y6..8` in the cubic extension;
* `EvPol4`: `y18..20` is the value at `y15..17` of the polynomial with coefficients `y0..2, y3..5, y6..8, y9..11, y12..14`;
* `FFT4`: the two-stage (type 4) or one-stage (type 2) scaled butterfly of the four elements `y0..11` is `y12..23`;
* `Poseidon12`: the 31 states `y0..11, y12..23, ..` are the successive Poseidon states (4 full, 22 partial, 4 full rounds). -/
noncomputable def Kind.Sat : Kind → (Nat → F) → Prop
  | .cMulAdd, y => e3 y 9 = e3 y 0 * e3 y 3 + e3 y 6
  | .evPol4, y => e3 y 18 = e3 y 0 + e3 y 3 * e3 y 15 + e3 y 6 * e3 y 15 ^ 2 + e3 y 9 * e3 y 15 ^ 3 + e3 y 12 * e3 y 15 ^ 4
  | .fft4 p, y =>
    let w : K := algebraMap F K (p.getD 0 0)
    let i : K := algebraMap F K (p.getD 1 0)
    let s : K := algebraMap F K (p.getD 2 0)
    let a0 := e3 y 0
    let a1 := e3 y 3
    let a2 := e3 y 6
    let a3 := e3 y 9
    if (p.getD 3 0).val = 4 then
      let b0 := a0 + w ^ 2 * a1
      let b1 := a0 - w ^ 2 * a1
      let b2 := a2 + w ^ 2 * a3
      let b3 := a2 - w ^ 2 * a3
      e3 y 12 = s * (b0 + w * b2) ∧ e3 y 15 = s * (b1 + w * i * b3) ∧ e3 y 18 = s * (b0 - w * b2) ∧ e3 y 21 = s * (b1 - w * i * b3)
    else
      e3 y 12 = s * (a0 + w * a1) ∧ e3 y 15 = s * (a0 - w * a1) ∧ e3 y 18 = s * (a2 + w * i * a3) ∧ e3 y 21 = s * (a2 - w * i * a3)
  | .poseidon12, y => ∀ j < 30, ∀ i < 12, y ((j + 1) * 12 + i) =
      posRound (decide (j < 4 ∨ 26 ≤ j)) (fun k => ((CPOSEIDON.getD (j * 12 + k) 0 : Nat) : F)) (fun k => y (j * 12 + k)) i

/-! ### The identities mean the relations -/

/-- the value in the extension -/
noncomputable def T3.val (a : T3) : K := coord a.x0 a.x1 a.x2

theorem coord_add (a b c x y z : F) : coord a b c + coord x y z = coord (a + x) (b + y) (c + z) := by
  simp only [coord, map_add]; ring

theorem coord_sub (a b c x y z : F) : coord a b c - coord x y z = coord (a - x) (b - y) (c - z) := by
  simp only [coord, map_sub]; ring

theorem coord_smul (k a b c : F) : algebraMap F K k * coord a b c = coord (k * a) (k * b) (k * c) := by
  simp only [coord, map_mul]; ring

theorem cMulAdd_val (a b c : T3) : (cMulAdd a b c).val = a.val * b.val + c.val := by
  unfold T3.val cMulAdd
  rw [Verif.Ext3.coord_mul, coord_add]
  congr 1 <;> ring

theorem coord_eq (a b c x y z : F) : coord a b c = coord x y z ↔ a = x ∧ b = y ∧ c = z :=
  ⟨Verif.Ext3.coord_inj, fun ⟨h1, h2, h3⟩ => by rw [h1, h2, h3]⟩

/-- `CMULADD` on its row -/
theorem cMulAddId_iff (s : Nat → Nat) (a : Nat → F) : CMulAddId (cMulAddRow s) a ↔ Kind.Sat .cMulAdd a := by
  have h1 : CMulAddId (cMulAddRow s) a ↔ (t3 a 9).val = (cMulAdd (t3 a 0) (t3 a 3) (t3 a 6)).val := by
    unfold T3.val
    rw [coord_eq]
    simp only [CMulAddId, cMulAddRow, cMulAdd, t3]
    norm_num
    refine and_congr ?_ (and_congr ?_ ?_) <;> constructor <;> intro h <;> linear_combination h
  rw [h1, cMulAdd_val]
  exact Iff.rfl

/-- `EVPOL4` -/
theorem evPolId_iff (x : Row F) (hx : x.evpol = 1) (a a' : Nat → F) :
    EvPolId x a a' ↔ e3 a' 6 = e3 a 0 + e3 a 3 * e3 a' 3 + e3 a 6 * e3 a' 3 ^ 2 + e3 a 9 * e3 a' 3 ^ 3 + e3 a' 0 * e3 a' 3 ^ 4 := by
  have h1 : EvPolId x a a' ↔ (t3 a' 6).val = (acc4 a a').val := by
    unfold EvPolId T3.val
    rw [hx, coord_eq]
    simp only [t3, one_mul, sub_eq_zero]
  rw [h1]
  simp only [acc4, cMulAdd_val]
  show e3 a' 6 = (((e3 a' 0 * e3 a' 3 + e3 a 9) * e3 a' 3 + e3 a 6) * e3 a' 3 + e3 a 3) * e3 a' 3 + e3 a 0 ↔ _
  constructor <;> intro h <;> rw [h] <;> ring

/-- the `FFT4` identities, as four equations in the extension -/
theorem fftId_iff (x : Row F) (hx : x.fft = 1) (a a' : Nat → F) :
    FftId x a a' ↔ ∀ k < 4, e3 a' (3 * k) = coord (fftG x a k 0) (fftG x a k 1) (fftG x a k 2) := by
  unfold FftId e3
  refine forall_congr' fun k => imp_congr_right fun _ => ?_
  rw [coord_eq, hx]
  simp only [one_mul, sub_eq_zero]
  constructor
  · intro h
    exact ⟨h 0 (by omega), h 1 (by omega), h 2 (by omega)⟩
  · rintro ⟨h0, h1, h2⟩ c hc
    rcases (by omega : c = 0 ∨ c = 1 ∨ c = 2) with rfl | rfl | rfl
    exacts [h0, h1, h2]

theorem fft_sat (p : List F) (C : Nat → F) (hC : fftC p = some C) (x : Row F) (hxC : x.C = C) (hx : x.fft = 1) (a a' : Nat → F)
    (y : Nat → F) (hy : ∀ c < 12, y c = a c) (hy' : ∀ c < 12, y (12 + c) = a' c) : FftId x a a' ↔ Kind.Sat (.fft4 p) y := by
  rw [fftId_iff x hx]
  have e : ∀ i, i + 2 < 12 → e3 y i = e3 a i := fun i hi => by unfold e3; rw [hy _ (by omega), hy _ (by omega), hy _ (by omega)]
  have e' : ∀ i, i + 2 < 12 → e3 y (12 + i) = e3 a' i := fun i hi => by
    unfold e3; rw [hy' _ (by omega), add_assoc, hy' _ (by omega), add_assoc, hy' _ (by omega)]
  have f0 := e' 0 (by omega)
  have f1 := e' 3 (by omega)
  have f2 := e' 6 (by omega)
  have f3 := e' 9 (by omega)
  simp only [Nat.reduceAdd] at f0 f1 f2 f3
  unfold fftC at hC
  split at hC
  · rename_i t scale incW firstW ht hs hi hw
    have g0 : p.getD 0 0 = firstW := by rw [List.getD_eq_getElem?_getD, hw]; rfl
    have g1 : p.getD 1 0 = incW := by rw [List.getD_eq_getElem?_getD, hi]; rfl
    have g2 : p.getD 2 0 = scale := by rw [List.getD_eq_getElem?_getD, hs]; rfl
    have g3 : p.getD 3 0 = t := by rw [List.getD_eq_getElem?_getD, ht]; rfl
    simp only [Kind.Sat, g0, g1, g2, g3, f0, f1, f2, f3, e 0 (by omega), e 3 (by omega), e 6 (by omega), e 9 (by omega)]
    have four : ∀ P : Nat → Prop, (∀ k < 4, P k) ↔ P 0 ∧ P 1 ∧ P 2 ∧ P 3 := fun P =>
      ⟨fun h => ⟨h 0 (by omega), h 1 (by omega), h 2 (by omega), h 3 (by omega)⟩, fun ⟨h0, h1, h2, h3⟩ k hk => by
        rcases (by omega : k = 0 ∨ k = 1 ∨ k = 2 ∨ k = 3) with rfl | rfl | rfl | rfl
        exacts [h0, h1, h2, h3]⟩
    rw [four]
    simp only [← map_mul, ← map_pow]
    split at hC
    · rename_i h4
      rw [if_pos h4]
      simp only [Option.some.injEq] at hC
      rw [← hC] at hxC
      simp only [e3, coord_smul, coord_add, coord_sub, coord_eq, fftG, hxC]
      simp only [Nat.reduceAdd, Nat.reduceMul, Nat.zero_add]
      refine and_congr (and_congr ?_ (and_congr ?_ ?_)) (and_congr (and_congr ?_ (and_congr ?_ ?_)) (and_congr (and_congr ?_ (and_congr ?_ ?_)) (and_congr ?_ (and_congr ?_ ?_)))) <;>
        constructor <;> intro h <;> linear_combination h
    · rename_i h4
      split at hC
      · rw [if_neg h4]
        simp only [Option.some.injEq] at hC
        rw [← hC] at hxC
        simp only [e3, coord_smul, coord_add, coord_sub, coord_eq, fftG, hxC]
        simp only [Nat.reduceAdd, Nat.reduceMul, Nat.zero_add]
        refine and_congr (and_congr ?_ (and_congr ?_ ?_)) (and_congr (and_congr ?_ (and_congr ?_ ?_)) (and_congr (and_congr ?_ (and_congr ?_ ?_)) (and_congr ?_ (and_congr ?_ ?_)))) <;>
          constructor <;> intro h <;> linear_combination h
      · simp at hC
  · simp at hC

/-- `POSEIDON12` on row `j` of a use -/
theorem poseidonId_iff (sig : List Nat) (j : Nat) (hj : j < 30) (a a' : Nat → F) :
    PoseidonId (poseidonRow sig j) a a' ↔ ∀ i < 12, a' i =
      posRound (decide (j < 4 ∨ 26 ≤ j)) (fun k => ((CPOSEIDON.getD (j * 12 + k) 0 : Nat) : F)) a i := by
  unfold PoseidonId
  refine forall_congr' fun i => imp_congr_right fun _ => ?_
  have hp : (poseidonRow sig j).poseidon = 1 := by simp [poseidonRow, hj]
  rw [hp, one_mul, sub_eq_zero]
  have : ∑ k ∈ Finset.range 12, mdsAt i k * sboxR (poseidonRow sig j) a k =
      posRound (decide (j < 4 ∨ 26 ≤ j)) (fun k => ((CPOSEIDON.getD (j * 12 + k) 0 : Nat) : F)) a i := by
    unfold posRound
    refine Finset.sum_congr rfl fun k hk => ?_
    have hk' : k < 12 := Finset.mem_range.mp hk
    congr 1
    have hC : (poseidonRow sig j).C k = ((CPOSEIDON.getD (j * 12 + k) 0 : Nat) : F) := by simp [poseidonRow, hk']
    simp only [sboxR, hC]
    by_cases h0 : k = 0
    · rw [if_pos h0, if_pos (Or.inr h0)]; ring
    · rw [if_neg h0]
      by_cases hf : j < 4 ∨ 26 ≤ j
      · have : (poseidonRow sig j).partial_ = 0 := by
          simp only [poseidonRow, if_pos hj]
          rw [if_neg (by omega)]
        rw [this, if_pos (Or.inl (by simpa using hf))]; ring
      · have : (poseidonRow sig j).partial_ = 1 := by
          simp only [poseidonRow, if_pos hj]
          rw [if_pos (by omega)]
        rw [this, if_neg (by simp [hf, h0])]; ring
  rw [this]

end Verif.Plonk.Custom
