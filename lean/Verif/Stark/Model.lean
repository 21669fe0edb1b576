import Verif.FFT.Model
import Verif.FftP.Model

/-!
# Model of the helpers of the STARK prover, starky/src/stark_gen.rs

`none` is a panic.  `A` is the extension field, `mg i = F::from(MG.0[i])`.
-/
namespace Verif.Stark
open FFT

variable {A : Type} [Field A]

/-! ### `build_Zh_Inv`, stark_gen.rs L575-592 -/

/-- `for _ in 0..nBits { sn = sn * sn }`, stark_gen.rs L582-584 -/
def sqTimes : Nat → A → A
  | 0, s => s
  | n + 1, s => sqTimes n (s * s)

/-- The loop filling `ZHInv`, stark_gen.rs L587-590, with `n` entries left and the current `w`. -/
def zhLoop (sn m : A) : Nat → A → List A
  | 0, _ => []
  | n + 1, w => (sn * w - 1)⁻¹ :: zhLoop sn m n (w * m)

/-- `build_Zh_Inv(nBits, extend_bits, offset)(i)`, stark_gen.rs L575-592 -/
def zhInv (mg : Nat → A) (shift : A) (nBits extendBits offset i : Nat) : A :=
  let t := zhLoop (sqTimes nBits shift) (mg extendBits) (2 ^ extendBits) 1
  t.getD ((i + offset) % t.length) 0

/-! ### `calculate_H1H2`, stark_gen.rs L625-651 -/

/-- `idx_t`, stark_gen.rs L626-632: a map filled left to right, later entries overwriting earlier ones.  `E` is `F3G`
compared with its derived `Eq`/`Hash`: the coordinates and the dimension tag. -/
def idxT {E : Type} [DecidableEq E] (t : List E) : E → Option Nat :=
  t.zipIdx.foldl (fun m p => Function.update m p.1 (some p.2)) fun _ => none

/-- `calculate_H1H2`, stark_gen.rs L625-651; `sort_by` is a stable merge sort. -/
def h1h2 {E : Type} [DecidableEq E] (f t : List E) : Option (List E × List E) :=
  (f.mapM fun e => (idxT t e).map fun i => (e, i)).bind fun fs =>
  let s := (t.zipIdx ++ fs).mergeSort fun a b => decide (a.2 ≤ b.2)
  ((List.range f.length).mapM fun i => (s[2 * i]?).bind fun a => (s[2 * i + 1]?).map fun b => (a.1, b.1)).map List.unzip

/-! ### `calculate_Z`, stark_gen.rs L653-666 -/

/-- The running product, stark_gen.rs L659-661: the remaining `(num, den_inv)` pairs and the current `z[i-1]`; the list
of `z[i]` from the current one on, and finally `check_val`. -/
def zLoop : List (A × A) → A → List A × A
  | [], z => ([], z)
  | (n, d) :: rest, z => let r := zLoop rest (z * (n * d)); (z :: r.1, r.2)

/-- `calculate_Z`, stark_gen.rs L653-666 (empty input: `z[0]` is out of bounds). -/
def calculateZ [DecidableEq A] (num den : List A) : Option (List A) :=
  if num.length ≠ den.length then none
  else if num.length = 0 then none
  else
    let r := zLoop (num.zip (batchInverse den)) 1
    if r.2 = 1 then some r.1 else none

/-! ### Openings at `xi`, stark_gen.rs L413-464 -/

/-- The powers loop, stark_gen.rs L421-424 -/
def powList (x : A) : Nat → A → List A
  | 0, _ => []
  | n + 1, a => a :: powList x n (a * x)

/-- `LEv` (with `x = xi`) and `LpEv` (with `x = xi * w`), stark_gen.rs L413-427 -/
def lev (mg : Nat → A) (shift x : A) (nbits : Nat) : Option (List A) :=
  (ifft mg (fun _ => []) (powList (x / shift) (2 ^ nbits) 1)).map Prod.fst

/-- One opening, stark_gen.rs L446-463: `val j` is the value of the column at row `j` of the extended domain (see
`colVal`); the parallel reduction is a sum. -/
def openEval (l : List A) (val : Nat → A) (nbits extendBits : Nat) : A :=
  ((List.range (2 ^ nbits)).map fun k => val (k * 2 ^ extendBits) * l.getD k 0).foldl (· + ·) 0

/-- The value of a column at a row of a section buffer, stark_gen.rs L449-457 and `get_pol` L683-708: `emb` embeds base
cells, `dec` is `from_vec`. -/
def colVal {G : Type} [Zero G] (emb : G → A) (dec : G → G → G → A) (buffer : List G) (offset size dim row : Nat) : A :=
  if dim = 1 then emb (buffer.getD (row * size + offset) 0)
  else dec (buffer.getD (offset + row * size) 0) (buffer.getD (offset + row * size + 1) 0) (buffer.getD (offset + row * size + 2) 0)

/-! ### Splitting the quotient, stark_gen.rs L371-396 -/

/-- `qq2`, stark_gen.rs L378-391: entry `(i, p, k)` for `i < N`, `p < q_deg`, `k < q_dim`; the other entries stay zero.
`curS p` is `cur_s` in iteration `p`, i.e. `shift_inv^p`. -/
def qq2 (qq1 : FftP.Buf A) (nBits qDeg qDim : Nat) (shiftInvN : A) : FftP.Buf A := fun x =>
  let i := x / (qDim * qDeg)
  let p := x % (qDim * qDeg) / qDim
  let k := x % qDim
  if i < 2 ^ nBits then qq1 (p * 2 ^ nBits * qDim + i * qDim + k) * shiftInvN ^ p else 0

/-- stark_gen.rs L371-396: inverse transform of the `q_dim` columns of `q_2ns`, split, forward transform into `cm4_2ns`
(skipped when `q_deg = 0`).  `none` also when `q_deg * N` exceeds the extended size (out-of-bounds read of `qq1`). -/
def splitQ (mg : Nat → A) (shift : A) (workers nBits nBitsExt qDeg qDim : Nat) (q2ns qq1d cm4d : FftP.Buf A) :
    Option (FftP.Buf A) :=
  (FftP.fftGen mg workers true q2ns qDim nBitsExt qq1d).bind fun qq1 =>
  if 2 ^ nBitsExt < qDeg * 2 ^ nBits then none
  else if qDeg = 0 then some cm4d
  else FftP.fftGen mg workers false (qq2 qq1 nBits qDeg qDim (shift⁻¹ ^ 2 ^ nBits)) (qDim * qDeg) nBitsExt cm4d

/-- The verifier's recombination, starky/src/stark_verify.rs L71-76: the opened pieces and the current `x_acc`. -/
def recombine (xn : A) : List A → A → A → A
  | [], _, q => q
  | e :: es, acc, q => recombine xn es (acc * xn) (q + acc * e)

end Verif.Stark
