import Verif.FftP.Br
import Mathlib.Algebra.Field.Basic

/-!
# Model of the parallel, blocked FFT

`/repo/starky/src/fft_p.rs` L66-354, `/repo/starky/src/fft_worker.rs`.

A row-major matrix buffer (`n` rows of `np` values) is a function on flat indices, of which only those below
`n * np` are meaningful. `par_chunks_mut(c)` hands the closure disjoint sub-slices; the model computes each chunk from
the old buffer and puts it back, which is what any schedule of the disjoint writes gives. All index expressions are the
flat ones of the code. Buffers are assumed to have the lengths the callers give them (`n*np`, resp. `next*np` for
`interpolate`), so indexing does not panic; the panics kept are division by zero (no worker) and zero-sized steps or
chunks.
-/
namespace Verif.FftP

variable {A : Type} [Field A]

/-- Flat buffer. -/
abbrev Buf (A : Type) := Nat → A

/-- `buff.par_chunks_mut(c).enumerate().for_each(|(j, bb)| f(j, bb))` (rayon): chunk `j` is the sub-slice starting at
`j*c`. -/
def parChunks (c : Nat) (f : Nat → Buf A → Buf A) (b : Buf A) : Buf A :=
  fun x => f (x / c) (fun y => b (x / c * c + y)) (x % c)

/-- `fft_worker.rs` L63-68: the loop over the columns `j` for one butterfly with rows `a` and `c`. -/
def rowButterfly (np : Nat) (w : A) (a c : Nat) (buff : Buf A) : Buf A :=
  (List.range np).foldl (fun b j =>
    let t := w * b (c * np + j)
    let u := b (a * np + j)
    Function.update (Function.update b (a * np + j) (u + t)) (c * np + j) (u - t)) buff

/-- `fft_worker.rs` L62-70: the loop over `i < md2`, `w` starting at `w0` and multiplied by `winc`. -/
def blockButterflies (np : Nat) (w0 winc : A) (pos md2 : Nat) (buff : Buf A) : Buf A :=
  ((List.range md2).foldl (fun (st : Buf A × A) i =>
    (rowButterfly np st.2 (pos + i) (pos + md2 + i) st.1, st.2 * winc)) (buff, w0)).1

/-- `fft_worker.rs` L50-60: the initial twiddle. -/
def twiddle0 (mg : Nat → A) (nbits s blockbits layers startPos : Nat) : A :=
  if s > blockbits then
    let width := 2 ^ (s - layers)
    let height := 2 ^ nbits / width
    let y := startPos / height
    let x := startPos % height
    mg s ^ (x * width + y)
  else 1

/-- `fft_worker.rs` L25-71 `_fft_block`. `mg i` is `F::from(MG.0[i])`. For `blockbits = 0` the code does nothing
(`layers ≤ 1` there). -/
def fftBlockGo (mg : Nat → A) (np nbits : Nat) : (blockbits layers s relPos startPos : Nat) → Buf A → Buf A
  | 0, _, _, _, _, buff => buff
  | bb + 1, layers, s, relPos, startPos, buff =>
    let md2 := 2 ^ (bb + 1) / 2
    if layers < bb + 1 then
      fftBlockGo mg np nbits bb layers s relPos (startPos + md2)
        (fftBlockGo mg np nbits bb layers s relPos startPos buff)
    else
      let buff :=
        if layers > 1 then
          fftBlockGo mg np nbits bb (layers - 1) (s - 1) relPos (startPos + md2)
            (fftBlockGo mg np nbits bb (layers - 1) (s - 1) relPos startPos buff)
        else buff
      blockButterflies np (twiddle0 mg nbits s (bb + 1) layers startPos) (mg layers) (startPos - relPos) md2 buff

/-- `fft_worker.rs` L73-86 `fft_block`. -/
def fftBlock (mg : Nat → A) (np nbits startPos s blockbits layers : Nat) (buff : Buf A) : Buf A :=
  fftBlockGo mg np nbits blockbits layers s startPos startPos buff

/-- `fft_p.rs` L66-86 `transpose`. -/
def transpose (np nbits tbits : Nat) (dst src : Buf A) : Buf A :=
  let w := 2 ^ tbits
  let h := 2 ^ nbits / w
  (List.range w).foldl (fun b i => (List.range h).foldl (fun b j => (List.range np).foldl (fun b k =>
    Function.update b ((i * h + j) * np + k) (src ((j * w + i) * np + k))) b) b) dst

/-- `fft_p.rs` L88-106 `bit_reverse` (the table is `BRs(0, n, nbits)`, `FftP.BRs_table`). The parallel iterator
runs over all of `buffdst`, whose length is asserted to be `n * np`. -/
def bitReverse (np nbits : Nat) (dst src : Buf A) : Buf A :=
  fun x => if x < 2 ^ nbits * np then src (brCal (x / np) nbits * np + x % np) else dst x

/-- `fft_p.rs` L108-124 `interpolate_bit_reverse`: only the first `n * np` entries of `buffdst` are written. -/
def interpolateBitReverse (np nbits : Nat) (dst src : Buf A) : Buf A :=
  fun x => if x < 2 ^ nbits * np then src ((2 ^ nbits - brCal (x / np) nbits) % 2 ^ nbits * np + x % np) else dst x

/-- `fft_p.rs` L126-146 `inv_bit_reverse`. -/
def invBitReverse (np nbits : Nat) (dst src : Buf A) : Buf A :=
  fun x => if x < 2 ^ nbits * np then
    src ((2 ^ nbits - brCal (x / np) nbits) % 2 ^ nbits * np + x % np) * ((2 ^ nbits : Nat) : A)⁻¹ else dst x

/-- `fft_worker.rs` L4-22 `interpolate_prepare_block`, on a chunk of `height` rows: the loop over `i` carries `w`. -/
def prepareBlock (width : Nat) (start inc : A) (height : Nat) (buff : Buf A) : Buf A :=
  ((List.range height).foldl (fun (st : Buf A × A) i =>
    ((List.range width).foldl (fun b j => Function.update b (i * width + j) (b (i * width + j) * st.2)) st.1,
      st.2 * inc)) (buff, start)).1

/-- `constant.rs` L117 `MAX_OPS_PER_THREAD`. -/
def maxOps : Nat := 2 ^ 18
/-- `constant.rs` L116 `MIN_OPS_PER_THREAD`. -/
def minOps : Nat := 2 ^ 12

/-- `fft_p.rs` L148-162: the chunk size. -/
def perThread (workers np n : Nat) : Nat :=
  let x := (n - 1) / workers + 1
  let x := if x > maxOps / np then maxOps / np else x
  if x < minOps / np then minOps / np else x

/-- `fft_p.rs` L148-186 `interpolate_prepare` on the first `n*np` entries. `pt` is the number of rows per chunk
(`perThread`); the last chunk may be shorter. -/
def interpolatePrepare (shift : A) (pt np nbits : Nat) (buff : Buf A) : Buf A :=
  let n := 2 ^ nbits
  fun x => if x < n * np then
    parChunks (pt * np) (fun j bb =>
      prepareBlock np (((n : Nat) : A)⁻¹ * shift ^ (j * pt)) shift (min pt (n - j * pt)) bb) buff x
  else buff x

/-- `fft_p.rs` L203-213 (and L288-297, L305-314): the block size. -/
def chooseBlockBits (workers np nbits : Nat) : Nat :=
  let b := Helper.log2Any (2 ^ nbits * np / (workers * 8))
  let b := if b < 12 then 12 else b
  let b := if b > 16 then 16 else b
  min nbits b

/-- The two buffers of `_fft`/`interpolate`: the current input and output; `inIsOut` says that the current input is the
caller's buffer (`outbuff`), the other one being the temporary. -/
structure Bufs (A : Type) where
  bin : Buf A
  bout : Buf A
  inIsOut : Bool

/-- `(bin, bout) = (bout, bin)`. -/
def Bufs.swap (s : Bufs A) : Bufs A := ⟨s.bout, s.bin, !s.inIsOut⟩

/-- What the caller finds in `buffdst` at the end. -/
def Bufs.result (s : Bufs A) : Buf A := if s.inIsOut then s.bin else s.bout

/-- `fft_p.rs` L233-246, L325-336, L344-353: one pass of the layer loop at offset `i`. -/
def layer (mg : Nat → A) (np nbits blockbits i : Nat) (s : Bufs A) : Bufs A :=
  let sInc := min blockbits (nbits - i)
  let s := { s with bin := parChunks (2 ^ blockbits * np) (fun j bb =>
    fftBlock mg np nbits (j * 2 ^ blockbits) (i + sInc) blockbits sInc bb) s.bin }
  if sInc < nbits then { s with bout := transpose np nbits sInc s.bout s.bin }.swap else s

/-- `for i in (0..nbits).step_by(blockbits)`. -/
def layers (mg : Nat → A) (np nbits blockbits : Nat) (s : Bufs A) : Bufs A :=
  (List.range ((nbits + blockbits - 1) / blockbits)).foldl (fun s q => layer mg np nbits blockbits (q * blockbits) s) s

/-- `fft_p.rs` L217-223 / L299-301, L317-319: the number of transpositions of one phase. -/
def nTransposes (nbits blockbits : Nat) : Nat := if blockbits < nbits then (nbits - 1) / blockbits + 1 else 0

/-- `fft_p.rs` L188-248 `_fft`; returns the contents of `buffdst`. `none`: panic (no worker; `nbits = 0` makes
`step_by(0)`; `np = 0` makes chunks of size 0; `MG` has 33 entries). `dst0` is the previous contents of `buffdst`. -/
def fftGen (mg : Nat → A) (workers : Nat) (inverse : Bool) (src : Buf A) (np nbits : Nat) (dst0 : Buf A) :
    Option (Buf A) :=
  if workers = 0 ∨ nbits = 0 ∨ np = 0 ∨ nbits > 32 then none
  else
    let bb := chooseBlockBits workers np nbits
    let tmp : Buf A := fun _ => 0
    let s : Bufs A := if nTransposes nbits bb % 2 > 0 then ⟨dst0, tmp, true⟩ else ⟨tmp, dst0, false⟩
    let s := { s with bout := if inverse then invBitReverse np nbits s.bout src else bitReverse np nbits s.bout src }
    some (layers mg np nbits bb s.swap).result

/-- `fft_p.rs` L262-354 `interpolate` (non-empty `buffsrc`); `shift` is `F::from(*SHIFT)`. `none` also for a zero chunk
size in `interpolate_prepare` and for `nbitsext < nbits`. -/
def interpolate (mg : Nat → A) (shift : A) (workers : Nat) (src : Buf A) (np nbits : Nat) (dst0 : Buf A)
    (nbitsext : Nat) : Option (Buf A) :=
  if workers = 0 ∨ nbits = 0 ∨ np = 0 ∨ nbitsext > 32 ∨ nbitsext < nbits then none
  else if perThread workers np (2 ^ nbits) = 0 then none
  else
    let bb := chooseBlockBits workers np nbits
    let bbext := chooseBlockBits workers np nbitsext
    let nt := nTransposes nbits bb + 1 + nTransposes nbitsext bbext
    let tmp : Buf A := fun _ => 0
    let s : Bufs A := if nt % 2 > 0 then ⟨dst0, tmp, true⟩ else ⟨tmp, dst0, false⟩
    let s := { s with bout := interpolateBitReverse np nbits s.bout src }
    let s := layers mg np nbits bb s.swap
    let s := { s with bin := interpolatePrepare shift (perThread workers np (2 ^ nbits)) np nbits s.bin }
    let s := { s with bout := bitReverse np nbitsext s.bout s.bin }
    some (layers mg np nbitsext bbext s.swap).result

end Verif.FftP
