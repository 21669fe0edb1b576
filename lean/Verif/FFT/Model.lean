import Mathlib.Algebra.Field.Basic
import Mathlib.Logic.Function.Basic
import Verif.Helper.Log2

/-!
# Model of the serial FFT and the polynomial helpers

`/repo/starky/src/fft.rs`, `/repo/starky/src/polutils.rs`.

The code is generic in `F: FieldExtension`; the model is generic in a field `A` (by C09-C13 the operators of
`F3G`/`F5G` are those of a field; the dimension tag is dropped). A mutable `Vec` of known length is a function
`Nat → A` of which only indices below the length are used; a panic is `none`.
-/
namespace Verif.FFT

variable {A : Type} [Field A]

/-- `polutils.rs` L5-11 `pol_mul_axi`: the loop carries `r`. -/
def polMulAxi (p : List A) (init acc : A) : List A :=
  match p with
  | [] => []
  | x :: xs => x * init :: polMulAxi xs (init * acc) acc

/-- `polutils.rs` L13-22 `eval_pol` (Horner from the last coefficient; `ZERO` for the empty slice). -/
def evalPol (p : List A) (x : A) : A :=
  match p.reverse with
  | [] => 0
  | last :: rest => rest.foldl (fun res c => res * x + c) last

/-- `polutils.rs` L40-43: the running products `tmp`. -/
def prefixProds : A → List A → List A
  | _, [] => []
  | acc, e :: es => (e * acc) :: prefixProds (e * acc) es

/-- `polutils.rs` L46-49: the backward loop, on the pairs `(elems[i], tmp[i-1])` for `i = len-1 .. 1`;
returns the results for `i = len-1 .. 1` and the final `z`. -/
def backLoop : A → List (A × A) → List A × A
  | z, [] => ([], z)
  | z, (e, t) :: rest =>
    let (rs, z') := backLoop (z * e) rest
    (z * t :: rs, z')

/-- `polutils.rs` L35-52 `batch_inverse`; `inv` is the field inverse with `0 ↦ 0` (C03, C10). -/
def batchInverse (elems : List A) : List A :=
  match elems with
  | [] => []
  | e0 :: es =>
    let tmp := e0 :: prefixProds e0 es
    let z := (tmp.getLast?.getD 0)⁻¹
    let (rs, z') := backLoop z ((es.zip tmp).reverse)
    z' :: rs.reverse

/-- `k`-bit reversal: `reverse_bits` on a `k`-bit word. -/
def revBits : Nat → Nat → Nat
  | 0, _ => 0
  | k + 1, x => (x % 2) * 2 ^ k + revBits k (x / 2)

/-- `fft.rs` L51: `(i as u32).reverse_bits() >> (32 - bits)`. -/
def revIdx (bits i : Nat) : Nat := revBits 32 (i % 2 ^ 32) >>> (32 - bits)

/-- `fft.rs` L27-30: the table of the powers of `MG.0[i]`, of length `2^i`. -/
def powersTable (w : A) : Nat → A → List A
  | 0, _ => []
  | n + 1, r => r :: powersTable w n (r * w)

/-- `fft.rs` L22-37 `set_roots(s)` on a table with 32 rows. For every `i ≤ 32` the loop condition
`i <= self.roots.len()` holds, so rows `s, s-1, .., 0` are all recomputed whatever the table contained;
`s = 32` indexes out of bounds (panic). `mg i` is `F::from(MG.0[i])`. -/
def setRoots (mg : Nat → A) (s : Nat) (roots : Nat → List A) : Option (Nat → List A) :=
  if s < 32 then some (fun i => if i ≤ s then powersTable (mg i) (2 ^ i) 1 else roots i) else none

/-- `fft.rs` L55-64, the innermost loop over `j` for one block `k`. -/
def butterflies (winc : A) (mdiv2 k : Nat) (buff : Nat → A) : Nat → A :=
  ((List.range mdiv2).foldl (fun (st : (Nat → A) × A) j =>
    let t := st.2 * st.1 (k + j + mdiv2)
    let u := st.1 (k + j)
    (Function.update (Function.update st.1 (k + j) (u + t)) (k + j + mdiv2) (u - t), st.2 * winc)) (buff, 1)).1

/-- `fft.rs` L54-65: one stage, all blocks `k = 0, m, 2m, .. < n` with `m = 2^s`. -/
def stage (winc : A) (s n : Nat) (buff : Nat → A) : Nat → A :=
  (List.range (n / 2 ^ s)).foldl (fun b q => butterflies winc (2 ^ s / 2) (q * 2 ^ s) b) buff

/-- `fft.rs` L49-53: `buff[rev(i)] = p[i]` over all `i`, starting from zeros. -/
def scatter (bits : Nat) (p : Nat → A) (n : Nat) : Nat → A :=
  (List.range n).foldl (fun b i => Function.update b (revIdx bits i) (p i)) (fun _ => 0)

/-- `fft.rs` L54-66: all stages `s = 1 ..= bits`; `roots[s][1]` is the twiddle increment. -/
def stages (roots : Nat → List A) (bits n : Nat) (buff : Nat → A) : Nat → A :=
  (List.range bits).foldl (fun b s => stage ((roots (s + 1)).getD 1 0) (s + 1) n b) buff

/-- `fft.rs` L39-68 `fft`: returns the result and the updated root table, `none` for a panic. -/
def fft (mg : Nat → A) (roots : Nat → List A) (p : List A) : Option (List A × (Nat → List A)) :=
  if p.length ≤ 1 then some (p, roots)
  else
    let bits := Helper.log2Any (p.length - 1) + 1
    (setRoots mg bits roots).bind fun roots =>
    let n := 2 ^ bits
    if p.length ≠ n then none
    else
      let buff := scatter bits (fun i => p.getD i 0) n
      some ((List.range n).map (stages roots bits n buff), roots)

/-- `fft.rs` L70-80 `ifft`. `res[0] = q[0]*n2inv` (panics on the empty input), `res[i] = q[n-i]*n2inv`. The parallel
iterator writes disjoint slots and reads only `q`. -/
def ifft (mg : Nat → A) (roots : Nat → List A) (p : List A) : Option (List A × (Nat → List A)) :=
  (fft mg roots p).bind fun (q, roots) =>
  let n := p.length
  let n2inv := (n : A)⁻¹
  if q.length = 0 then none
  else some ((List.range q.length).map fun i => if i = 0 then q.getD 0 0 * n2inv else q.getD (n - i) 0 * n2inv, roots)

/-- `polutils.rs` L25-33 `extend_pol` (`FFT::new` starts with some table `roots`; `shift` is `F::from(*SHIFT)`). -/
def extendPol (mg : Nat → A) (roots : Nat → List A) (shift : A) (p : List A) (extendBits : Nat) : Option (List A) :=
  (ifft mg roots p).bind fun (res, roots) =>
  let res := polMulAxi res 1 shift
  let nExtend := p.length * 2 ^ extendBits - p.length
  (fft mg roots (res ++ List.replicate nExtend 0)).map Prod.fst

end Verif.FFT
