import Verif.Stark.Prover
import Verif.FftP.Props
import Mathlib.LinearAlgebra.Lagrange

/-!
# The columns of the prover are polynomials
-/
set_option linter.unusedSectionVars false

namespace Verif.Stark
open Fri FFT Codegen Codegen.Spec Polynomial Finset
open Verif.GL (F)
open Verif.Ext3 (K coord ξ)

theorem natDegree_lt_of_degree {A : Type} [Field A] {P : A[X]} {n : Nat} (hn : 0 < n) (h : P.degree < n) : P.natDegree < n := by
  by_cases hP : P = 0
  · simpa [hP] using hn
  · exact (natDegree_lt_iff_degree_lt hP).2 h

theorem exists_interp {A : Type} [Field A] {N : Nat} (hN : 0 < N) {w : A} (hw : IsPrimitiveRoot w N) (v : Nat → A) :
    ∃ P : A[X], P.natDegree < N ∧ ∀ i < N, P.eval (w ^ i) = v i := by
  have hinj : Set.InjOn (fun i : Nat => w ^ i) (range N : Finset Nat) := by
    intro i hi j hj h
    exact hw.pow_inj (by simpa using hi) (by simpa using hj) h
  refine ⟨Lagrange.interpolate (range N) (fun i => w ^ i) v, ?_, fun i hi => ?_⟩
  · refine natDegree_lt_of_degree hN ?_
    have := Lagrange.degree_interpolate_lt v hinj
    simpa using this
  · exact Lagrange.eval_interpolate_at_node v hinj (by simpa using hi)

theorem rootsF {bits : Nat} (hb : bits ≤ 32) : Roots Roots.mg bits := Roots.roots_mg (A := F) hb

theorem two_neF : (2 : F) ≠ 0 := fun h => two_neK (by
  have := congrArg (algebraMap F K) h
  rwa [map_ofNat, map_zero] at this)

/-- parameters for which `interpolate` is the low degree extension whatever the result buffer held before (C20) -/
structure SizeOk (workers nb ext width : Nat) : Prop where
  w0 : 0 < workers
  w1 : workers ≤ 512
  nb0 : 0 < nb
  nb1 : nb + ext ≤ 32
  width1 : width ≤ 2 ^ 18
  size : 2 ^ (nb + ext) * width < 2 ^ 35

/-- `extendSec` succeeds, and every column of its result is the low degree extension of the column of the source -/
theorem sec_poly {workers nb ext width : Nat} (H : SizeOk workers nb ext width) (src dst : FftP.Buf F) :
    ∃ out, extendSec workers nb ext width src dst = some out ∧ ∃ P : Nat → F[X], ∀ k < width, (P k).natDegree < 2 ^ nb ∧
      (∀ i < 2 ^ nb, (P k).eval (Roots.mg nb ^ i) = src (i * width + k)) ∧
      ∀ r < 2 ^ (nb + ext), out (r * width + k) = (P k).eval (Roots.shift * Roots.mg (nb + ext) ^ r) := by
  unfold extendSec
  by_cases hz : width = 0
  · rw [if_pos hz]; exact ⟨dst, rfl, fun _ => 0, fun k hk => by omega⟩
  rw [if_neg hz]
  have hpr := (rootsF (bits := nb) (by have := H.nb1; omega)).primitive two_neF
  obtain ⟨out, h1, h2⟩ := FftP.interpolate_spec (rootsF H.nb1) two_neF H.nb1 H.nb0 Roots.shift H.w0 (Nat.pos_of_ne_zero hz) H.width1 src dst
  refine ⟨out, h1, ?_⟩
  have hex : ∀ k : Nat, ∃ P : F[X], P.natDegree < 2 ^ nb ∧ ∀ i < 2 ^ nb, P.eval (Roots.mg nb ^ i) = src (i * width + k) :=
    fun k => exists_interp (by positivity) hpr fun i => src (i * width + k)
  choose P hP using hex
  refine ⟨P, fun k hk => ⟨(hP k).1, (hP k).2, ?_⟩⟩
  refine h2 k hk (fun hodd => ?_) (P k) (hP k).1 (hP k).2
  have := FftP.nTransposes_even H.nb1 (Nat.pos_of_ne_zero hz) H.w0 H.w1 H.size
  omega

/-- the polynomial over `K` of a column of dimension 1 or 3, from the polynomials of its cells -/
noncomputable def colPoly (P : Nat → F[X]) (off dim : Nat) : K[X] :=
  if dim = 1 then (P off).map (algebraMap F K)
  else (P off).map (algebraMap F K) + (P (off + 1)).map (algebraMap F K) * C ξ + (P (off + 2)).map (algebraMap F K) * C (ξ ^ 2)

theorem colPoly_deg {P : Nat → F[X]} {off dim width N : Nat} (h : ∀ k < width, (P k).natDegree < N) (hd : dim = 1 ∨ dim = 3)
    (ho : off + dim ≤ width) : (colPoly P off dim).natDegree < N := by
  unfold colPoly
  have hm : ∀ k < width, ((P k).map (algebraMap F K)).natDegree < N := fun k hk => lt_of_le_of_lt natDegree_map_le (h k hk)
  rcases hd with rfl | rfl
  · rw [if_pos rfl]; exact hm _ (by omega)
  · rw [if_neg (by omega)]
    have hc : ∀ k < width, ∀ c : K, ((P k).map (algebraMap F K) * C c).natDegree < N := fun k hk c =>
      lt_of_le_of_lt (natDegree_mul_C_le _ _) (hm k hk)
    refine lt_of_le_of_lt (natDegree_add_le _ _) (max_lt (lt_of_le_of_lt (natDegree_add_le _ _) (max_lt ?_ ?_)) ?_)
    · exact hm _ (by omega)
    · exact hc _ (by omega) _
    · exact hc _ (by omega) _

theorem colPoly_eval (P : Nat → F[X]) (off : Nat) {dim : Nat} (x : F) : (colPoly P off dim).eval (algebraMap F K x) =
    if dim = 1 then algebraMap F K ((P off).eval x) else coord ((P off).eval x) ((P (off + 1)).eval x) ((P (off + 2)).eval x) := by
  unfold colPoly
  split
  · rw [eval_map_algebraMap, aeval_algebraMap_apply, coe_aeval_eq_eval]
  · simp only [eval_add, eval_mul, eval_C, eval_map_algebraMap, aeval_algebraMap_apply, coe_aeval_eq_eval, coord]

theorem cellsOf_getD (b : FftP.Buf F) {width h i : Nat} (hi : i < width * h) : (cellsOf b width h).getD i 0 = b i := by
  unfold cellsOf
  rw [List.getD_eq_getElem?_getD, List.getElem?_map, List.getElem?_range hi]; rfl

theorem cell_lt {width h r k : Nat} (hr : r < h) (hk : k < width) : r * width + k < width * h := by
  have : (r + 1) * width ≤ h * width := Nat.mul_le_mul_right _ hr
  rw [Nat.mul_comm width h]; linarith [Nat.add_mul r 1 width]

/-- reading a column out of a buffer whose cells are evaluations of polynomials -/
theorem colVal_eval {b : FftP.Buf F} {P : Nat → F[X]} {width h off dim : Nat} {pt : Nat → F}
    (hP : ∀ k < width, ∀ r < h, b (r * width + k) = (P k).eval (pt r)) (hd : dim = 1 ∨ dim = 3) (ho : off + dim ≤ width) {r : Nat} (hr : r < h) :
    colVal (algebraMap F K) coord (cellsOf b width h) off width dim r = (colPoly P off dim).eval (algebraMap F K (pt r)) := by
  have hc : ∀ k < width, (cellsOf b width h).getD (r * width + k) 0 = (P k).eval (pt r) := fun k hk => by
    rw [cellsOf_getD _ (cell_lt hr hk), hP k hk r hr]
  rw [colPoly_eval]
  unfold colVal
  rcases hd with rfl | rfl
  · rw [if_pos rfl, if_pos rfl, hc _ (by omega)]
  · rw [if_neg (by omega), if_neg (by omega), Nat.add_comm off (r * width), hc _ (by omega), Nat.add_assoc, hc _ (by omega),
      Nat.add_assoc, hc _ (by omega)]

theorem drop_take_getElem? {α : Type} (l : List α) (a w k : Nat) (hk : k < w) : ((l.drop a).take w)[k]? = l[a + k]? := by
  rw [List.getElem?_take, if_pos hk, List.getElem?_drop]

/-- the verifier reads from an opened row what the prover reads from the buffer -/
theorem extractVal_row {cells : List F} {width h off dim : Nat} (hl : cells.length = width * h) (hd : dim = 1 ∨ dim = 3) (ho : off + dim ≤ width)
    {r : Nat} (hr : r < h) : extractVal ⟨algebraMap F K, coord⟩ ((cells.drop (r * width)).take width) off dim =
      some (colVal (algebraMap F K) coord cells off width dim r) := by
  have hg : ∀ k < width, ((cells.drop (r * width)).take width)[k]? = some (cells.getD (r * width + k) 0) := fun k hk => by
    rw [drop_take_getElem? _ _ _ _ hk, List.getD_eq_getElem?_getD]
    have : r * width + k < cells.length := by rw [hl]; exact cell_lt hr hk
    rw [List.getElem?_eq_getElem this]; rfl
  unfold extractVal colVal
  rcases hd with rfl | rfl
  · rw [if_pos rfl, if_pos rfl, hg _ (by omega)]; rfl
  · rw [if_neg (by omega), if_pos rfl, if_neg (by omega), hg _ (by omega), hg _ (by omega), hg _ (by omega)]
    simp only [Option.bind_some, Option.map_some, ← Nat.add_assoc, Nat.add_comm off (r * width)]

end Verif.Stark
