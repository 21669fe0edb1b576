import Verif.FFT.Roots
import Verif.F3G.Props

/-!
# The FFT theorems for the field and the table the code uses

`A := Ext3.K` (the field of `F3G` values), `mg i := F::from(MG.0[i])`, `shift := F::from(SHIFT)`: the hypotheses of
`FFT.fft_spec` etc. hold for every size below `2^32`.
-/
namespace Verif.FFT
open Finset Polynomial
open Verif.GL (F)
open Verif.Ext3 (K)

/-- `F3G::from(MG.0[k])`. -/
noncomputable def mgK (k : Nat) : K := algebraMap F K (Roots.mg k)
/-- `F3G::from(*SHIFT)`. -/
noncomputable def shiftK : K := algebraMap F K Roots.shift

theorem rootsK {bits : Nat} (hb : bits ≤ 32) : Roots mgK bits := Roots.roots_mg hb

theorem two_neK : (2 : K) ≠ 0 := by
  have := (map_ne_zero (algebraMap F K)).2 Roots.two_ne
  rwa [map_ofNat] at this

/-- C16 for the code's table and field. -/
theorem fft_spec_K {k : Nat} (hk : k < 32) (roots : Nat → List K) (p : List K) (hp : p.length = 2 ^ k) :
    ∃ l roots', fft mgK roots p = some (l, roots') ∧ l.length = p.length ∧
      ∀ i < p.length, l.getD i 0 = ∑ j ∈ range p.length, p.getD j 0 * mgK k ^ (i * j) :=
  fft_spec (rootsK hk.le) hk roots p hp

/-- C17 for the code's table and field. -/
theorem ifft_fft_K {k : Nat} (hk : k < 32) (roots roots2 : Nat → List K) (p : List K) (hp : p.length = 2 ^ k) :
    ∃ q r, fft mgK roots p = some (q, r) ∧ ∃ r', ifft mgK roots2 q = some (p, r') :=
  ifft_fft (rootsK hk.le) hk two_neK roots roots2 p hp

/-- C17 for the code's table and field. -/
theorem fft_ifft_K {k : Nat} (hk : k < 32) (roots roots2 : Nat → List K) (e : List K) (he : e.length = 2 ^ k) :
    ∃ q r, ifft mgK roots e = some (q, r) ∧ ∃ r', fft mgK roots2 q = some (e, r') :=
  fft_ifft (rootsK hk.le) hk two_neK roots roots2 e he

/-- C18 for the code's table, field and shift. -/
theorem extendPol_spec_K {k b : Nat} (hk : k + b < 32) (roots : Nat → List K) (e : List K) (he : e.length = 2 ^ k)
    (P : K[X]) (hdeg : P.natDegree < e.length) (hP : ∀ i < e.length, P.eval (mgK k ^ i) = e.getD i 0) :
    ∃ l, extendPol mgK roots shiftK e b = some l ∧ l.length = e.length * 2 ^ b ∧
      ∀ i < l.length, l.getD i 0 = P.eval (shiftK * mgK (k + b) ^ i) :=
  extendPol_spec (rootsK hk.le) hk two_neK roots shiftK e he P hdeg hP

/-- non-vacuity: a polynomial meeting the hypotheses of `extendPol_spec_K` on a domain of 8 points. -/
example : ∃ l, extendPol mgK (fun _ => []) shiftK ((List.range 8).map fun i => mgK 3 ^ i * mgK 3 ^ i + 7) 2 = some l ∧
    l.length = 32 := by
  obtain ⟨l, h1, h2, -⟩ := extendPol_spec_K (k := 3) (b := 2) (by norm_num) (fun _ => [])
    ((List.range 8).map fun i => mgK 3 ^ i * mgK 3 ^ i + 7) (by simp) (X * X + C 7)
    (by
      have : (X * X + C 7 : K[X]).natDegree ≤ 2 := by compute_degree
      have e : ((List.range 8).map fun i => mgK 3 ^ i * mgK 3 ^ i + 7).length = 8 := by simp
      omega)
    (by
      intro i hi
      simp at hi
      rw [List.getD_eq_getElem?_getD, List.getElem?_map, List.getElem?_range hi]
      simp)
  exact ⟨l, h1, by simpa using h2⟩

end Verif.FFT
