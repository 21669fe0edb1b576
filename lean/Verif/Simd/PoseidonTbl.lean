import Verif.Simd.PoseidonSim

/-!
# The vector tables are a rearrangement of the scalar ones
-/
namespace Verif.Simd
open Verif.GL (F MODULUS)
open Verif.Poseidon (Opt Table at2)
open Verif.Poseidon.Gl (opt)

set_option maxRecDepth 100000

theorem fits_of_all {l : List Nat} {b : Nat} (hb : 0 < b) (h : l.all (fun x => decide (x < b)) = true) : Fits l b := by
  intro k
  by_cases hk : k < l.length
  · rw [List.getD_eq_getElem?_getD, List.getElem?_eq_getElem hk]
    exact of_decide_eq_true (List.all_eq_true.mp h _ (List.getElem_mem hk))
  · rw [List.getD_eq_getElem?_getD, List.getElem?_eq_none (by omega)]
    exact hb

/-- every index of a block of `g` groups -/
def blocks (g : Nat) (f : Nat → Nat → Nat → Bool) : Bool :=
  (List.range 3).all fun b => (List.range g).all fun q => (List.range 4).all fun i => f b q i

theorem blocks_of {g : Nat} {f : Nat → Nat → Nat → Bool} (h : blocks g f = true) (b : Fin 3) (q : Fin g) (i : Fin 4) : f b q i = true := by
  unfold blocks at h
  simp only [List.all_eq_true, List.mem_range] at h
  exact h b b.isLt q q.isLt i i.isLt

/-- the identities of `TblOk` between natural numbers, for the kernel to run -/
def tblCheck (g : Nat) (T : Tbl) (K : Table) : Bool :=
  (List.range 5).all (fun r => blocks g fun b q i => T.c.getD (r * (12 * g) + 4 * g * b + (4 * q + i)) 0 == K.flatC.getD (r * 12 + (4 * b + i)) 0) &&
  (List.range 22).all (fun r => T.c.getD ((4 + 1) * (12 * g) + r) 0 == K.flatC.getD ((4 + 1) * 12 + r) 0) &&
  (List.range 3).all (fun r => blocks g fun b q i =>
    T.c.getD ((4 + 1) * (12 * g) + 22 + r * (12 * g) + 4 * g * b + (4 * q + i)) 0 == K.flatC.getD ((4 + 1) * 12 + 22 + r * 12 + (4 * b + i)) 0) &&
  (List.range 3).all (fun b => (List.range 4).all fun j => blocks g fun b' q i =>
    T.m.getD (48 * g * b + 12 * g * j + 4 * g * b' + (4 * q + i)) 0 == at2 K.m (4 * b' + i) (4 * b + j)) &&
  (List.range 3).all (fun b => (List.range 4).all fun j => blocks g fun b' q i =>
    T.p.getD (48 * g * b + 12 * g * j + 4 * g * b' + (4 * q + i)) 0 == at2 K.p (4 * b' + i) (4 * b + j)) &&
  (List.range 22).all (fun r => blocks g fun b q i => T.s.getD (12 * g * 2 * r + 4 * g * b + (4 * q + i)) 0 == K.flatS.getD ((12 * 2 - 1) * r + (4 * b + i)) 0) &&
  (List.range 22).all (fun r => blocks g fun b q i => 4 * b + i == 0 ||
    T.s.getD (12 * g * (2 * r + 1) + 4 * g * b + (4 * q + i)) 0 == K.flatS.getD ((12 * 2 - 1) * r + 12 + (4 * b + i) - 1) 0) &&
  T.c.all (fun x => decide (x < 18446744073709551616)) && T.m.all (fun x => decide (x < 4294967296)) &&
  T.p.all (fun x => decide (x < 18446744073709551616)) && T.s.all (fun x => decide (x < 18446744073709551616))

theorem tblOk_of {g : Nat} {T : Tbl} {K : Table} (h : tblCheck g T K = true) : TblOk g T (K.opt F) := by
  unfold tblCheck at h
  simp only [Bool.and_eq_true] at h
  obtain ⟨⟨⟨⟨⟨⟨⟨⟨⟨⟨c1, c2⟩, c3⟩, m⟩, p⟩, s1⟩, s2⟩, fc⟩, fm⟩, fp⟩, fs⟩ := h
  rw [List.all_eq_true] at c1 c2 c3 m p s1 s2
  have cast {a b : Nat} (h : a = b) : (a : F) = (b : F) := by rw [h]
  constructor
  · exact fits_of_all (by norm_num) fc
  · exact fits_of_all (by norm_num) fm
  · exact fits_of_all (by norm_num) fp
  · exact fits_of_all (by norm_num) fs
  · intro r b q i
    exact cast (eq_of_beq (blocks_of (c1 r (List.mem_range.mpr r.isLt)) b q i))
  · intro r
    exact cast (eq_of_beq (c2 r (List.mem_range.mpr r.isLt)))
  · intro r b q i
    exact cast (eq_of_beq (blocks_of (c3 r (List.mem_range.mpr r.isLt)) b q i))
  · intro b j b' q i
    exact cast (eq_of_beq (blocks_of (List.all_eq_true.mp (m b (List.mem_range.mpr b.isLt)) j (List.mem_range.mpr j.isLt)) b' q i))
  · intro b j b' q i
    exact cast (eq_of_beq (blocks_of (List.all_eq_true.mp (p b (List.mem_range.mpr b.isLt)) j (List.mem_range.mpr j.isLt)) b' q i))
  · intro r b q i
    exact cast (eq_of_beq (blocks_of (s1 r (List.mem_range.mpr r.isLt)) b q i))
  · intro r b q i hne
    have h2 := blocks_of (s2 r (List.mem_range.mpr r.isLt)) b q i
    rw [Bool.or_eq_true] at h2
    rcases h2 with h2 | h2
    · exact absurd (eq_of_beq h2) hne
    · exact cast (eq_of_beq h2)

theorem tblAvx2_check : tblCheck 1 tblAvx2 opt = true := by decide +kernel
theorem tblAvx512_check : tblCheck 2 tblAvx512 opt = true := by decide +kernel

theorem tblAvx2_ok : TblOk 1 tblAvx2 (opt.opt F) := tblOk_of tblAvx2_check
theorem tblAvx512_ok : TblOk 2 tblAvx512 (opt.opt F) := tblOk_of tblAvx512_check

end Verif.Simd
