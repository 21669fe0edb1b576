import Verif.GL.Prime

/-!
# The scalar fields of BN254 and BLS12-381 are prime (Pratt certificates)
-/
namespace Verif.Poseidon
open Verif.GL (powModAux powModAux_eq)

/-- a Pratt certificate: the prime factors of `n - 1` and a generator -/
theorem pratt (n a : Nat) (fs : List Nat) (h1 : 1 < n) (hn : n < 2 ^ 256) (hfs : ∀ q ∈ fs, q.Prime) (hprod : fs.prod = n - 1)
    (hpow : powModAux n 256 a (n - 1) 1 = 1) (hne : ∀ q ∈ fs, powModAux n 256 a ((n - 1) / q) 1 ≠ 1) : n.Prime := by
  have cast : ∀ e, e < 2 ^ 256 → ((a : ZMod n)) ^ e = ((powModAux n 256 a e 1 : Nat) : ZMod n) := by
    intro e he
    rw [powModAux_eq _ _ _ _ _ he, mul_one]
    simp
  refine lucas_primality n (a : ZMod n) ?_ ?_
  · rw [cast _ (by omega), hpow, Nat.cast_one]
  · intro q hq hd hc
    rw [← hprod] at hd
    obtain ⟨q', hq', hd'⟩ := (Prime.dvd_prod_iff hq.prime).mp hd
    have : q = q' := (Nat.prime_dvd_prime_iff_eq hq (hfs q' hq')).mp hd'
    subst this
    have hlt : (n - 1) / q < 2 ^ 256 := lt_of_le_of_lt (Nat.div_le_self _ _) (by omega)
    rw [cast _ hlt] at hc
    replace hc : ((powModAux n 256 a ((n - 1) / q) 1 : Nat) : ZMod n) = ((1 : Nat) : ZMod n) := by rw [hc, Nat.cast_one]
    rw [ZMod.natCast_eq_natCast_iff', Nat.mod_eq_of_lt (a := 1) h1] at hc
    apply hne q hq'
    have hmod : powModAux n 256 a ((n - 1) / q) 1 < n := by
      rw [powModAux_eq _ _ _ _ _ hlt]; exact Nat.mod_lt _ (by omega)
    rwa [Nat.mod_eq_of_lt hmod] at hc

theorem p405928799 : Nat.Prime 405928799 :=
  pratt _ 22 [2, 11, 3691, 4999] (by norm_num) (by norm_num) (by norm_num) (by norm_num) (by decide +kernel) (by decide +kernel)
theorem p12048837557 : Nat.Prime 12048837557 :=
  pratt _ 2 [2, 2, 7, 7, 661, 93001] (by norm_num) (by norm_num) (by norm_num) (by norm_num) (by decide +kernel) (by decide +kernel)
theorem p5156902474397 : Nat.Prime 5156902474397 :=
  pratt _ 2 [2, 2, 107, 12048837557] (by norm_num) (by norm_num)
    (by intro q hq; simp only [List.mem_cons, List.not_mem_nil, or_false] at hq; rcases hq with rfl | rfl | rfl | rfl; all_goals first | exact p12048837557 | norm_num)
    (by norm_num) (by decide +kernel) (by decide +kernel)
theorem p1670836401704629 : Nat.Prime 1670836401704629 :=
  pratt _ 2 [2, 2, 3, 3, 3, 3, 5156902474397] (by norm_num) (by norm_num)
    (by intro q hq; simp only [List.mem_cons, List.not_mem_nil, or_false] at hq; rcases hq with rfl | rfl | rfl | rfl | rfl | rfl | rfl
        all_goals first | exact p5156902474397 | norm_num)
    (by norm_num) (by decide +kernel) (by decide +kernel)
theorem p639533339 : Nat.Prime 639533339 :=
  pratt _ 2 [2, 229, 853, 1637] (by norm_num) (by norm_num) (by norm_num) (by norm_num) (by decide +kernel) (by decide +kernel)
theorem p65865678001877903 : Nat.Prime 65865678001877903 :=
  pratt _ 5 [2, 83, 379, 1637, 639533339] (by norm_num) (by norm_num)
    (by intro q hq; simp only [List.mem_cons, List.not_mem_nil, or_false] at hq; rcases hq with rfl | rfl | rfl | rfl | rfl
        all_goals first | exact p639533339 | norm_num)
    (by norm_num) (by decide +kernel) (by decide +kernel)
theorem p13818364434197438864469338081 : Nat.Prime 13818364434197438864469338081 :=
  pratt _ 3 [2, 2, 2, 2, 2, 5, 823, 1593227, 65865678001877903] (by norm_num) (by norm_num)
    (by intro q hq; simp only [List.mem_cons, List.not_mem_nil, or_false] at hq; rcases hq with rfl | rfl | rfl | rfl | rfl | rfl | rfl | rfl | rfl
        all_goals first | exact p65865678001877903 | norm_num)
    (by norm_num) (by decide +kernel) (by decide +kernel)

/-- the modulus of `Fr` of BN254, starky/src/field_bn128.rs -/
def bnMod : Nat := 21888242871839275222246405745257275088548364400416034343698204186575808495617

theorem bn_prime : Nat.Prime bnMod :=
  pratt _ 5 (List.replicate 28 2 ++ [3, 3, 13, 29, 983, 11003, 237073, 405928799, 1670836401704629, 13818364434197438864469338081])
    (by decide +kernel) (by decide +kernel)
    (by intro q hq
        rw [List.mem_append, List.mem_replicate] at hq
        rcases hq with ⟨-, rfl⟩ | hq
        · exact Nat.prime_two
        simp only [List.mem_cons, List.not_mem_nil, or_false] at hq
        rcases hq with rfl | rfl | rfl | rfl | rfl | rfl | rfl | rfl | rfl | rfl
        all_goals first | exact p13818364434197438864469338081 | exact p1670836401704629 | exact p405928799 | norm_num)
    (by decide +kernel) (by decide +kernel) (by decide +kernel)

theorem p63690073 : Nat.Prime 63690073 :=
  pratt _ 7 [2, 2, 2, 3, 2653753] (by norm_num) (by norm_num) (by norm_num) (by norm_num) (by decide +kernel) (by decide +kernel)
theorem p254760293 : Nat.Prime 254760293 :=
  pratt _ 2 [2, 2, 63690073] (by norm_num) (by norm_num)
    (by intro q hq; simp only [List.mem_cons, List.not_mem_nil, or_false] at hq; rcases hq with rfl | rfl | rfl
        all_goals first | exact p63690073 | norm_num)
    (by norm_num) (by decide +kernel) (by decide +kernel)
theorem p52437899 : Nat.Prime 52437899 :=
  pratt _ 2 [2, 43, 609743] (by norm_num) (by norm_num) (by norm_num) (by norm_num) (by decide +kernel) (by decide +kernel)

/-- the modulus of `Fr` of BLS12-381, starky/src/field_bls12381.rs -/
def blsMod : Nat := 52435875175126190479447740508185965837690552500527637822603658699938581184513

theorem bls_prime : Nat.Prime blsMod :=
  pratt _ 7 (List.replicate 32 2 ++ [3, 11, 19, 10177, 125527, 859267, 906349, 906349, 2508409, 2529403, 52437899, 254760293, 254760293])
    (by decide +kernel) (by decide +kernel)
    (by intro q hq
        rw [List.mem_append, List.mem_replicate] at hq
        rcases hq with ⟨-, rfl⟩ | hq
        · exact Nat.prime_two
        simp only [List.mem_cons, List.not_mem_nil, or_false] at hq
        rcases hq with rfl | rfl | rfl | rfl | rfl | rfl | rfl | rfl | rfl | rfl | rfl | rfl | rfl
        all_goals first | exact p52437899 | exact p254760293 | norm_num)
    (by decide +kernel) (by decide +kernel) (by decide +kernel)

instance : Fact bnMod.Prime := ⟨bn_prime⟩
instance : Fact blsMod.Prime := ⟨bls_prime⟩

/-- `Fr` of BN254 -/
abbrev Bn := ZMod bnMod
/-- `Fr` of BLS12-381 -/
abbrev Bls := ZMod blsMod

end Verif.Poseidon
