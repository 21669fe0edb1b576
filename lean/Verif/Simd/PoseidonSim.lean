import Verif.Simd.Poseidon

/-!
# The vectorized permutation simulates the scalar one in every group of lanes
-/
namespace Verif.Simd
open Verif.GL (F MODULUS)
open Verif.Poseidon (Opt optPerm addC sboxAll mulT partialOpt pow7 loop Res)

/-- the field element of a lane -/
def val (x : U64) : F := (x.toNat : F)
/-- a lane below the modulus -/
def Canon (x : U64) : Prop := x.toNat < 18446744069414584321

theorem cast_mod (n : Nat) : ((n % 18446744069414584321 : Nat) : F) = (n : F) := ZMod.natCast_mod n MODULUS

theorem ofRepr_canon {x : U64} (h : Canon x) : ofRepr x = some (val x) := if_pos h

theorem val_reprF (a : F) : val (reprF a) = a := by
  have h : a.val < 18446744069414584321 := ZMod.val_lt a
  unfold val reprF
  rw [BitVec.toNat_ofNat, Nat.mod_eq_of_lt (by simp only [Nat.reducePow]; omega)]
  exact ZMod.natCast_zmod_val a

theorem val_ofNat {n : Nat} (h : n < 18446744073709551616) : val (BitVec.ofNat 64 n) = (n : F) := by
  unfold val
  rw [BitVec.toNat_ofNat, Nat.mod_eq_of_lt (by simpa using h)]

/-- what the operations of an instruction set compute -/
structure Isa.Lawful {g : Nat} (isa : Isa g) : Prop where
  add : ∀ x y k, (isa.add x y k).toNat = ((x k).toNat + (y k).toNat) % 18446744069414584321
  mul : ∀ x y k, (isa.mul x y k).toNat = (x k).toNat * (y k).toNat % 18446744069414584321
  square : ∀ x k, (isa.square x k).toNat = (x k).toNat * (x k).toNat % 18446744069414584321
  reduce : ∀ h l k, (isa.reduce h l k).toNat = ((h k).toNat * 18446744073709551616 + (l k).toNat) % 18446744069414584321
  mult72 : ∀ a b k, (b k).toNat < 4294967296 →
    ((isa.mult72 a b).1 k).toNat * 18446744073709551616 + ((isa.mult72 a b).2 k).toNat = (a k).toNat * (b k).toNat
  transpose : ∀ (r : Fin 4 → Reg (4 * g)) (q : Fin g) (i j : Fin 4), isa.transpose (r 0) (r 1) (r 2) (r 3) i (ln q j) = r j (ln q i)

theorem bits4 (k : Fin 4) : Nat.testBit 0xaa (2 * k) = false ∧ Nat.testBit 0xaa (2 * k + 1) = true := by revert k; decide
theorem bits8 (k : Fin 8) : Nat.testBit 0xAAAA (2 * k) = false ∧ Nat.testBit 0xAAAA (2 * k + 1) = true := by revert k; decide

theorem lawful2 : isaAvx2.Lawful where
  add := Avx2.add_toNat
  mul := Avx2.mul_toNat
  square := Avx2.square_toNat
  reduce h l k := by
    show (Avx2.reduce128 (h, l) k).toNat = _
    rw [Avx2.reduce128_toNat]; rfl
  mult72 a b k hb := by
    have m0 : Nat.testBit 0xaa (2 * k) = false := bits4 k |>.1
    have m1 : Nat.testBit 0xaa (2 * k + 1) = true := bits4 k |>.2
    have ha := toNat_lt (a k)
    obtain ⟨hm, b1, b2, b3, b4⟩ := schoolbook (toNat_lt (a k)) (toNat_lt (b k)) rfl rfl rfl rfl
    show ((Avx2.mult72 a b).1 k).toNat * _ + ((Avx2.mult72 a b).2 k).toNat = _
    simp only [Avx2.mult72]
    rw [blend_low 0xaa _ _ k m1 m0]
    have hb0 : (b k).toNat / 4294967296 = 0 := by omega
    have e : (a k).toNat / 4294967296 % 4294967296 = (a k).toNat / 4294967296 := by omega
    simp only [add64_toNat, srl_toNat, sll_toNat, mulLo32_toNat, Nat.reducePow, e]
    rw [hb0, Nat.mul_zero, Nat.mul_zero] at hm
    rw [hm]
    omega
  transpose r q i j := by
    have hq : q = 0 := Subsingleton.elim _ _
    subst hq
    fin_cases i <;> fin_cases j <;> rfl

theorem lawful512 : isaAvx512.Lawful where
  add := Avx512.add_toNat
  mul := Avx512.mul_toNat
  square := Avx512.square_toNat
  reduce h l k := by
    show (Avx512.reduce128 (h, l) k).toNat = _
    rw [Avx512.reduce128_toNat]; rfl
  mult72 a b k hb := by
    have m0 : Nat.testBit 0xAAAA (2 * k) = false := bits8 k |>.1
    have m1 : Nat.testBit 0xAAAA (2 * k + 1) = true := bits8 k |>.2
    have ha := toNat_lt (a k)
    obtain ⟨hm, b1, b2, b3, b4⟩ := schoolbook (toNat_lt (a k)) (toNat_lt (b k)) rfl rfl rfl rfl
    show ((Avx512.mult72 a b).1 k).toNat * _ + ((Avx512.mult72 a b).2 k).toNat = _
    simp only [Avx512.mult72]
    rw [blend_low 0xAAAA _ _ k m1 m0, moveldup_hi]
    have hb0 : (b k).toNat / 4294967296 = 0 := by omega
    simp only [add64_toNat, srl_toNat, mulLo32_toNat, movehdup_lo, Nat.reducePow]
    rw [hb0, Nat.mul_zero, Nat.mul_zero] at hm
    rw [hm]
    omega
  transpose r q i j := by
    fin_cases q <;> fin_cases i <;> fin_cases j <;> rfl

variable {g : Nat} {isa : Isa g}

theorem Isa.Lawful.add_val (h : isa.Lawful) (x y : Reg (4 * g)) (k) : val (isa.add x y k) = val (x k) + val (y k) := by
  unfold val; rw [h.add, cast_mod, Nat.cast_add]
theorem Isa.Lawful.add_canon (h : isa.Lawful) (x y : Reg (4 * g)) (k) : Canon (isa.add x y k) := by
  unfold Canon; rw [h.add]; exact Nat.mod_lt _ (by norm_num)
theorem Isa.Lawful.mul_val (h : isa.Lawful) (x y : Reg (4 * g)) (k) : val (isa.mul x y k) = val (x k) * val (y k) := by
  unfold val; rw [h.mul, cast_mod, Nat.cast_mul]
theorem Isa.Lawful.square_val (h : isa.Lawful) (x : Reg (4 * g)) (k) : val (isa.square x k) = val (x k) * val (x k) := by
  unfold val; rw [h.square, cast_mod, Nat.cast_mul]
theorem Isa.Lawful.pow7_val (h : isa.Lawful) (x : Reg (4 * g)) (k) : val (pow7V isa x k) = pow7 (val (x k)) := by
  unfold pow7V pow7
  rw [h.mul_val, h.square_val, h.mul_val, h.square_val]

/-- register `b` of the state -/
def St.at (st : St g) (b : Fin 3) : Reg (4 * g) := ![st.s0, st.s1, st.s2] b
/-- position `4 b + i` of a state of twelve elements -/
def idx (b : Fin 3) (i : Fin 4) : Fin 12 := ⟨4 * b + i, by omega⟩
/-- the state of twelve field elements in group `q` -/
def sv (st : St g) (q : Fin g) : Fin 12 → F := fun m => val (st.at ⟨m / 4, by omega⟩ (ln q ⟨m % 4, by omega⟩))

theorem sv_idx (st : St g) (q : Fin g) (b : Fin 3) (i : Fin 4) : sv st q (idx b i) = val (st.at b (ln q i)) := by
  have h1 : (⟨(idx b i).val / 4, by omega⟩ : Fin 3) = b := by apply Fin.ext; simp only [idx]; omega
  have h2 : (⟨(idx b i).val % 4, by omega⟩ : Fin 4) = i := by apply Fin.ext; simp only [idx]; omega
  unfold sv
  rw [h1, h2]

theorem ext12 {f f' : Fin 12 → F} (h : ∀ b i, f (idx b i) = f' (idx b i)) : f = f' := by
  funext m
  have : m = idx ⟨m / 4, by omega⟩ ⟨m % 4, by omega⟩ := by apply Fin.ext; simp only [idx]; omega
  rw [this]; exact h _ _

theorem sum12 (f : Fin 12 → F) : ∑ m, f m = ∑ b : Fin 3, ∑ i : Fin 4, f (idx b i) := by
  rw [← Equiv.sum_comp (finProdFinEquiv : Fin 3 × Fin 4 ≃ Fin 12) f, Fintype.sum_prod_type]
  refine Finset.sum_congr rfl fun b _ => Finset.sum_congr rfl fun i _ => ?_
  congr 1
  apply Fin.ext
  simp [idx, finProdFinEquiv, Nat.add_comm]

/-- entry `k` of a table as a field element -/
def tv (tbl : List Nat) (k : Nat) : F := ((tbl.getD k 0 : Nat) : F)
/-- every entry fits in a lane -/
def Fits (tbl : List Nat) (bound : Nat) : Prop := ∀ k, tbl.getD k 0 < bound

theorem reg_val {tbl : List Nat} (hf : Fits tbl 18446744073709551616) (o : Nat) (b : Fin 3) (q : Fin g) (i : Fin 4) :
    val (reg (g := g) tbl o b (ln q i)) = tv tbl (o + 4 * g * b + (4 * q + i)) := val_ofNat (hf _)

theorem sv_pow7 (h : isa.Lawful) (st : St g) (q : Fin g) : sv (pow7Triple isa st) q = sboxAll pow7 (sv st q) := by
  apply ext12
  intro b i
  show _ = pow7 (sv st q (idx b i))
  rw [sv_idx, sv_idx, ← h.pow7_val]
  fin_cases b <;> rfl

theorem sv_add (h : isa.Lawful) (st : St g) {tbl : List Nat} (hf : Fits tbl 18446744073709551616) (o : Nat) (q : Fin g) (b : Fin 3) (i : Fin 4) :
    sv (addAvx isa st tbl o) q (idx b i) = sv st q (idx b i) + tv tbl (o + 4 * g * b + (4 * q + i)) := by
  rw [sv_idx, sv_idx, ← reg_val hf, ← h.add_val]
  fin_cases b <;> rfl

theorem spmv_val (h : isa.Lawful) (st : St g) {tbl : List Nat} (hf : Fits tbl 18446744073709551616) (o : Nat) (q : Fin g) (i : Fin 4) :
    val (spmv isa st tbl o (ln q i)) = ∑ b : Fin 3, sv st q (idx b i) * tv tbl (o + 4 * g * b + (4 * q + i)) := by
  rw [Fin.sum_univ_three]
  simp only [sv_idx]
  rw [← reg_val hf o 0, ← reg_val hf o 1, ← reg_val hf o 2, ← h.mul_val, ← h.mul_val, ← h.mul_val, ← h.add_val, ← h.add_val]
  rfl

theorem spmv_canon (h : isa.Lawful) (st : St g) (tbl : List Nat) (o : Nat) (k) : Canon (spmv isa st tbl o k) := h.add_canon _ _ _

theorem spmv8_val (h : isa.Lawful) (st : St g) {tbl : List Nat} (hf : Fits tbl 4294967296) (o : Nat) (q : Fin g) (i : Fin 4) :
    val (spmv8 isa st tbl o (ln q i)) = ∑ b : Fin 3, sv st q (idx b i) * tv tbl (o + 4 * g * b + (4 * q + i)) := by
  have hf' : Fits tbl 18446744073709551616 := fun k => lt_trans (hf k) (by norm_num)
  have key : ∀ (b : Fin 3) (a : Reg (4 * g)),
      val ((isa.mult72 a (reg tbl o b)).1 (ln q i)) * ((18446744073709551616 : Nat) : F) + val ((isa.mult72 a (reg tbl o b)).2 (ln q i)) =
        val (a (ln q i)) * tv tbl (o + 4 * g * b + (4 * q + i)) := by
    intro b a
    have hb : (reg (g := g) tbl o b (ln q i)).toNat < 4294967296 := by
      have := hf (o + 4 * g * b + (4 * q + i))
      show (BitVec.ofNat 64 _).toNat < _
      rw [BitVec.toNat_ofNat]
      exact lt_of_le_of_lt (Nat.mod_le _ _) this
    rw [← reg_val hf' o b]
    unfold val
    rw [← Nat.cast_mul, ← Nat.cast_mul, ← Nat.cast_add, h.mult72 _ _ _ hb]
  have hr : ∀ (x y : Reg (4 * g)) (k), val (isa.reduce x y k) = val (x k) * ((18446744073709551616 : Nat) : F) + val (y k) := by
    intro x y k
    unfold val
    rw [h.reduce, cast_mod, Nat.cast_add, Nat.cast_mul]
  rw [Fin.sum_univ_three]
  simp only [sv_idx]
  show val (isa.reduce _ _ (ln q i)) = _
  rw [hr]
  simp only [h.add_val]
  have k0 := key 0 (st.at 0)
  have k1 := key 1 (st.at 1)
  have k2 := key 2 (st.at 2)
  have e0 : (reg (g := g) tbl o ((0 : Fin 3) : Nat)) = reg tbl o 0 := rfl
  have e1 : (reg (g := g) tbl o ((1 : Fin 3) : Nat)) = reg tbl o 1 := rfl
  have e2 : (reg (g := g) tbl o ((2 : Fin 3) : Nat)) = reg tbl o 2 := rfl
  rw [← k0, ← k1, ← k2, e0, e1, e2]
  show (val ((isa.mult72 (st.at 0) (reg tbl o 0)).1 (ln q i)) + val ((isa.mult72 (st.at 1) (reg tbl o 1)).1 (ln q i)) +
      val ((isa.mult72 (st.at 2) (reg tbl o 2)).1 (ln q i))) * _ + (val ((isa.mult72 (st.at 0) (reg tbl o 0)).2 (ln q i)) +
      val ((isa.mult72 (st.at 1) (reg tbl o 1)).2 (ln q i)) + val ((isa.mult72 (st.at 2) (reg tbl o 2)).2 (ln q i))) = _
  ring

/-- the matrix of a table: entry `[m'][m]` of the scalar code -/
def MatOk (g : Nat) (tbl : List Nat) (M : Nat → Nat → F) : Prop :=
  ∀ (b : Fin 3) (j : Fin 4) (b' : Fin 3) (q : Fin g) (i : Fin 4), tv tbl (48 * g * b + 12 * g * j + 4 * g * b' + (4 * q + i)) = M (4 * b' + i) (4 * b + j)

theorem sv_mmult (h : isa.Lawful) (st : St g) (tbl : List Nat) (f : St g → List Nat → Nat → Reg (4 * g)) (M : Nat → Nat → F) (hM : MatOk g tbl M)
    (hf : ∀ (o : Nat) (q : Fin g) (i : Fin 4), val (f st tbl o (ln q i)) = ∑ b : Fin 3, sv st q (idx b i) * tv tbl (o + 4 * g * b + (4 * q + i))) (q : Fin g) :
    sv (mmult isa f st tbl) q = mulT M (sv st q) := by
  apply ext12
  intro b j
  have h4 : ∀ o, val (mmult4 isa f st tbl o (ln q j)) = ∑ i : Fin 4, val (f st tbl (o + 12 * g * j) (ln q i)) := by
    intro o
    have ht := fun i => h.transpose ![f st tbl o, f st tbl (o + 12 * g), f st tbl (o + 24 * g), f st tbl (o + 36 * g)] q i j
    have hr : (![f st tbl o, f st tbl (o + 12 * g), f st tbl (o + 24 * g), f st tbl (o + 36 * g)] : Fin 4 → Reg (4 * g)) j = f st tbl (o + 12 * g * j) := by
      fin_cases j
      · show f st tbl o = f st tbl (o + 12 * g * 0); rfl
      · show f st tbl (o + 12 * g) = f st tbl (o + 12 * g * 1); congr 1; ring
      · show f st tbl (o + 24 * g) = f st tbl (o + 12 * g * 2); congr 1; ring
      · show f st tbl (o + 36 * g) = f st tbl (o + 12 * g * 3); congr 1; ring
    rw [hr] at ht
    show val (isa.add (isa.add (isa.add _ _) _) _ (ln q j)) = _
    rw [h.add_val, h.add_val, h.add_val, Fin.sum_univ_four, ← ht 0, ← ht 1, ← ht 2, ← ht 3]
    rfl
  have hb : sv (mmult isa f st tbl) q (idx b j) = ∑ i : Fin 4, val (f st tbl (48 * g * b + 12 * g * j) (ln q i)) := by
    rw [sv_idx, ← h4]
    fin_cases b
    · show val (mmult4 isa f st tbl 0 (ln q j)) = val (mmult4 isa f st tbl (48 * g * 0) (ln q j)); rfl
    · show val (mmult4 isa f st tbl (48 * g) (ln q j)) = val (mmult4 isa f st tbl (48 * g * 1) (ln q j)); rw [Nat.mul_one]
    · show val (mmult4 isa f st tbl (96 * g) (ln q j)) = val (mmult4 isa f st tbl (48 * g * 2) (ln q j))
      congr 2; ring
  rw [hb]
  show _ = ∑ m : Fin 12, M m (idx b j) * sv st q m
  rw [sum12, Finset.sum_comm]
  refine Finset.sum_congr rfl fun i _ => ?_
  rw [hf]
  refine Finset.sum_congr rfl fun b' _ => ?_
  rw [hM b j b' q i, mul_comm]
  rfl

/-- **What the vector tables must satisfy** to carry the tables `K` of the scalar code: the blocks of `C` (once per group), the constants of the
partial rounds, the two matrices transposed, and the rows of `S` padded to blocks of twelve. -/
structure TblOk (g : Nat) (T : Tbl) (K : Opt F) : Prop where
  fc : Fits T.c 18446744073709551616
  fm : Fits T.m 4294967296
  fp : Fits T.p 18446744073709551616
  fs : Fits T.s 18446744073709551616
  cF : ∀ (r : Fin 5) (b : Fin 3) (q : Fin g) (i : Fin 4), tv T.c (r * (12 * g) + 4 * g * b + (4 * q + i)) = K.c (r * 12 + (4 * b + i))
  cP : ∀ r : Fin 22, tv T.c ((4 + 1) * (12 * g) + r) = K.c ((4 + 1) * 12 + r)
  cL : ∀ (r : Fin 3) (b : Fin 3) (q : Fin g) (i : Fin 4),
    tv T.c ((4 + 1) * (12 * g) + 22 + r * (12 * g) + 4 * g * b + (4 * q + i)) = K.c ((4 + 1) * 12 + 22 + r * 12 + (4 * b + i))
  m : MatOk g T.m K.m
  p : MatOk g T.p K.p
  s1 : ∀ (r : Fin 22) (b : Fin 3) (q : Fin g) (i : Fin 4), tv T.s (12 * g * 2 * r + 4 * g * b + (4 * q + i)) = K.s ((12 * 2 - 1) * r + (4 * b + i))
  s2 : ∀ (r : Fin 22) (b : Fin 3) (q : Fin g) (i : Fin 4), 4 * b.val + i.val ≠ 0 →
    tv T.s (12 * g * (2 * r + 1) + 4 * g * b + (4 * q + i)) = K.s ((12 * 2 - 1) * r + 12 + (4 * b + i) - 1)

theorem laneSum_eq {x : Reg (4 * g)} (hc : ∀ k, Canon (x k)) (q : Fin g) : laneSum x q = some (∑ i : Fin 4, val (x (ln q i))) := by
  unfold laneSum
  rw [ofRepr_canon (hc _), ofRepr_canon (hc _), ofRepr_canon (hc _), ofRepr_canon (hc _), Fin.sum_univ_four]
  rfl

theorem ln_mod (q : Fin g) (i : Fin 4) : (ln q i).val % 4 = i.val := by simp only [ln]; omega
theorem grp_ln (q : Fin g) (i : Fin 4) : grp (ln q i) = q := by apply Fin.ext; simp only [grp, ln]; omega

theorem partial_sim (h : isa.Lawful) (T : Tbl) (K : Opt F) (hT : TblOk g T K) (r : Fin 22) (st : St g) :
    ∃ st', partialRound isa T r st = some st' ∧ ∀ q, sv st' q = partialOpt pow7 K 4 r (sv st q) := by
  set x : Reg (4 * g) := isa.add (pow7V isa fun k => if k.val % 4 = 0 then st.s0 k else 0)
    (fun k => if k.val % 4 = 0 then BitVec.ofNat 64 (T.c.getD ((4 + 1) * (12 * g) + r) 0) else 0) with hx
  set st1 : St g := ⟨fun k => if k.val % 4 = 0 then x k else st.s0 k, st.s1, st.s2⟩ with hst1
  set tmp := spmv isa st1 T.s (12 * g * 2 * r) with htmp
  have hsum : ∀ q, laneSum tmp q = some (∑ i : Fin 4, val (tmp (ln q i))) := laneSum_eq (spmv_canon h _ _ _)
  have hsome : ∀ q : Fin g, (laneSum tmp q).isSome := fun q => by rw [hsum]; rfl
  set st2 : St g := multAdd isa st1 (fun k => x (ln (grp k) 0)) T.s (12 * g * (2 * r + 1)) with hst2
  have hx0 : ∀ q : Fin g, val (x (ln q 0)) = pow7 (sv st q 0) + K.c ((4 + 1) * 12 + r) := by
    intro q
    rw [hx, h.add_val, h.pow7_val]
    have e : (ln q 0).val % 4 = 0 := ln_mod q 0
    rw [if_pos e, if_pos e, val_ofNat (hT.fc _), ← hT.cP r]
    have : sv st q 0 = val (st.s0 (ln q 0)) := sv_idx st q 0 0
    rw [this]
    rfl
  have hs1 : ∀ q b i, sv st1 q (idx b i) = if (idx b i).val = 0 then pow7 (sv st q (idx b i)) + K.c ((4 + 1) * 12 + r) else sv st q (idx b i) := by
    intro q b i
    by_cases hb : b = 0
    · subst hb
      by_cases hi : i = 0
      · subst hi
        rw [if_pos (by rfl), sv_idx]
        have e : (ln q 0).val % 4 = 0 := ln_mod q 0
        show val (if (ln q 0).val % 4 = 0 then x (ln q 0) else st.s0 (ln q 0)) = _
        rw [if_pos e]
        exact hx0 q
      · have hi' : i.val ≠ 0 := fun hc => hi (Fin.ext hc)
        rw [if_neg (by simp only [idx]; omega), sv_idx, sv_idx]
        have e : (ln q i).val % 4 ≠ 0 := by rw [ln_mod]; exact hi'
        show val (if (ln q i).val % 4 = 0 then x (ln q i) else st.s0 (ln q i)) = _
        rw [if_neg e]
        rfl
    · have hb' : b.val ≠ 0 := fun hc => hb (Fin.ext hc)
      rw [if_neg (by simp only [idx]; omega), sv_idx, sv_idx]
      fin_cases b
      · exact absurd rfl hb
      · rfl
      · rfl
  have hres : partialRound isa T r st =
      some ⟨fun k => if k.val % 4 = 0 then reprF ((laneSum tmp (grp k)).get (hsome _)) else st2.s0 k, st2.s1, st2.s2⟩ := by
    unfold partialRound
    exact dif_pos hsome
  refine ⟨_, hres, fun q => ?_⟩
  have hmadd : ∀ b i, (idx b i).val ≠ 0 → val (st2.at b (ln q i)) = sv st q (idx b i) +
      K.s ((12 * 2 - 1) * r + 12 + (4 * b + i) - 1) * (pow7 (sv st q 0) + K.c ((4 + 1) * 12 + r)) := by
    intro b i hbi
    have e : val (st2.at b (ln q i)) = sv st1 q (idx b i) + tv T.s (12 * g * (2 * r + 1) + 4 * g * b + (4 * q + i)) * val (x (ln q 0)) := by
      obtain ⟨y, hy⟩ : ∃ y : Reg (4 * g), y = fun k => x (ln (grp k) 0) := ⟨_, rfl⟩
      have hg : val (y (ln q i)) = val (x (ln q 0)) := by
        rw [hy]
        show val (x (ln (grp (ln q i)) 0)) = _
        rw [grp_ln]
      rw [sv_idx, ← reg_val hT.fs, ← hg, ← h.mul_val, ← h.add_val, hst2, ← hy]
      fin_cases b <;> rfl
    rw [e, hs1, if_neg hbi, hx0, hT.s2 r b q i hbi]
  apply ext12
  intro b i
  rw [sv_idx]
  by_cases hbi : (idx b i).val = 0
  · have hb : b = 0 := by apply Fin.ext; simp only [idx] at hbi; show b.val = 0; omega
    have hi : i = 0 := by apply Fin.ext; simp only [idx] at hbi; show i.val = 0; omega
    subst hb hi
    have e : (ln q 0).val % 4 = 0 := ln_mod q 0
    show val (if (ln q 0).val % 4 = 0 then reprF ((laneSum tmp (grp (ln q 0))).get (hsome _)) else st2.s0 (ln q 0)) = _
    rw [if_pos e, val_reprF]
    have hg : (laneSum tmp (grp (ln q 0))).get (hsome _) = ∑ i : Fin 4, val (tmp (ln q i)) := by
      rw [Option.get_of_eq_some _ (hsum _), grp_ln]
    rw [hg]
    unfold partialOpt
    rw [if_pos hbi, sum12, Finset.sum_comm]
    refine Finset.sum_congr rfl fun i _ => ?_
    rw [htmp, spmv_val h _ hT.fs]
    refine Finset.sum_congr rfl fun b _ => ?_
    rw [hT.s1 r b q i, hs1, mul_comm]
    rfl
  · have hmain := hmadd b i hbi
    have e : val ((St.at ⟨fun k => if k.val % 4 = 0 then reprF ((laneSum tmp (grp k)).get (hsome _)) else st2.s0 k, st2.s1, st2.s2⟩ b) (ln q i)) =
        val (st2.at b (ln q i)) := by
      by_cases hb : b = 0
      · subst hb
        have hi : i.val ≠ 0 := by
          intro hc; apply hbi; simp only [idx]
          show 4 * 0 + i.val = 0
          omega
        show val (if (ln q i).val % 4 = 0 then _ else st2.s0 (ln q i)) = _
        rw [if_neg (by rw [ln_mod]; exact hi)]
        rfl
      · fin_cases b
        · exact absurd rfl hb
        · rfl
        · rfl
    rw [e, hmain]
    unfold partialOpt
    rw [if_neg hbi]
    rfl

theorem loopM_sim {X : Type} (f : Nat → X → Option X) (P : Nat → X → Prop) (N : Nat) (hs : ∀ n x, n < N → P n x → ∃ x', f n x = some x' ∧ P (n + 1) x')
    (x : X) (h0 : P 0 x) (n : Nat) (hn : n ≤ N) : ∃ x', loopM f n x = some x' ∧ P n x' := by
  induction n with
  | zero => exact ⟨x, rfl, h0⟩
  | succ n ih =>
    obtain ⟨y, hy, hP⟩ := ih (by omega)
    obtain ⟨z, hz, hPz⟩ := hs n y (by omega) hP
    exact ⟨z, by rw [loopM, hy, Option.bind_some, hz], hPz⟩

theorem loop_sim {X Y : Type} (f : Nat → X → X) (f' : Nat → Y → Y) (R : X → Y) (N : Nat) (hs : ∀ n x, n < N → R (f n x) = f' n (R x)) (x : X)
    (n : Nat) (hn : n ≤ N) : R (loop f n x) = loop f' n (R x) := by
  induction n with
  | zero => rfl
  | succ n ih => show R (f n (loop f n x)) = f' n (loop f' n (R x)); rw [hs n _ (by omega), ih (by omega)]

/-- **The vector permutation never panics and computes the scalar permutation in every group**; the lanes of the result are canonical. -/
theorem perm_sim (h : isa.Lawful) (T : Tbl) (K : Opt F) (hT : TblOk g T K) (st : St g) :
    ∃ st', perm isa T st = some st' ∧ (∀ q, sv st' q = optPerm pow7 K 4 22 (sv st q)) ∧ ∀ k, Canon (st'.s0 k) := by
  have hm : Fits T.m 18446744073709551616 := fun k => lt_trans (hT.fm k) (by norm_num)
  have full : ∀ (st : St g) (q : Fin g), sv (mmult isa (spmv8 isa) st T.m) q = mulT K.m (sv st q) := fun st q =>
    sv_mmult h st T.m (spmv8 isa) K.m hT.m (fun o q i => spmv8_val h st hT.fm o q i) q
  have addF : ∀ (r : Fin 5) (st : St g) (q : Fin g), sv (addAvx isa st T.c (r * (12 * g))) q = addC K.c (r * 12) (sv st q) := by
    intro r st q
    apply ext12
    intro b i
    rw [sv_add h st hT.fc, hT.cF r b q i]
    rfl
  have addL : ∀ (r : Fin 3) (st : St g) (q : Fin g),
      sv (addAvx isa st T.c ((4 + 1) * (12 * g) + 22 + r * (12 * g))) q = addC K.c ((4 + 1) * 12 + 22 + r * 12) (sv st q) := by
    intro r st q
    apply ext12
    intro b i
    rw [sv_add h st hT.fc, hT.cL r b q i]
    rfl
  set a1 := addAvx isa st T.c 0 with ha1
  have e1 : ∀ q, sv a1 q = addC K.c 0 (sv st q) := fun q => by
    have := addF 0 st q
    simpa using this
  set a2 := loop (fun r st => mmult isa (spmv8 isa) (addAvx isa (pow7Triple isa st) T.c ((r + 1) * (12 * g))) T.m) 3 a1 with ha2
  have e2 : ∀ q, sv a2 q = loop (fun r x => mulT K.m (addC K.c ((r + 1) * 12) (sboxAll pow7 x))) 3 (sv a1 q) := fun q =>
    loop_sim _ _ (fun s => sv s q) 3 (fun n x hn => by
      rw [full, addF ⟨n + 1, by omega⟩, sv_pow7 h]) a1 3 le_rfl
  set a3 := mmult isa (spmv isa) (addAvx isa (pow7Triple isa a2) T.c (48 * g)) T.p with ha3
  have e3 : ∀ q, sv a3 q = mulT K.p (addC K.c ((4 - 1 + 1) * 12) (sboxAll pow7 (sv a2 q))) := by
    intro q
    have := addF 4 (pow7Triple isa a2) q
    rw [show (((4 : Fin 5) : Nat) * (12 * g)) = 48 * g by show 4 * (12 * g) = _; ring] at this
    rw [ha3, sv_mmult h _ T.p (spmv isa) K.p hT.p (fun o q i => spmv_val h _ hT.fp o q i) q, this, sv_pow7 h]
    rfl
  obtain ⟨a4, h4, e4⟩ := loopM_sim (partialRound isa T) (fun n s => ∀ q, sv s q = loop (partialOpt pow7 K 4) n (sv a3 q)) 22
    (fun n s hn hP => by
      obtain ⟨s', hs', he⟩ := partial_sim h T K hT ⟨n, hn⟩ s
      exact ⟨s', hs', fun q => by rw [he, hP]; rfl⟩) a3 (fun q => rfl) 22 le_rfl
  set a5 := loop (fun r st => mmult isa (spmv8 isa) (addAvx isa (pow7Triple isa st) T.c ((4 + 1) * (12 * g) + 22 + r * (12 * g))) T.m) 3 a4 with ha5
  have e5 : ∀ q, sv a5 q = loop (fun r x => mulT K.m (addC K.c ((4 + 1) * 12 + 22 + r * 12) (sboxAll pow7 x))) 3 (sv a4 q) := fun q =>
    loop_sim _ _ (fun s => sv s q) 3 (fun n x hn => by
      rw [full, addL ⟨n, hn⟩, sv_pow7 h]) a4 3 le_rfl
  refine ⟨mmult isa (spmv isa) (pow7Triple isa a5) T.m, ?_, fun q => ?_, fun k => h.add_canon _ _ _⟩
  · show (loopM (partialRound isa T) 22 a3).map _ = _
    rw [h4]; rfl
  · rw [sv_mmult h _ T.m (spmv isa) K.m hT.m (fun o q i => spmv_val h _ hm o q i) q, sv_pow7 h, e5, e4, e3, e2, e1]
    rfl

theorem mapM_ofRepr {n : Nat} (f : Fin n → U64) (hc : ∀ k, Canon (f k)) : (List.ofFn f).mapM ofRepr = some (List.ofFn fun k => val (f k)) := by
  induction n with
  | zero => rfl
  | succ n ih =>
    rw [List.ofFn_succ, List.mapM_cons, ih _ fun k => hc _, ofRepr_canon (hc _), List.ofFn_succ]
    rfl

/-- the state of group `q` in the concatenated inputs -/
def grpIn (g : Nat) (l : List F) (q : Nat) : Fin 12 → F := fun m => l.getD (4 * g * (m / 4) + (4 * q + m % 4)) 0

theorem sv_load (l : List F) (q : Fin g) : sv (load (g := g) l) q = grpIn g l q := by
  apply ext12
  intro b i
  rw [sv_idx]
  have hd : (idx b i).val / 4 = b := by simp only [idx]; omega
  have hm : (idx b i).val % 4 = i := by simp only [idx]; omega
  show _ = l.getD (4 * g * ((idx b i).val / 4) + (4 * q + (idx b i).val % 4)) 0
  rw [hd, hm, ← val_reprF (l.getD _ 0)]
  congr 1
  match b with
  | 0 => rfl
  | 1 => rfl
  | 2 => rfl

/-- `hashV` in closed form -/
theorem hashV_eq (h : isa.Lawful) (T : Tbl) (K : Opt F) (hT : TblOk g T K) (inp init : List F) (hi : inp.length = 8 * g) (hn : init.length = 4 * g) (out : Nat) :
    hashV isa T inp init out = if out ≤ 4 * g then
      .ok ((List.ofFn fun k : Fin (4 * g) => optPerm pow7 K 4 22 (grpIn g (inp ++ init) (k / 4)) ⟨k % 4, by omega⟩).take out) else .panic := by
  obtain ⟨st, h1, h2, h3⟩ := perm_sim h T K hT (load (inp ++ init))
  unfold hashV
  rw [if_neg (by simpa using hi), if_neg (by simpa using hn), h1]
  dsimp only
  rw [mapM_ofRepr _ h3]
  dsimp only
  have he : (List.ofFn fun k => val (st.s0 k)) = List.ofFn fun k : Fin (4 * g) => optPerm pow7 K 4 22 (grpIn g (inp ++ init) (k / 4)) ⟨k % 4, by omega⟩ := by
    refine congrArg List.ofFn (funext fun k => ?_)
    have := congrFun (h2 (grp k)) ⟨k % 4, by omega⟩
    rw [sv_load] at this
    rw [show (k : Nat) / 4 = (grp k).val from rfl, ← this]
    have hk : k = ln (grp k) ⟨k % 4, by omega⟩ := by apply Fin.ext; simp only [ln, grp]; omega
    have e2 : (⟨k.val % 4, by omega⟩ : Fin 12) = idx 0 ⟨k % 4, by omega⟩ := by
      apply Fin.ext
      show k.val % 4 = 4 * 0 + k.val % 4
      omega
    rw [e2, sv_idx, ← hk]
    rfl
  rw [he]
  simp only [List.length_ofFn]

end Verif.Simd
