import Verif.Gadget.GL

/-!
# The assignments of gl.circom satisfy its constraints; the constraints do not determine the outputs (C111, C112)
-/
set_option linter.unusedSectionVars false

namespace Verif.Gadget
open Verif.GL (F)

variable {r : Nat}

/-- `a \ p` in an assignment: the quotient of the representatives -/
def idiv (a : ZMod r) (b : Nat) : ZMod r := ((a.val / b : Nat) : ZMod r)

/-- `k <-- m \ p`, gl.circom L11, L35, L56, L81, L118-120, L177-179 -/
def kWit (m : ZMod r) : ZMod r := idiv m P

/-- `out <-- m - k*p`, gl.circom L12, L36, L57, L82, L122-124, L181-183 -/
def oWit (m : ZMod r) : ZMod r := m - kWit m * (P : ZMod r)

theorem wit_nat {n : Nat} (hn : n < r) : kWit ((n : Nat) : ZMod r) = ((n / P : Nat) : ZMod r) ∧
    oWit ((n : Nat) : ZMod r) = ((n % P : Nat) : ZMod r) := by
  have h1 : kWit ((n : Nat) : ZMod r) = ((n / P : Nat) : ZMod r) := by
    unfold kWit idiv
    rw [ZMod.val_natCast, Nat.mod_eq_of_lt hn]
  refine ⟨h1, ?_⟩
  unfold oWit
  rw [h1]
  conv_lhs => rw [show ((n : Nat) : ZMod r) = ((P * (n / P) + n % P : Nat) : ZMod r) by rw [Nat.div_add_mod]]
  push_cast
  ring

theorem natCast_mod_P (n : Nat) : ((n : Nat) : F).val = n % P := ZMod.val_natCast _ _

/-- the assignments of a reduction satisfy it, and give the canonical representative -/
theorem wit_red [Fact r.Prime] (hr : 2 ^ 250 < r) {nb : Nat} (hnb : nb ≤ 100) {m : ℤ} (h0 : 0 ≤ m) (hm : m < 2 ^ nb * (P : ℤ)) :
    Red nb (m : ZMod r) (kWit (m : ZMod r)) (oWit (m : ZMod r)) ∧ oWit (m : ZMod r) = canon (m : F) := by
  obtain ⟨n, rfl⟩ := Int.eq_ofNat_of_zero_le h0
  have hm' : n < 2 ^ nb * P := by exact_mod_cast hm
  have hlt : n < r := by
    refine lt_trans hm' (lt_trans ?_ hr)
    calc 2 ^ nb * P ≤ 2 ^ 100 * P := Nat.mul_le_mul_right _ (Nat.pow_le_pow_right (by omega) hnb)
      _ < 2 ^ 250 := by decide
  have := wit_nat hlt
  rw [Int.cast_natCast, this.1, this.2]
  refine ⟨red_complete hm', ?_⟩
  rw [canon, Int.cast_natCast, natCast_mod_P]

theorem near_shift {a : ZMod r} {x : F} (h : Near a x) :
    ∃ z : ℤ, 0 ≤ z ∧ z < 64 * (P : ℤ) ∧ a + 16 * (P : ZMod r) = (z : ZMod r) ∧ (z : F) = x := by
  obtain ⟨z, h1, h2, rfl, h3⟩ := h
  exact ⟨z + 16 * (P : ℤ), by omega, by omega, by push_cast; rfl, by rw [shiftP, h3]⟩

/-- `GLNorm`: for an input in `[-16p, 1008p)` the assignments satisfy the constraints and the output is the remainder -/
theorem glNorm_complete [Fact r.Prime] (hr : 2 ^ 250 < r) {z : ℤ} (h1 : -16 * (P : ℤ) ≤ z) (h2 : z < 1008 * (P : ℤ)) :
    let m : ZMod r := (z : ZMod r) + 16 * (P : ZMod r)
    Red 10 m (kWit m) (oWit m) ∧ oWit m = canon (z : F) := by
  have e : (z : ZMod r) + 16 * (P : ZMod r) = ((z + 16 * (P : ℤ) : ℤ) : ZMod r) := by push_cast; rfl
  rw [e, ← shiftP]
  exact wit_red hr (by omega) (by omega) (by omega)

/-- `GLMul`: for inputs in `[-16p, 48p)` the assignments satisfy the constraints and the output is the canonical product -/
theorem glMul_complete [Fact r.Prime] (hr : 2 ^ 250 < r) {a b : ZMod r} {x y : F} (ha : Near a x) (hb : Near b y) :
    let m := (a + 16 * (P : ZMod r)) * (b + 16 * (P : ZMod r))
    Red 80 m (kWit m) (oWit m) ∧ oWit m = canon (x * y) := by
  obtain ⟨u, hu0, hu, e, rfl⟩ := near_shift ha
  obtain ⟨v, hv0, hv, f, rfl⟩ := near_shift hb
  rw [e, f, ← Int.cast_mul, ← Int.cast_mul]
  refine wit_red hr (by omega) (mul_nonneg hu0 hv0) ?_
  calc u * v ≤ 64 * (P : ℤ) * (64 * (P : ℤ)) := mul_le_mul hu.le hv.le hv0 (by positivity)
    _ < 2 ^ 80 * (P : ℤ) := by decide

/-- `GLMulAdd`, the third input having 64 bits -/
theorem glMulAdd_complete [Fact r.Prime] (hr : 2 ^ 250 < r) {a b c : ZMod r} {x y z : F} (ha : Near a x) (hb : Near b y) (hc : Out c z) :
    let m := (a + 16 * (P : ZMod r)) * (b + 16 * (P : ZMod r)) + c
    Red 80 m (kWit m) (oWit m) ∧ oWit m = canon (x * y + z) := by
  obtain ⟨u, hu0, hu, e, rfl⟩ := near_shift ha
  obtain ⟨v, hv0, hv, f, rfl⟩ := near_shift hb
  obtain ⟨w, hw, rfl, rfl⟩ := hc
  have e1 : ((u : ZMod r)) * (v : ZMod r) + (w : ZMod r) = ((u * v + w : ℤ) : ZMod r) := by push_cast; rfl
  have e2 : ((u : F)) * (v : F) + (w : F) = ((u * v + w : ℤ) : F) := by push_cast; rfl
  rw [e, f, e1, e2]
  refine wit_red hr (by omega) (add_nonneg (mul_nonneg hu0 hv0) (by positivity)) ?_
  calc u * v + w ≤ 64 * (P : ℤ) * (64 * (P : ℤ)) + 2 ^ 64 :=
        add_le_add (mul_le_mul hu.le hv.le hv0 (by positivity)) (by exact_mod_cast hw.le)
    _ < 2 ^ 80 * (P : ℤ) := by decide

theorem near3_shift {a : Fin 3 → ZMod r} {x : Ext3.K} (h : Lift3 Near a x) :
    ∃ u : Fin 3 → ℤ, (∀ e, 0 ≤ u e) ∧ (∀ e, u e < 64 * (P : ℤ)) ∧ (∀ e, a e + 16 * (P : ZMod r) = (u e : ZMod r)) ∧
      Ext3.coord (u 0 : F) (u 1 : F) (u 2 : F) = x := by
  obtain ⟨c, hc, rfl⟩ := h
  choose u h1 h2 h3 h4 using fun e => near_shift (hc e)
  exact ⟨u, h1, h2, h3, by rw [h4, h4, h4]⟩

theorem karaZ_nonneg {u v : Fin 3 → ℤ} (hu : ∀ e, 0 ≤ u e) (hv : ∀ e, 0 ≤ v e) (e : Fin 3) : 0 ≤ karaZ u v e := by
  have h := fun i j => mul_nonneg (hu i) (hv j)
  have h01 := h 0 1; have h00 := h 0 0; have h02 := h 0 2
  have h10 := h 1 0; have h11 := h 1 1; have h12 := h 1 2
  have h20 := h 2 0; have h21 := h 2 1; have h22 := h 2 2
  fin_cases e <;> simp only [karaZ, Matrix.cons_val_zero, Matrix.cons_val_one, Matrix.cons_val, Fin.zero_eta, Fin.mk_one, Fin.reduceFinMk] <;>
    linarith

/-- `GLCMul` -/
theorem glCMul_complete [Fact r.Prime] (hr : 2 ^ 250 < r) {a b : Fin 3 → ZMod r} {x y : Ext3.K} (ha : Lift3 Near a x) (hb : Lift3 Near b y) :
    GLCMul a b (fun e => oWit (kara a b e)) ∧ ∃ c : Fin 3 → F, (∀ e, oWit (kara a b e) = canon (c e)) ∧ Ext3.coord (c 0) (c 1) (c 2) = x * y := by
  obtain ⟨u, hu0, hu, e, rfl⟩ := near3_shift ha
  obtain ⟨v, hv0, hv, f, rfl⟩ := near3_shift hb
  have key : ∀ i, Red 80 (kara a b i) (kWit (kara a b i)) (oWit (kara a b i)) ∧ oWit (kara a b i) = canon (karaZ u v i : F) := by
    intro i
    rw [kara_eq e f]
    refine wit_red hr (by omega) (karaZ_nonneg hu0 hv0 i) ?_
    have := le_abs_self (karaZ u v i)
    have h2 := karaZ_abs (A := 64 * (P : ℤ)) (B := 64 * (P : ℤ)) (fun e => (abs_of_nonneg (hu0 e)).le.trans (hu e).le)
      (fun e => (abs_of_nonneg (hv0 e)).le.trans (hv e).le) i
    exact lt_of_le_of_lt (this.trans h2) (by decide)
  exact ⟨⟨_, _, rfl, fun i => (key i).1⟩, _, fun i => (key i).2, karaZ_coord u v⟩

/-- `GLCMulAdd` -/
theorem glCMulAdd_complete [Fact r.Prime] (hr : 2 ^ 250 < r) {a b c : Fin 3 → ZMod r} {x y z : Ext3.K} (ha : Lift3 Near a x)
    (hb : Lift3 Near b y) (hc : Lift3 Near c z) :
    GLCMulAdd a b c (fun e => oWit (kara a b e + c e + 16 * (P : ZMod r))) ∧
      ∃ d : Fin 3 → F, (∀ e, oWit (kara a b e + c e + 16 * (P : ZMod r)) = canon (d e)) ∧ Ext3.coord (d 0) (d 1) (d 2) = x * y + z := by
  obtain ⟨u, hu0, hu, e, rfl⟩ := near3_shift ha
  obtain ⟨v, hv0, hv, f, rfl⟩ := near3_shift hb
  obtain ⟨w, hw0, hw, g, rfl⟩ := near3_shift hc
  have key : ∀ i, Red 80 (kara a b i + c i + 16 * (P : ZMod r)) (kWit (kara a b i + c i + 16 * (P : ZMod r)))
      (oWit (kara a b i + c i + 16 * (P : ZMod r))) ∧
      oWit (kara a b i + c i + 16 * (P : ZMod r)) = canon ((karaZ u v i + w i : ℤ) : F) := by
    intro i
    rw [kara_eq e f, add_assoc, g, ← Int.cast_add]
    refine wit_red hr (by omega) (add_nonneg (karaZ_nonneg hu0 hv0 i) (hw0 i)) ?_
    have := le_abs_self (karaZ u v i)
    have h2 := karaZ_abs (A := 64 * (P : ℤ)) (B := 64 * (P : ℤ)) (fun e => (abs_of_nonneg (hu0 e)).le.trans (hu e).le)
      (fun e => (abs_of_nonneg (hv0 e)).le.trans (hv e).le) i
    exact lt_of_le_of_lt (add_le_add (this.trans h2) (hw i).le) (by decide)
  refine ⟨⟨_, _, rfl, fun i => (key i).1⟩, _, fun i => (key i).2, ?_⟩
  rw [← karaZ_coord]
  simp only [Ext3.coord, Int.cast_add, map_add]
  ring

/-! ### The inverse -/

/-- the loop of `_inv1`, gl.circom L217-226.  The variables are elements of the field of the circuit; `t` and `newt` stay between `-p` and `p`
(`inv1Loop_spec`), so they are written as integers. -/
def inv1Loop (t newt : ℤ) (a newr : Nat) : ℤ :=
  if h : newr = 0 then t else inv1Loop newt (t - (a / newr : Nat) * newt) newr (a - a / newr * newr)
termination_by newr
decreasing_by
  have h1 := Nat.div_add_mod a newr
  have h2 := Nat.mod_lt a (Nat.pos_of_ne_zero h)
  rw [Nat.mul_comm] at h1
  omega

/-- `_inv1`, gl.circom L211-229, for `a` not zero -/
def inv1 (a : Nat) : ℤ :=
  let t := inv1Loop 0 1 P (a % P)
  if t < 0 then t + P else t

/-- the loop keeps Bezout's relations: signs alternate and the numbers stay below `p` -/
theorem inv1Loop_spec (a : Nat) : ∀ (newr : Nat) (t newt : ℤ) (s : Nat), (t : F) * a = s → (newt : F) * a = newr → Nat.gcd s newr = 1 →
    (∃ T T' : Nat, ((t = T ∧ newt = -T') ∨ (t = -T ∧ newt = T')) ∧ T' * s + T * newr = P ∧ T ≤ P) →
    newr < s → (inv1Loop t newt s newr : F) * a = 1 ∧ |inv1Loop t newt s newr| ≤ P := by
  intro newr
  induction newr using Nat.strong_induction_on with
  | _ newr ih =>
    rintro t newt s h1 h2 hg ⟨T, T', hs, hb, hT⟩ hlt
    rw [inv1Loop]
    split
    · next h0 =>
      subst h0
      rw [Nat.gcd_zero_right] at hg
      refine ⟨by rw [h1, hg]; simp, ?_⟩
      rcases hs with ⟨rfl, -⟩ | ⟨rfl, -⟩
      · rw [abs_of_nonneg (by positivity)]; exact_mod_cast hT
      · rw [abs_neg, abs_of_nonneg (by positivity)]; exact_mod_cast hT
    · next h0 =>
      have hpos := Nat.pos_of_ne_zero h0
      have hdm := Nat.div_add_mod s newr
      have hml := Nat.mod_lt s hpos
      have hle : s / newr * newr ≤ s := Nat.div_mul_le_self _ _
      have hsub : s - s / newr * newr = s % newr := by rw [Nat.mul_comm] at hdm; omega
      rw [hsub]
      refine ih (s % newr) hml _ _ newr h2 ?_ ?_ ?_ hml
      · have hc : ((newr * (s / newr) + s % newr : Nat) : F) = (s : F) := by rw [hdm]
        rw [Nat.cast_add, Nat.cast_mul] at hc
        rw [Int.cast_sub, Int.cast_mul, sub_mul, h1, mul_assoc, h2, Int.cast_natCast, ← hc]
        ring
      · rw [Nat.gcd_comm, ← Nat.gcd_rec, Nat.gcd_comm]; exact hg
      · refine ⟨T', T + s / newr * T', ?_, ?_, ?_⟩
        · rcases hs with ⟨rfl, rfl⟩ | ⟨rfl, rfl⟩
          · exact .inr ⟨rfl, by push_cast; ring⟩
          · exact .inl ⟨rfl, by push_cast; ring⟩
        · rw [← hb]
          conv_rhs => rw [← hdm]
          ring
        · rw [← hb]
          nlinarith [Nat.zero_le (T * newr)]

theorem coprime_P {a : Nat} (h : (a : F) ≠ 0) : Nat.gcd P (a % P) = 1 := by
  have hp : Nat.Prime P := Verif.GL.prime_MODULUS
  rw [Nat.gcd_comm, ← Nat.gcd_rec]
  refine (Nat.Prime.coprime_iff_not_dvd hp).mpr fun hd => h ?_
  exact (ZMod.natCast_eq_zero_iff _ _).mpr hd

/-- **`_inv1`**: for every `a` that is not a multiple of `p` the result is in `[0, p)` and inverse to `a` modulo `p` -/
theorem inv1_spec (a : Nat) (h : (a : F) ≠ 0) : 0 ≤ inv1 a ∧ inv1 a < P ∧ (inv1 a : F) * a = 1 := by
  have hmod : ((a % P : Nat) : F) = (a : F) := by
    have := Nat.div_add_mod a P
    conv_rhs => rw [← this]
    push_cast
    rw [gl_cast_P]; ring
  obtain ⟨h1, h2⟩ := inv1Loop_spec a (a % P) 0 1 P (by rw [gl_cast_P]; simp) (by rw [hmod]; simp) (coprime_P h)
    ⟨0, 1, .inr ⟨by simp, by simp⟩, by ring, by omega⟩ (Nat.mod_lt _ (by decide))
  unfold inv1
  dsimp only
  generalize inv1Loop 0 1 P (a % P) = t at h1 h2 ⊢
  rw [abs_le] at h2
  have hne : ∀ k : ℤ, t ≠ k * (P : ℤ) := by
    rintro k rfl
    push_cast at h1
    rw [gl_cast_P, mul_zero, zero_mul] at h1
    exact zero_ne_one h1
  have n1 := hne 1
  have n2 := hne (-1)
  split
  · next hneg =>
    refine ⟨by omega, by omega, ?_⟩
    push_cast
    rw [gl_cast_P, add_zero]; exact h1
  · exact ⟨by omega, by omega, h1⟩

theorem canon_one : (canon 1 : ZMod r) = 1 := by
  unfold canon
  rw [show (1 : F).val = 1 from ZMod.val_one _, Nat.cast_one]

theorem canon_zero : (canon 0 : ZMod r) = 0 := by
  unfold canon
  rw [ZMod.val_zero, Nat.cast_zero]

/-- `GLInv`: for a nonnegative input that is not a multiple of `p`, `_inv1(in)` satisfies the constraints -/
theorem glInv_complete [Fact r.Prime] (hr : 2 ^ 250 < r) {n : Nat} (hn : n < 48 * P) (h0 : (n : F) ≠ 0) :
    GLInv ((n : Nat) : ZMod r) ((inv1 n : ℤ) : ZMod r) := by
  obtain ⟨h1, h2, h3⟩ := inv1_spec n h0
  have hP : ((P : Nat) : ℤ) = 0xFFFFFFFF00000001 := rfl
  have ha : Near ((n : Nat) : ZMod r) (n : F) := ⟨n, by omega, by exact_mod_cast hn, by simp, by simp⟩
  have hb : Near ((inv1 n : ℤ) : ZMod r) (inv1 n : F) := ⟨inv1 n, by omega, by omega, rfl, rfl⟩
  have := glMul_complete hr ha hb
  dsimp only at this
  refine ⟨_, ⟨_, _, rfl, this.1⟩, ?_, ?_⟩
  · rw [this.2, mul_comm, h3, canon_one]
  · obtain ⟨m, hm⟩ := Int.eq_ofNat_of_zero_le h1
    refine (num2Bits_ex _ _).mpr ⟨m, ?_, by rw [hm]; simp⟩
    omega

/-- `while (t<0) t = t + p`, gl.circom L276, L281, L285, L289 -/
def wrap (t : ℤ) : ℤ := if t < 0 then t % P else t

/-- the assignments of `GLCInv`, gl.circom L258-295, for nonnegative inputs (the products are below the modulus of the circuit) -/
def cinvWit (a b c : ℤ) : Fin 3 → ℤ :=
  let aa := (a * a) % P
  let ac := (a * c) % P
  let ba := (b * a) % P
  let bb := (b * b) % P
  let bc := (b * c) % P
  let cc := (c * c) % P
  let aaa := (aa * a) % P
  let aac := (aa * c) % P
  let abc := (ba * c) % P
  let abb := (ba * b) % P
  let acc := (ac * c) % P
  let bbb := (bb * b) % P
  let bcc := (bc * c) % P
  let ccc := (cc * c) % P
  let t := (wrap (-aaa - aac - aac + abc + abc + abc + abb - acc - bbb + bcc - ccc)) % P
  let tinv := inv1 t.toNat
  ![wrap (-aa - ac - ac + bc + bb - cc) * tinv % P, wrap (ba - cc) * tinv % P, wrap (-bb + ac + cc) * tinv % P]

theorem cast_emod (z : ℤ) : ((z % (P : ℤ) : ℤ) : F) = (z : F) := by
  have := Int.emod_add_mul_ediv z P
  conv_rhs => rw [← this]
  push_cast
  rw [gl_cast_P]; ring

theorem cast_wrap (z : ℤ) : ((wrap z : ℤ) : F) = (z : F) := by
  unfold wrap
  split
  · exact cast_emod z
  · rfl

theorem inv1_emod {t : ℤ} {y : F} (ht : (t : F) = y) (hy : y ≠ 0) : ((inv1 (t % (P : ℤ)).toNat : ℤ) : F) = y⁻¹ := by
  have hc : (((t % (P : ℤ)).toNat : Nat) : F) = y := by
    rw [← Int.cast_natCast, Int.toNat_of_nonneg (Int.emod_nonneg t (by decide)), cast_emod, ht]
  have h := (inv1_spec _ (by rw [hc]; exact hy)).2.2
  rw [hc] at h
  exact eq_inv_of_mul_eq_one_left h

/-- the class of the assignments of `GLCInv` -/
theorem cinvWit_cast (a b c : ℤ) (x y z : F) (hx : (a : F) = x) (hy : (b : F) = y) (hz : (c : F) = z) (hn : Ext3.nrm x y z ≠ 0) :
    (cinvWit a b c 0 : F) = (-(x * x) - x * z - x * z + y * z + y * y - z * z) * (Ext3.nrm x y z)⁻¹ ∧
    (cinvWit a b c 1 : F) = (y * x - z * z) * (Ext3.nrm x y z)⁻¹ ∧
    (cinvWit a b c 2 : F) = (-(y * y) + x * z + z * z) * (Ext3.nrm x y z)⁻¹ := by
  have ht := inv1_emod (t := wrap (-((a * a % P * a) % P) - ((a * a % P * c) % P) - ((a * a % P * c) % P) + ((b * a % P * c) % P)
      + ((b * a % P * c) % P) + ((b * a % P * c) % P) + ((b * a % P * b) % P) - ((a * c % P * c) % P) - ((b * b % P * b) % P)
      + ((b * c % P * c) % P) - ((c * c % P * c) % P))) (y := Ext3.nrm x y z) (by
        rw [cast_wrap]
        simp only [Int.cast_add, Int.cast_sub, Int.cast_neg, Int.cast_mul, cast_emod, hx, hy, hz]
        unfold Ext3.nrm
        ring) hn
  generalize Ext3.nrm x y z = w at ht
  unfold cinvWit
  simp only [Matrix.cons_val_zero, Matrix.cons_val_one, Matrix.cons_val]
  refine ⟨?_, ?_, ?_⟩ <;>
  · rw [cast_emod, Int.cast_mul, ht, cast_wrap]
    simp only [Int.cast_add, Int.cast_sub, Int.cast_neg, Int.cast_mul, cast_emod, hx, hy, hz]

theorem cinvWit_range (a b c : ℤ) (e : Fin 3) : 0 ≤ cinvWit a b c e ∧ cinvWit a b c e < (P : ℤ) := by
  have hPpos : (0 : ℤ) < (P : ℤ) := by decide
  have hne : (P : ℤ) ≠ 0 := by decide
  unfold cinvWit
  fin_cases e <;> exact ⟨Int.emod_nonneg _ hne, Int.emod_lt_of_pos _ hPpos⟩

/-- `GLCInv`: for nonnegative inputs below `48p` that are not all multiples of `p`, the assignments satisfy the constraints -/
theorem glCInv_complete [Fact r.Prime] (hr : 2 ^ 250 < r) (n : Fin 3 → Nat) (hn : ∀ e, n e < 48 * P) {x : Ext3.K}
    (hx : Ext3.coord (n 0 : F) (n 1 : F) (n 2 : F) = x) (h0 : x ≠ 0) :
    GLCInv (fun e => ((n e : Nat) : ZMod r)) (fun e => ((cinvWit (n 0) (n 1) (n 2) e : ℤ) : ZMod r)) := by
  have hP : ((P : Nat) : ℤ) = 0xFFFFFFFF00000001 := rfl
  have hW := cinvWit_range (n 0) (n 1) (n 2)
  have hnrm : Ext3.nrm (n 0 : F) (n 1 : F) (n 2 : F) ≠ 0 := Ext3.nrm_ne_zero (by rw [hx]; exact h0)
  obtain ⟨k0, k1, k2⟩ := cinvWit_cast (n 0) (n 1) (n 2) (n 0 : F) (n 1 : F) (n 2 : F) (by simp) (by simp) (by simp) hnrm
  generalize cinvWit (n 0) (n 1) (n 2) = W at hW k0 k1 k2 ⊢
  have hco : x * Ext3.coord (W 0 : F) (W 1 : F) (W 2 : F) = 1 := by
    rw [k0, k1, k2, ← hx, Ext3.coord_mul]
    have one : Ext3.coord 1 0 0 = (1 : Ext3.K) := by simp [Ext3.coord]
    have hd := mul_inv_cancel₀ hnrm
    rw [← one]
    generalize (Ext3.nrm (n 0 : F) (n 1 : F) (n 2 : F))⁻¹ = t at hd ⊢
    unfold Ext3.nrm at hd
    congr 1
    · linear_combination hd
    · ring
    · ring
  have hco' := eq_inv_of_mul_eq_one_right hco
  have ha : Lift3 Near (fun e => ((n e : Nat) : ZMod r)) x :=
    ⟨fun e => (n e : F), fun e => ⟨n e, by omega, by exact_mod_cast hn e, by simp, by simp⟩, hx⟩
  have hb : Lift3 Near (fun e => ((W e : ℤ) : ZMod r)) x⁻¹ :=
    ⟨fun e => (W e : F), fun e => ⟨W e, by have := (hW e).1; omega, by have := (hW e).2; omega, rfl, rfl⟩, hco'⟩
  obtain ⟨c1, d, c2, c3⟩ := glCMul_complete hr ha hb
  rw [mul_inv_cancel₀ h0] at c3
  have one : Ext3.coord 1 0 0 = (1 : Ext3.K) := by simp [Ext3.coord]
  rw [← one] at c3
  obtain ⟨d0, d1, d2⟩ := Ext3.coord_inj c3
  refine ⟨_, c1, ?_, ?_, ?_, fun e => ?_⟩
  · rw [c2 0, d0, canon_one]
  · rw [c2 1, d1, canon_zero]
  · rw [c2 2, d2, canon_zero]
  · obtain ⟨m, hm⟩ := Int.eq_ofNat_of_zero_le (hW e).1
    refine (num2Bits_ex _ _).mpr ⟨m, ?_, by dsimp only; rw [hm]; simp⟩
    have h := (hW e).2
    rw [hm] at h
    have : m < P := by exact_mod_cast h
    exact lt_trans this (by decide)

/-! ### What fails -/

/-- `GLNorm` is documented to return the remainder (gl.circom L5), but `0` may be returned as `0` or as `p` -/
theorem glNorm_not_unique [Fact r.Prime] (hr : 2 ^ 250 < r) :
    GLNorm (0 : ZMod r) 0 ∧ GLNorm (0 : ZMod r) (P : ZMod r) ∧ (0 : ZMod r) ≠ (P : ZMod r) := by
  refine ⟨⟨16, ?_⟩, ⟨15, ?_⟩, ?_⟩
  · exact ⟨(num2Bits_ex _ _).mpr ⟨16, by norm_num, by simp⟩, (num2Bits_ex _ _).mpr ⟨0, by norm_num, by simp⟩, by ring⟩
  · exact ⟨(num2Bits_ex _ _).mpr ⟨15, by norm_num, by simp⟩, (num2Bits_ex _ _).mpr ⟨P, by decide, rfl⟩, by ring⟩
  · intro h
    have := (ZMod.natCast_eq_zero_iff P r).mp h.symm
    have := Nat.le_of_dvd (by decide) this
    have hP : P < 2 ^ 250 := by decide
    omega

/-- the same for a product: `0 * 0` may be returned as `0` or as `p` -/
theorem glMul_not_unique [Fact r.Prime] : GLMul (0 : ZMod r) 0 0 ∧ GLMul (0 : ZMod r) 0 (P : ZMod r) := by
  refine ⟨⟨_, ((256 * P : Nat) : ZMod r), rfl, ?_⟩, ⟨_, ((256 * P - 1 : Nat) : ZMod r), rfl, ?_⟩⟩
  · exact ⟨(num2Bits_ex _ _).mpr ⟨256 * P, by decide, rfl⟩, (num2Bits_ex _ _).mpr ⟨0, by norm_num, by simp⟩, by push_cast; ring⟩
  · refine ⟨(num2Bits_ex _ _).mpr ⟨256 * P - 1, by decide, rfl⟩, (num2Bits_ex _ _).mpr ⟨P, by decide, rfl⟩, ?_⟩
    have : ((256 * P - 1 : Nat) : ZMod r) = 256 * (P : ZMod r) - 1 := by
      rw [Nat.cast_sub (by decide)]; push_cast; ring
    rw [this]; ring

/-- below `-16p` a product has no solution: the circuit cannot be satisfied -/
theorem glMul_stuck [Fact r.Prime] (hr : 2 ^ 250 < r) (o : ZMod r) : ¬ GLMul (((-16 * P - 1 : ℤ)) : ZMod r) 1 o := by
  rintro ⟨m, k, rfl, h1, h2, h3⟩
  obtain ⟨k, hk, rfl⟩ := (num2Bits_ex _ _).mp h1
  obtain ⟨o, ho, rfl⟩ := (num2Bits_ex _ _).mp h2
  have hP : ((P : Nat) : ℤ) = 0xFFFFFFFF00000001 := rfl
  have hkz : (k : ℤ) < 2 ^ 80 := by exact_mod_cast hk
  have hoz : (o : ℤ) < 2 ^ 64 := by exact_mod_cast ho
  have hrz : (2 : ℤ) ^ 250 < r := by exact_mod_cast hr
  have : (-(1 + 16 * (P : ℤ)) : ℤ) = (k : ℤ) * P + o := by
    apply int_inj (r := r)
    · push_cast at h3 ⊢
      rw [← h3]; ring
    · rw [hP, abs_lt]
      constructor <;> omega
  rw [hP] at this
  omega

/-! ### Example -/

/-- the field of the circuit is large enough -/
theorem bls_large : 2 ^ 250 < Poseidon.blsMod := by decide

/-- inputs of both signs: `3 * (-5)` -/
example : Near ((3 : ℤ) : ZMod Poseidon.blsMod) 3 ∧ Near ((-5 : ℤ) : ZMod Poseidon.blsMod) (-5) :=
  ⟨⟨3, by decide, by decide, rfl, by simp⟩, ⟨-5, by decide, by decide, rfl, by simp⟩⟩

example : inv1 3 = 12297829379609722881 := by decide +kernel

end Verif.Gadget
