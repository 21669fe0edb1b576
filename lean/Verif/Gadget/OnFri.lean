import Verif.Gadget.OnQuery
import Verif.Gadget.Bits
import Verif.Fri.Model

/-!
# C123: the folding steps and the degree check of the on-chain circuit, starky/src/stark_verifier_circom_onchain.rs L1286-1578
-/
set_option linter.unusedSectionVars false

namespace Verif.Gadget.OnFri
open Verif.GL (F)
open Verif.Ext3 (K coord)
open Stark Codegen Circom OnCode FFT

noncomputable local instance : DecidableEq K := Classical.decEq _

variable {r : Nat}

/-- `e0`, L1379-1381: printed with `as_int`, the canonical number of the first coordinate; the shift is in the base field -/
def e0 (ext pb : Nat) : ZMod r := canon (Roots.shift ^ 2 ^ (ext - pb))⁻¹

/-- `e1`, L1375-1378 -/
def e1 (ext pb : Nat) : ZMod r := canon (Roots.shift ^ 2 ^ (ext - pb) * Roots.mg pb)⁻¹

/-- `ys[q][0] * (e1 - e0) + e0`, L1388 -/
def firstS (ext pb : Nat) (y : ZMod r) : ZMod r := y * (e1 ext pb - e0 ext pb) + e0 ext pb

/-- `ys[q][i] * (_inv1(roots(pb - i)) - 1) + 1`, L1392 -/
def factorS (pb i : Nat) (y : ZMod r) : ZMod r := y * ((((inv1 (rootsTab.getD (pb - i) 0)).toNat : Nat) : ZMod r) - 1) + 1

/-- the signals of one query in one folding step -/
structure FoldSigs (r : Nat) where
  sx : Nat → ZMod r
  X : ZMod r
  fft : Nat → Fin 3 → ZMod r
  xprime : Fin 3 → ZMod r
  ev : Fin 3 → ZMod r
  low : Nat → ZMod r
  norm : Fin 3 → ZMod r

/-- the constraints of step `s ≥ 1` for one query, L1286-1498 and L1534-1546, without the Merkle tree (C117).
`ext = nBitsExt`, `pb = steps[s-1].nBits`, `nb = steps[s].nBits`, `lb = steps[s+1].nBits` or 0 for the last step; `vals i e` is the signal
`s{s}_vals[q][i*3+e]`, `nxt i e` is `s{s+1}_vals[q][i*3+e]` or `finalPol[i][e]`; `sp` is `s{s}_specialX`.  (`nb = 1` makes the generator
panic, L1410, unless the first step has one bit too.) -/
structure FoldSat (ext pb nb lb : Nat) (vals nxt : Nat → Fin 3 → ZMod r) (ys : Nat → ZMod r) (sp : Fin 3 → ZMod r) (enable : ZMod r)
    (σ : FoldSigs r) : Prop where
  first : GLMul (firstS ext pb (ys 0)) (factorS pb 1 (ys 1)) (σ.sx 0)
  next : ∀ i, i + 2 < nb → GLMul (σ.sx i) (factorS pb (i + 2) (ys (i + 2))) (σ.sx (i + 1))
  x : σ.X = σ.sx (nb - 2)
  fft : FFT (pb - nb) true vals σ.fft
  xprime : GLCMul sp ![σ.X, 0, 0] σ.xprime
  ev : EvalPol (2 ^ (pb - nb)) σ.fft σ.xprime σ.ev
  low : TreeSelector (nb - lb) 3 (fun j k => nxt j (Fin.ofNat 3 k)) (fun i => ys (i + lb)) σ.low
  norm : GLCNorm (fun k => σ.ev k - σ.low k + (P : ZMod r)) σ.norm
  check : ∀ k, enable * σ.norm k = 0

/-- the degree check of the last polynomial, L1549-1578: `n` is `nLastBits`, `m` is `maxDegBits` -/
def LastSat (n m : Nat) (finalPol : Nat → Fin 3 → ZMod r) (enable : ZMod r) : Prop :=
  ∃ out, FFT n true finalPol out ∧ ∀ k, 2 ^ m ≤ k → k < 2 ^ n → ∀ e, enable * out k e = 0

/-! ### Specification -/

/-- the native check of one query in one folding step (`checkOne` of Verif/Fri/Model.lean, starky/src/fri.rs L235-262): `group` is the opened
row, `next` the opened row of the next layer or the last polynomial -/
def NativeFold (ext pb nb lb : Nat) (sp : K) (group next : List K) (idx : Nat) : Prop :=
  ∃ c, Fri.ifftC mgK group = some c ∧
    next[(idx % 2 ^ nb) / 2 ^ lb]? = some (evalPol c (sp * (shiftK ^ 2 ^ (ext - pb) * mgK pb ^ (idx % 2 ^ nb))⁻¹))

/-! ### Proofs -/

theorem pow_shift_ne (k : Nat) : (Roots.shift : F) ^ k ≠ 0 := pow_ne_zero _ (by decide +kernel)

theorem nat_RI {m : Nat} (h : m < P) {x : F} (hx : (m : F) = x) : RI 0 1 (m : ZMod r) x :=
  ⟨(m : ℤ), by simp, by rw [Nat.cast_one, one_mul]; exact_mod_cast h, by push_cast; rfl, by push_cast; exact hx⟩

theorem canon_RI (x : F) : RI 0 1 (canon x : ZMod r) x := nat_RI (ZMod.val_lt x) (ZMod.natCast_zmod_val x)

theorem firstS_RI (ext pb : Nat) (b : Bool) : RI 0 1 (firstS ext pb (if b then 1 else 0) : ZMod r)
    (if b then (Roots.shift ^ 2 ^ (ext - pb) * Roots.mg pb)⁻¹ else (Roots.shift ^ 2 ^ (ext - pb))⁻¹) := by
  cases b
  · have := canon_RI (r := r) (Roots.shift ^ 2 ^ (ext - pb))⁻¹
    simpa [firstS, e0] using this
  · have := canon_RI (r := r) (Roots.shift ^ 2 ^ (ext - pb) * Roots.mg pb)⁻¹
    simpa [firstS, e1] using this

theorem factorS_RI {pb i : Nat} (hk : pb - i ≤ 32) (b : Bool) :
    RI 0 1 (factorS pb i (if b then 1 else 0) : ZMod r) (if b then (Roots.mg (pb - i))⁻¹ else 1) := by
  have hP : ((P : Nat) : ℤ) = 0xFFFFFFFF00000001 := rfl
  cases b
  · refine ⟨1, by simp, by rw [hP]; norm_num, by simp [factorS], by simp⟩
  · have h0 : ((rootsTab.getD (pb - i) 0 : Nat) : F) ≠ 0 := by rw [rootsTab_eq hk]; exact (mg_pow hk).2
    obtain ⟨h1, h2⟩ := inv1_cast h0
    rw [rootsTab_eq hk] at h1
    have := nat_RI (r := r) h2 h1
    simpa [factorS] using this

theorem first_inv (a : F) (pb idx : Nat) : (if idx.testBit 0 then (a * Roots.mg pb)⁻¹ else a⁻¹) = (a * Roots.mg pb ^ (idx % 2 ^ 1))⁻¹ := by
  rw [show (1 : Nat) = 0 + 1 from rfl, mod_two_pow_succ']
  cases idx.testBit 0 <;> simp [Nat.mod_one]

theorem next_inv {pb : Nat} (hpb : pb ≤ 32) (a : F) (idx : Nat) {i : Nat} (hi : i ≤ pb) : (a * Roots.mg pb ^ (idx % 2 ^ i))⁻¹ *
    (if idx.testBit i then (Roots.mg (pb - i))⁻¹ else 1) = (a * Roots.mg pb ^ (idx % 2 ^ (i + 1)))⁻¹ := by
  rw [mod_two_pow_succ' idx i, mg_down hpb i hi]
  cases idx.testBit i
  · simp
  · simp only [if_true]
    rw [pow_add, ← mul_inv, mul_assoc]

/-- the accumulated inverse of the point -/
theorem sx_sound [Fact r.Prime] (hr : 2 ^ 250 < r) {ext pb nb : Nat} (hle : nb ≤ pb) (hpb : pb ≤ 32) {idx : Nat} {ys : Nat → ZMod r}
    (hy : ∀ j < nb, ys j = if idx.testBit j then 1 else 0) {sx : Nat → ZMod r} (h0 : GLMul (firstS ext pb (ys 0)) (factorS pb 1 (ys 1)) (sx 0))
    (hs : ∀ i, i + 2 < nb → GLMul (sx i) (factorS pb (i + 2) (ys (i + 2))) (sx (i + 1))) :
    ∀ i, i + 1 < nb → Out (sx i) (Roots.shift ^ 2 ^ (ext - pb) * Roots.mg pb ^ (idx % 2 ^ (i + 2)))⁻¹
  | 0, h => by
    rw [hy 0 (by omega), hy 1 (by omega)] at h0
    have := glMul_sound hr ((firstS_RI ext pb _).rep (by omega) (by omega)) ((factorS_RI (by omega) _).rep (by omega) (by omega)) h0
    rwa [first_inv, next_inv hpb _ idx (by omega)] at this
  | i + 1, h => by
    have ih := sx_sound hr hle hpb hy h0 hs i (by omega)
    have h1 := hs i (by omega)
    rw [hy (i + 2) (by omega)] at h1
    have := glMul_sound hr (ih.rep.mono (by norm_num)) ((factorS_RI (by omega) _).rep (by omega) (by omega)) h1
    rwa [next_inv hpb _ idx (by omega)] at this

theorem sx_exist [Fact r.Prime] (hr : 2 ^ 250 < r) {ext pb nb : Nat} (h1 : 1 < nb) (hle : nb ≤ pb) (hpb : pb ≤ 32) {idx : Nat} {ys : Nat → ZMod r}
    (hy : ∀ j < nb, ys j = if idx.testBit j then 1 else 0) :
    ∃ sx : Nat → ZMod r, GLMul (firstS ext pb (ys 0)) (factorS pb 1 (ys 1)) (sx 0) ∧
      ∀ i, i + 2 < nb → GLMul (sx i) (factorS pb (i + 2) (ys (i + 2))) (sx (i + 1)) := by
  have hf := fun i (hi : i < nb) => (by rw [hy i hi]; exact ⟨_, factorS_RI (by omega) _⟩ : ∃ x, RI 0 1 (factorS pb i (ys i)) x)
  have hmul : ∀ {a b : ZMod r} {x y : F}, Near a x → Near b y → ∃ o, GLMul a b o ∧ ∃ z : F, Out o z := fun ha hb =>
    let h := glMul_complete hr ha hb
    ⟨_, ⟨_, _, rfl, h.1⟩, _, glMul_sound hr (ha.rep.mono (by norm_num)) (hb.rep.mono (by norm_num)) ⟨_, _, rfl, h.1⟩⟩
  obtain ⟨y1, hy1⟩ := hf 1 h1
  have h0 : ∃ x, RI 0 1 (firstS ext pb (ys 0)) x := by rw [hy 0 (by omega)]; exact ⟨_, firstS_RI ext pb _⟩
  obtain ⟨y0, hy0⟩ := h0
  obtain ⟨o, ho, ho'⟩ := hmul (hy0.near (by omega) (by omega)) (hy1.near (by omega) (by omega))
  obtain ⟨f, f0, f1⟩ := seq_exists (fun _ z => ∃ x : F, Out z x) (fun i a b => i + 2 < nb → GLMul a (factorS pb (i + 2) (ys (i + 2))) b) o ho' (by
    rintro i a ⟨x, hx⟩
    by_cases hi : i + 2 < nb
    · obtain ⟨y, hy'⟩ := hf (i + 2) hi
      obtain ⟨b, b1, b2⟩ := hmul hx.near (hy'.near (by omega) (by omega))
      exact ⟨b, fun _ => b1, b2⟩
    · exact ⟨a, fun h => absurd h hi, x, hx⟩)
  exact ⟨f, by rw [f0]; exact ho, fun i hi => (f1 i).2 hi⟩

theorem native_ifft (l : List K) : native true l = Fri.ifftC mgK l := by
  rw [native, if_pos rfl]; rfl

theorem list_of_getD (l : List K) {n : Nat} (h : l.length = n) : (List.range n).map (fun i => l.getD i 0) = l := by
  apply List.ext_getElem (by simp [h])
  intro i h1 h2
  rw [List.getElem_map, List.getElem_range, List.getD_eq_getElem?_getD, List.getElem?_eq_getElem h2]
  rfl

/-- `EvalPol` for any number of coefficients -/
theorem evalPol_out [Fact r.Prime] (hr : 2 ^ 250 < r) {n : Nat} (hn : n ≠ 0) {pol : Nat → Fin 3 → ZMod r} {x out : Fin 3 → ZMod r} {a : Nat → K} {ξ : K}
    (hp : ∀ j < n, Lift3 Out (pol j) (a j)) (hx : Lift3 Out x ξ) (h : EvalPol n pol x out) :
    Lift3 Out out (FFT.evalPol ((List.range n).map a) ξ) := by
  by_cases h1 : 1 < n
  · exact evalPol_sound hr h1 (fun j hj => out3_rep (hp j hj)) (out3_rep hx) h
  · have : n = 1 := by omega
    subst this
    rw [(evalPol_one _ _ _).mp h, evalPol_list]
    simpa using hp 0 (by omega)

theorem evalPol_ex [Fact r.Prime] (hr : 2 ^ 250 < r) {n : Nat} (hn : n ≠ 0) {pol : Nat → Fin 3 → ZMod r} {x : Fin 3 → ZMod r} {a : Nat → K} {ξ : K}
    (hp : ∀ j < n, Lift3 Out (pol j) (a j)) (hx : Lift3 Out x ξ) : ∃ out, EvalPol n pol x out := by
  by_cases h1 : 1 < n
  · obtain ⟨o, ho, -⟩ := evalPol_complete hr h1 (fun j hj => out3_near (hp j hj)) (out3_near hx)
    exact ⟨o, ho⟩
  · have : n = 1 := by omega
    subst this
    exact ⟨_, (evalPol_one _ _ _).mpr rfl⟩

theorem fft_ex [Fact r.Prime] (hr : 2 ^ 250 < r) {n : Nat} (hn : n < 32) {inp : Nat → Fin 3 → ZMod r} {a : Nat → K}
    (hi : ∀ j < 2 ^ n, Lift3 Out (inp j) (a j)) : ∃ out, FFT n true inp out :=
  ⟨_, (fft_complete hr hn true hi).1⟩

/-- the inputs of a folding step are 64-bit numbers standing for the native values -/
structure FoldIn (pb nb lb : Nat) (vals nxt : Nat → Fin 3 → ZMod r) (ys : Nat → ZMod r) (sp : Fin 3 → ZMod r) (group next : List K) (spK : K)
    (idx : Nat) : Prop where
  glen : group.length = 2 ^ (pb - nb)
  nlen : next.length = 2 ^ (nb - lb)
  vals : ∀ i < 2 ^ (pb - nb), Lift3 Out (vals i) (group.getD i 0)
  nxt : ∀ i < 2 ^ (nb - lb), Lift3 Out (nxt i) (next.getD i 0)
  bits : ∀ j < nb, ys j = if idx.testBit j then 1 else 0
  sp : Lift3 Out sp spK

theorem ofNat3 (k : Fin 3) : Fin.ofNat 3 (k : Nat) = k := by fin_cases k <;> rfl

/-- the signals of a folding step stand for the folded value and the value of the next layer -/
theorem fold_core [Fact r.Prime] (hr : 2 ^ 250 < r) {ext pb nb lb : Nat} (h1 : 1 < nb) (hle : nb ≤ pb) (hpb : pb < 32) (hlb : lb < nb)
    {vals nxt : Nat → Fin 3 → ZMod r} {ys : Nat → ZMod r} {sp : Fin 3 → ZMod r} {group next : List K} {spK : K} {idx : Nat}
    (hin : FoldIn pb nb lb vals nxt ys sp group next spK idx) {σ : FoldSigs r}
    (g1 : GLMul (firstS ext pb (ys 0)) (factorS pb 1 (ys 1)) (σ.sx 0))
    (g2 : ∀ i, i + 2 < nb → GLMul (σ.sx i) (factorS pb (i + 2) (ys (i + 2))) (σ.sx (i + 1)))
    (g3 : σ.X = σ.sx (nb - 2)) (g4 : FFT (pb - nb) true vals σ.fft) (g5 : GLCMul sp ![σ.X, 0, 0] σ.xprime)
    (g6 : EvalPol (2 ^ (pb - nb)) σ.fft σ.xprime σ.ev)
    (g7 : TreeSelector (nb - lb) 3 (fun j k => nxt j (Fin.ofNat 3 k)) (fun i => ys (i + lb)) σ.low) :
    ∃ c e, Fri.ifftC mgK group = some c ∧ next[(idx % 2 ^ nb) / 2 ^ lb]? = some e ∧
      Lift3 (RI 1 3) (fun k => σ.ev k - σ.low k + (P : ZMod r))
        (evalPol c (spK * (shiftK ^ 2 ^ (ext - pb) * mgK pb ^ (idx % 2 ^ nb))⁻¹) - e) := by
  have hX := sx_sound hr hle hpb.le hin.bits g1 g2 (nb - 2) (by omega)
  rw [← g3, show nb - 2 + 2 = nb by omega] at hX
  obtain ⟨c, c1, c2, c3⟩ := fft_sound hr (n := pb - nb) (by omega) true (fun j hj => out3_rep (hin.vals j hj)) g4
  rw [list_of_getD group hin.glen, native_ifft] at c1
  have hxp := glCMul_sound hr (out3_rep hin.sp) (lift3_mono (fun _ _ h => h.rep (by omega) (by omega)) (base_RI (by omega) (out_RI hX))) g5
  have hev := evalPol_out hr (by positivity) c3 hxp g6
  rw [list_of_getD c c2] at hev
  have hlt : (idx % 2 ^ nb) / 2 ^ lb < 2 ^ (nb - lb) := by
    rw [Nat.div_lt_iff_lt_mul (by positivity), ← pow_add, show nb - lb + lb = nb by omega]
    exact Nat.mod_lt _ (by positivity)
  have hlow := (treeSelector_iff (r := r) (nLevels := nb - lb) (eSize := 3) (by omega) (v := (idx % 2 ^ nb) / 2 ^ lb) hlt
    (values := fun j k => nxt j (Fin.ofNat 3 k)) (key := fun i => ys (i + lb)) (by
      intro i hi
      show ys (i + lb) = bitZ _
      rw [hin.bits (i + lb) (by omega), Nat.testBit_div_two_pow, Nat.testBit_mod_two_pow, decide_eq_true (by omega), Bool.true_and]
      rfl) σ.low).mp g7
  refine ⟨c, next.getD ((idx % 2 ^ nb) / 2 ^ lb) 0, c1, ?_, ?_⟩
  · rw [List.getD_eq_getElem?_getD, List.getElem?_eq_getElem (by rw [hin.nlen]; exact hlt)]; rfl
  · have he := hin.nxt _ hlt
    rw [show algebraMap F K (Roots.shift ^ 2 ^ (ext - pb) * Roots.mg pb ^ (idx % 2 ^ nb))⁻¹ =
      (shiftK ^ 2 ^ (ext - pb) * mgK pb ^ (idx % 2 ^ nb))⁻¹ by rw [map_inv₀, map_mul, map_pow, map_pow]; rfl] at hev
    obtain ⟨u, u1, u2⟩ := hev
    obtain ⟨w, w1, w2⟩ := he
    refine ⟨fun k => u k - w k, fun k => ?_, by rw [← u2, ← w2, coord_sub']⟩
    have hk := hlow k k.2
    rw [ofNat3] at hk
    dsimp only
    rw [hk]
    exact ((out_RI (u1 k)).subp (out_RI (w1 k))).mono (by omega) (by omega)

/-- **C123**: with `enable = 1`, for all rows, points, query indices and layer sizes, the constraints of a folding step can be satisfied
exactly when the native check of the step succeeds -/
theorem onFold_iff [Fact r.Prime] (hr : 2 ^ 250 < r) {ext pb nb lb : Nat} (h1 : 1 < nb) (hle : nb ≤ pb) (hpb : pb < 32) (hlb : lb < nb)
    {vals nxt : Nat → Fin 3 → ZMod r} {ys : Nat → ZMod r} {sp : Fin 3 → ZMod r} {group next : List K} {spK : K} {idx : Nat}
    (hin : FoldIn pb nb lb vals nxt ys sp group next spK idx) :
    (∃ σ, FoldSat ext pb nb lb vals nxt ys sp 1 σ) ↔ NativeFold ext pb nb lb spK group next idx := by
  constructor
  · rintro ⟨σ, h⟩
    obtain ⟨c, e, c1, c2, c3⟩ := fold_core hr h1 hle hpb hlb hin h.first h.next h.x h.fft h.xprime h.ev h.low
    obtain ⟨cc, n2, n3⟩ := glCNorm_sound hr (lift3_mono (fun _ _ h => h.rep (by omega) (by omega)) c3) h.norm
    have hzero : ∀ k, cc k = 0 := by
      intro k
      have h0 : σ.norm k = 0 := by have := h.check k; rwa [one_mul] at this
      have := n2 k
      rw [h0] at this
      simpa using out_small hr (n := 0) (by norm_num) (by simpa using this)
    rw [hzero 0, hzero 1, hzero 2, coord_base', map_zero] at n3
    exact ⟨c, c1, by rw [c2, sub_eq_zero.mp n3.symm]⟩
  · rintro ⟨c, n1, n2⟩
    obtain ⟨sx, s1, s2⟩ := sx_exist (ext := ext) hr h1 hle hpb.le hin.bits
    have hX := sx_sound hr hle hpb.le hin.bits s1 s2 (nb - 2) (by omega)
    obtain ⟨fo, f1⟩ := fft_ex hr (n := pb - nb) (by omega) hin.vals
    obtain ⟨l, -, -, l3⟩ := fft_sound hr (n := pb - nb) (by omega) true (fun j hj => out3_rep (hin.vals j hj)) f1
    obtain ⟨xp, x1, x2⟩ := glCMul_ex hr (out3_near hin.sp) (lift3_mono (fun _ _ h => h.near (by omega) (by omega)) (base_RI (by omega) (out_RI hX)))
    obtain ⟨ev, v1⟩ := evalPol_ex hr (n := 2 ^ (pb - nb)) (by positivity) l3 x2
    have hlt : (idx % 2 ^ nb) / 2 ^ lb < 2 ^ (nb - lb) := by
      rw [Nat.div_lt_iff_lt_mul (by positivity), ← pow_add, show nb - lb + lb = nb by omega]
      exact Nat.mod_lt _ (by positivity)
    have hlow := (treeSelector_iff (r := r) (nLevels := nb - lb) (eSize := 3) (by omega) (v := (idx % 2 ^ nb) / 2 ^ lb) hlt
      (values := fun j k => nxt j (Fin.ofNat 3 k)) (key := fun i => ys (i + lb)) (by
        intro i hi
        show ys (i + lb) = bitZ _
        rw [hin.bits (i + lb) (by omega), Nat.testBit_div_two_pow, Nat.testBit_mod_two_pow, decide_eq_true (by omega), Bool.true_and]
        rfl) (fun k => nxt ((idx % 2 ^ nb) / 2 ^ lb) (Fin.ofNat 3 k))).mpr (fun _ _ => rfl)
    let σ0 : FoldSigs r := ⟨sx, sx (nb - 2), fo, xp, ev, fun k => nxt ((idx % 2 ^ nb) / 2 ^ lb) (Fin.ofNat 3 k), 0⟩
    obtain ⟨c', e, c1, c2, c3⟩ := fold_core (σ := σ0) hr h1 hle hpb hlb hin s1 s2 rfl f1 x1 v1 hlow
    rw [n1] at c1
    obtain rfl := Option.some.inj c1
    rw [c2] at n2
    obtain ⟨o, o1, o2⟩ := glCNorm_ex hr (lift3_mono (fun _ _ h => h.mono (by omega) (by omega)) c3)
    refine ⟨{ σ0 with norm := o }, ⟨s1, s2, rfl, f1, x1, v1, hlow, o1, fun k => ?_⟩⟩
    show (1 : ZMod r) * o k = 0
    rw [o2 (by rw [Option.some.inj n2, sub_self]) k, mul_zero]

theorem lift0 [Fact r.Prime] (hr : 2 ^ 250 < r) {f : Fin 3 → ZMod r} {x : K} (h : Lift3 Out f x) (h0 : ∀ k, f k = 0) : x = 0 := by
  obtain ⟨c, h1, rfl⟩ := h
  have : ∀ k, c k = 0 := by
    intro k
    have := h1 k
    rw [h0] at this
    simpa using out_small hr (n := 0) (by norm_num) (by simpa using this)
  rw [this 0, this 1, this 2, coord_base', map_zero]

/-- **C123**, the degree check: the constraints can be satisfied exactly when all coefficients of the last polynomial from `2^m` on vanish -/
theorem onLast_iff [Fact r.Prime] (hr : 2 ^ 250 < r) {n m : Nat} (hn : n < 32) {finalPol : Nat → Fin 3 → ZMod r} {last : List K}
    (hl : last.length = 2 ^ n) (hf : ∀ i < 2 ^ n, Lift3 Out (finalPol i) (last.getD i 0)) :
    LastSat n m finalPol 1 ↔ ∃ c, Fri.ifftC mgK last = some c ∧ ∀ k, 2 ^ m ≤ k → k < 2 ^ n → c.getD k 0 = 0 := by
  constructor
  · rintro ⟨out, h1, h2⟩
    obtain ⟨c, c1, c2, c3⟩ := fft_sound hr hn true (fun j hj => out3_rep (hf j hj)) h1
    rw [list_of_getD last hl, native_ifft] at c1
    exact ⟨c, c1, fun k k1 k2 => lift0 hr (c3 k k2) fun e => by simpa using h2 k k1 k2 e⟩
  · rintro ⟨c, c1, c2⟩
    obtain ⟨h1, l, l1, l2, l3⟩ := fft_complete hr hn true hf
    rw [list_of_getD last hl, native_ifft, c1] at l1
    obtain rfl := Option.some.inj l1
    refine ⟨_, h1, fun k k1 k2 e => ?_⟩
    have := l3 k k2
    rw [c2 k k1 k2] at this
    obtain ⟨d, d1, d2⟩ := this
    obtain ⟨z0, z1, z2⟩ := Ext3.coord_eq_zero d2
    have hd : d e = 0 := by
      fin_cases e
      · exact z0
      · exact z1
      · exact z2
    have := d1 e
    dsimp only at this
    rw [this, hd, canon_zero, mul_zero]

/-- ... that is, when the native degree check succeeds and the coefficient at the bound, which the native check leaves out (C34),
vanishes too -/
theorem onLast_native [Fact r.Prime] (hr : 2 ^ 250 < r) {inN maxN n : Nat} (hn : n < 32) (hin : maxN ≤ inN) (hnb : inN - maxN ≤ n)
    {finalPol : Nat → Fin 3 → ZMod r} {last : List K} (hl : last.length = 2 ^ n) (hf : ∀ i < 2 ^ n, Lift3 Out (finalPol i) (last.getD i 0)) :
    LastSat n (n - (inN - maxN)) finalPol 1 ↔ Fri.finalCheck mgK inN maxN n last = some true ∧
      ∀ c, Fri.ifftC mgK last = some c → c.getD (2 ^ (n - (inN - maxN))) 0 = 0 := by
  obtain ⟨l, l1, l2, -⟩ := fft_sound hr hn true (fun j hj => out3_rep (hf j hj)) (fft_complete hr hn true hf).1
  rw [list_of_getD last hl, native_ifft] at l1
  have key : Fri.finalCheck mgK inN maxN n last = some true ↔ ∀ i < 2 ^ n, 2 ^ (n - (inN - maxN)) + 1 ≤ i → l.getD i 0 = 0 := by
    rw [Fri.finalCheck, if_neg (by omega), if_neg (by omega), l1, Option.map_some, Option.some_inj, List.all_eq_true, l2]
    simp only [List.mem_range, decide_eq_true_eq]
  rw [onLast_iff hr hn hl hf, key]
  constructor
  · rintro ⟨c, c1, c2⟩
    rw [l1] at c1
    obtain rfl := Option.some.inj c1
    refine ⟨fun i h1 h2 => c2 i (by omega) h1, fun c hc => ?_⟩
    rw [l1] at hc
    obtain rfl := Option.some.inj hc
    by_cases h : 2 ^ (n - (inN - maxN)) < 2 ^ n
    · exact c2 _ le_rfl h
    · rw [List.getD_eq_getElem?_getD, List.getElem?_eq_none (by omega)]; rfl
  · rintro ⟨h1, h2⟩
    refine ⟨l, l1, fun k k1 k2 => ?_⟩
    by_cases h : k = 2 ^ (n - (inN - maxN))
    · rw [h]; exact h2 l l1
    · exact h1 k k2 (by omega)

/-- `NativeFold` is the check of one query at one step of the native verifier, when the opened row passed the Merkle check -/
theorem nativeFold_checkOne {G Root Path Tree : Type} (mt : Fri.MT G Root Path Tree) (E : Fri.Enc G K) (cq : Fri.Q G Path → Nat → Option (List K))
    (last : List K) (first : Bool) (rest : List Nat) (q : Fri.Query G Root Path) (qs : List (Fri.Query G Root Path)) {ext pb nb lb idx i : Nat} {x : K}
    {ys : List Nat} (hy : ys[i]? = some (idx % 2 ^ nb)) {group next : List K} (hg : Fri.openedGroup mt E cq first q i (idx % 2 ^ nb) = some (some group))
    (he : Fri.expected E last rest qs i (idx % 2 ^ nb) = next[(idx % 2 ^ nb) / 2 ^ lb]?) :
    Fri.checkOne mt E mgK cq last first rest q qs pb (shiftK ^ 2 ^ (ext - pb)) x ys i = some true ↔ NativeFold ext pb nb lb x group next idx := by
  rw [Fri.checkOne, hy, Option.bind_some, hg, Option.bind_some, he, NativeFold]
  dsimp only
  constructor
  · intro h
    obtain ⟨c, c1, h⟩ := Option.bind_eq_some_iff.mp h
    obtain ⟨e, e1, h⟩ := Option.map_eq_some_iff.mp h
    exact ⟨c, c1, by rw [e1, of_decide_eq_true h]⟩
  · rintro ⟨c, c1, c2⟩
    rw [c1, Option.bind_some, c2, Option.map_some, decide_eq_true rfl]

/-! ### Examples -/

/-- non-vacuity: all rows of a step from 16 to 4 values, query 9 -/
example (g : Nat → Fin 3 → F) (h : Nat → Fin 3 → F) (s : Fin 3 → F) :
    let K3 := fun x : Fin 3 → F => coord (x 0) (x 1) (x 2)
    (∃ σ, FoldSat (r := Poseidon.blsMod) 6 4 2 0 (fun i e => canon (g i e)) (fun i e => canon (h i e)) (fun j => if (9 : Nat).testBit j then 1 else 0)
      (fun e => canon (s e)) 1 σ) ↔
      NativeFold 6 4 2 0 (K3 s) ((List.range 4).map fun i => K3 (g i)) ((List.range 4).map fun i => K3 (h i)) 9 := by
  intro K3
  have hS : ∀ x : Fin 3 → F, Lift3 Out (fun e => (canon (x e) : ZMod Poseidon.blsMod)) (K3 x) := fun x => ⟨x, fun e => canon_out _, rfl⟩
  have hget : ∀ (f : Nat → Fin 3 → F) (i : Nat), i < 4 → ((List.range 4).map fun i => K3 (f i)).getD i 0 = K3 (f i) := by
    intro f i hi
    rw [List.getD_eq_getElem?_getD, List.getElem?_map, List.getElem?_range hi]; rfl
  refine onFold_iff bls_large (by norm_num) (by norm_num) (by norm_num) (by norm_num) ⟨by simp, by simp, ?_, ?_, fun _ _ => rfl, hS s⟩
  · intro i hi
    rw [hget g i (by omega)]; exact hS _
  · intro i hi
    rw [hget h i (by omega)]; exact hS _

/-- non-vacuity of the degree check: a constant layer -/
example (s : Fin 3 → F) (n m : Nat) (hn : n < 32) :
    (LastSat (r := Poseidon.blsMod) n m (fun _ e => canon (s e)) 1 ↔
      ∃ c, Fri.ifftC mgK (List.replicate (2 ^ n) (coord (s 0) (s 1) (s 2))) = some c ∧ ∀ k, 2 ^ m ≤ k → k < 2 ^ n → c.getD k 0 = 0) :=
  onLast_iff bls_large hn (by simp) (fun i hi => by
    rw [List.getD_eq_getElem?_getD, List.getElem?_replicate, if_pos hi]
    exact ⟨s, fun e => canon_out _, rfl⟩)

end Verif.Gadget.OnFri
