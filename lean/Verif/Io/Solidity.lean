import Mathlib.Data.ZMod.Basic
import Mathlib.Algebra.BigOperators.Group.List.Basic

/-!
# C136: the generated Solidity verifier and `groth16_verify`, groth16/src/template.rs, groth16/src/api.rs L302-330, L390-484, L602-762

Not modelled: gas, the parsing of the Solidity text, the arithmetic of the curve (abstract groups `G1`, `G2`, `GT` with a pairing), and the library
`bellman` (`verify_proof` is taken as published).  Values of type `uint` are naturals: none of the operations on them below can overflow.
-/
namespace Verif.Io.Solidity

/-- coordinates of a point of G1 (`Pairing.G1Point`, api.rs L612-615) -/
abbrev C1 := ℕ × ℕ
/-- `Pairing.G2Point`, api.rs L617-620: `X[0], X[1]` and `Y[0], Y[1]` -/
abbrev C2 := (ℕ × ℕ) × (ℕ × ℕ)

/-- a bilinear map -/
structure Bilin (G1 G2 GT : Type) [AddCommGroup G1] [AddCommGroup G2] [CommGroup GT] where
  e : G1 → G2 → GT
  add_left : ∀ a b c, e (a + b) c = e a c * e b c
  add_right : ∀ a b c, e a (b + c) = e a b * e a c

/-- how the precompiled contracts 6, 7 and 8 read points (EIP-196, EIP-197): coordinates below `q`, on the curve, in the subgroup -/
structure Evm (G1 G2 : Type) [AddCommGroup G1] (q : ℕ) where
  enc1 : G1 → C1
  dec1 : C1 → Option G1
  dec_iff : ∀ c p, dec1 c = some p ↔ c = enc1 p
  enc_zero : enc1 0 = (0, 0)
  enc_neg : ∀ p, p ≠ 0 → enc1 (-p) = ((enc1 p).1, q - (enc1 p).2)
  enc_pos : ∀ p, p ≠ 0 → 0 < (enc1 p).2 ∧ (enc1 p).2 < q
  /-- coordinates over `Fq2`, each as real part, imaginary part -/
  dec2 : C2 → Option G2

section
variable {G1 G2 GT : Type} [AddCommGroup G1] [AddCommGroup G2] [CommGroup GT] [DecidableEq GT] {q : ℕ}

/-- `negate`, api.rs L634-640 -/
def negate (q : ℕ) (p : C1) : C1 := if p.1 = 0 ∧ p.2 = 0 then (0, 0) else (p.1, q - p.2 % q)

/-- `addition`, api.rs L642-656, precompile 6; `none` reverts -/
def addition (E : Evm G1 G2 q) (a b : C1) : Option C1 := do
  let x ← E.dec1 a
  let y ← E.dec1 b
  return E.enc1 (x + y)

/-- `scalar_mul`, api.rs L669-682, precompile 7 -/
def scalarMul (E : Evm G1 G2 q) (a : C1) (s : ℕ) : Option C1 := do
  let x ← E.dec1 a
  return E.enc1 (s • x)

/-- precompile 8 reads six words per pair: x, y, and for the second point the imaginary part before the real one (EIP-197) -/
def readPairs (E : Evm G1 G2 q) : List ℕ → Option (List (G1 × G2))
  | [] => some []
  | x :: y :: xi :: xr :: yi :: yr :: ws => do
    let p ← E.dec1 (x, y)
    let p' ← E.dec2 ((xr, xi), (yr, yi))
    let l ← readPairs E ws
    return (p, p') :: l
  | _ => none

/-- `pairing`, api.rs L687-712; the loop over the elements writes the six words of each at its place -/
def pairing (E : Evm G1 G2 q) (P : Bilin G1 G2 GT) (p1 : List C1) (p2 : List C2) : Option Bool :=
  if p1.length = p2.length then
    (readPairs E ((p1.zip p2).flatMap fun z => [z.1.1, z.1.2, z.2.1.2, z.2.1.1, z.2.2.2, z.2.2.1])).map fun l =>
      decide ((l.map fun z => P.e z.1 z.2).prod = 1)
  else none

/-- `VerifyingKey`, template.rs L4-10: coordinates -/
structure VkC where
  alpha : C1
  beta : C2
  gamma : C2
  delta : C2
  abc : List C1

/-- `Proof`, template.rs L11-15 -/
structure ProofC where
  a : C1
  b : C2
  c : C1

/-- the loop of `verify`, template.rs L30-33, from index `i` -/
def loop (E : Evm G1 G2 q) (r : ℕ) (abc : List C1) : List ℕ → ℕ → C1 → Option C1
  | [], _, x => some x
  | s :: ss, i, x =>
    if s < r then do
      let g ← abc[i + 1]?
      let t ← scalarMul E g s
      let x' ← addition E x t
      loop E r abc ss (i + 1) x'
    else none

/-- `verify`, template.rs L25-41: 0 if the proof is accepted -/
def verify (E : Evm G1 G2 q) (P : Bilin G1 G2 GT) (r : ℕ) (vk : VkC) (input : List ℕ) (pr : ProofC) : Option ℕ :=
  if input.length + 1 = vk.abc.length then do
    let x ← loop E r vk.abc input 0 (0, 0)
    let g ← vk.abc[0]?
    let x ← addition E x g
    let ok ← pairing E P [pr.a, negate q x, negate q pr.c, negate q vk.alpha] [pr.b, vk.gamma, vk.delta, vk.beta]
    return if ok then 0 else 1
  else none

/-- `verifyTx`, template.rs L42-53; the type of `input` (api.rs L449-455) fixes the number of inputs -/
def verifyTx (E : Evm G1 G2 q) (P : Bilin G1 G2 GT) (r : ℕ) (vk : VkC) (input : List ℕ) (pr : ProofC) : Option Bool :=
  if input.length = vk.abc.length - 1 then (verify E P r vk input pr).map fun z => z = 0 else none

/-- a verification key of points -/
structure Vk (G1 G2 : Type) where
  alpha : G1
  beta : G2
  gamma : G2
  delta : G2
  ic : List G1

/-- `Groth16::verify_with_processed_vk`, groth16/src/groth16.rs L98-106: `prepare_verifying_key` and `verify_proof` of bellman; `none` is an error -/
def native (P : Bilin G1 G2 GT) {r : ℕ} (vk : Vk G1 G2) (input : List (ZMod r)) (a : G1) (b : G2) (c : G1) : Option Bool :=
  if input.length + 1 = vk.ic.length then do
    let g ← vk.ic[0]?
    let acc := (input.zip (vk.ic.drop 1)).foldl (fun acc z => acc + z.1.val • z.2) g
    return decide (P.e a b * P.e acc (-vk.gamma) * P.e c (-vk.delta) = P.e vk.alpha vk.beta)
  else none

/-! ## lemmas -/

theorem Bilin.zero_left (P : Bilin G1 G2 GT) (c : G2) : P.e 0 c = 1 := by
  have := P.add_left 0 0 c
  rw [add_zero] at this
  exact left_eq_mul.mp this

theorem Bilin.zero_right (P : Bilin G1 G2 GT) (a : G1) : P.e a 0 = 1 := by
  have := P.add_right a 0 0
  rw [add_zero] at this
  exact left_eq_mul.mp this

theorem Bilin.neg_left (P : Bilin G1 G2 GT) (a : G1) (c : G2) : P.e (-a) c = (P.e a c)⁻¹ := by
  refine eq_inv_of_mul_eq_one_left ?_
  rw [← P.add_left, neg_add_cancel, P.zero_left]

theorem Bilin.neg_right (P : Bilin G1 G2 GT) (a : G1) (c : G2) : P.e a (-c) = (P.e a c)⁻¹ := by
  refine eq_inv_of_mul_eq_one_left ?_
  rw [← P.add_right, neg_add_cancel, P.zero_right]

theorem Evm.dec_enc (E : Evm G1 G2 q) (p : G1) : E.dec1 (E.enc1 p) = some p := (E.dec_iff _ _).mpr rfl

theorem negate_enc (E : Evm G1 G2 q) (p : G1) : negate q (E.enc1 p) = E.enc1 (-p) := by
  by_cases h : p = 0
  · subst h
    rw [neg_zero, E.enc_zero]
    rfl
  · obtain ⟨h1, h2⟩ := E.enc_pos p h
    rw [negate, if_neg (by omega), Nat.mod_eq_of_lt h2, E.enc_neg p h]

/-- the coordinates `x` that the contract takes for the point `c`, when it negates: the second one only counts modulo `q` -/
def Reads (E : Evm G1 G2 q) (x : C1) (c : G1) : Prop :=
  x = E.enc1 c ∨ (c ≠ 0 ∧ x.1 = (E.enc1 c).1 ∧ x.2 % q = (E.enc1 c).2)

theorem negate_reads (E : Evm G1 G2 q) (hq : 0 < q) (x : C1) (c : G1) : E.dec1 (negate q x) = some (-c) ↔ Reads E x c := by
  rw [E.dec_iff]
  constructor
  · intro h
    by_cases hc : c = 0
    · subst hc
      refine Or.inl ?_
      rw [neg_zero, E.enc_zero, negate] at h
      rw [E.enc_zero]
      split at h
      · rename_i h0
        exact Prod.ext h0.1 h0.2
      · have := (Prod.ext_iff.mp h).2
        have h3 := Nat.mod_lt x.2 hq
        dsimp only at this
        omega
    · refine Or.inr ⟨hc, ?_⟩
      obtain ⟨h1, h2⟩ := E.enc_pos c hc
      rw [E.enc_neg c hc, negate] at h
      split at h
      · have := (Prod.ext_iff.mp h).2
        dsimp only at this
        omega
      · have h3 := (Prod.ext_iff.mp h).2
        have h4 := Nat.mod_lt x.2 hq
        dsimp only at h3
        exact ⟨(Prod.ext_iff.mp h).1, by omega⟩
  · rintro (h | ⟨hc, h1, h2⟩)
    · rw [h, negate_enc]
    · obtain ⟨h3, h4⟩ := E.enc_pos c hc
      have : x.2 ≠ 0 := by
        intro h0
        rw [h0, Nat.zero_mod] at h2
        omega
      rw [negate, if_neg (by omega), E.enc_neg c hc, h1, h2]

theorem addition_enc (E : Evm G1 G2 q) (a b : G1) : addition E (E.enc1 a) (E.enc1 b) = some (E.enc1 (a + b)) := by
  simp [addition, E.dec_enc]

theorem scalarMul_enc (E : Evm G1 G2 q) (a : G1) (s : ℕ) : scalarMul E (E.enc1 a) s = some (E.enc1 (s • a)) := by
  simp [scalarMul, E.dec_enc]

/-- the combination with points instead of coordinates -/
def comb (ss : List ℕ) (ic : List G1) (a : G1) : G1 := (ss.zip ic).foldl (fun acc z => acc + z.1 • z.2) a

theorem loop_eq (E : Evm G1 G2 q) (r : ℕ) (ic : List G1) (ss : List ℕ) : ∀ (i : ℕ) (a : G1), i + 1 + ss.length ≤ ic.length →
    loop E r (ic.map E.enc1) ss i (E.enc1 a) = if ∀ s ∈ ss, s < r then some (E.enc1 (comb ss (ic.drop (i + 1)) a)) else none := by
  induction ss with
  | nil => intro i a _; simp [loop, comb]
  | cons s ss ih =>
    intro i a h
    rw [List.length_cons] at h
    rw [loop]
    by_cases hs : s < r
    · have hi : i + 1 < ic.length := by omega
      rw [if_pos hs, List.getElem?_map, List.getElem?_eq_getElem hi]
      simp only [Option.map_some, Option.bind_eq_bind, Option.bind_some, scalarMul_enc, addition_enc]
      rw [ih (i + 1) _ (by omega), List.drop_eq_getElem_cons hi]
      simp only [List.forall_mem_cons, hs, true_and]
      rfl
    · rw [if_neg hs, if_neg]
      exact fun h' => hs (h' s List.mem_cons_self)

theorem comb_add (ss : List ℕ) (ic : List G1) : ∀ a b, comb ss ic a + b = comb ss ic (a + b) := by
  induction ss generalizing ic with
  | nil => intro a b; rfl
  | cons s ss ih =>
    intro a b
    cases ic with
    | nil => rfl
    | cons g ic =>
      have := ih ic (a + s • g) b
      rw [add_right_comm] at this
      exact this

theorem comb_cast {r : ℕ} (ss : List ℕ) (hs : ∀ s ∈ ss, s < r) (ic : List G1) (a : G1) :
    ((ss.map fun s : ℕ => (s : ZMod r)).zip ic).foldl (fun acc z => acc + z.1.val • z.2) a = comb ss ic a := by
  induction ss generalizing ic a with
  | nil => rfl
  | cons s ss ih =>
    cases ic with
    | nil => rfl
    | cons g ic =>
      have h := ih (fun s h => hs s (List.mem_cons_of_mem _ h)) ic (a + s • g)
      have h1 : ((s : ZMod r)).val = s := ZMod.val_cast_of_lt (hs s List.mem_cons_self)
      rw [List.map_cons, List.zip_cons_cons, List.foldl_cons]
      dsimp only
      rw [h1]
      exact h

/-- the call to the pairing precompile -/
theorem pairing_four (E : Evm G1 G2 q) (P : Bilin G1 G2 GT) (x1 x2 x3 x4 : C1) (y1 y2 y3 y4 : C2) :
    pairing E P [x1, x2, x3, x4] [y1, y2, y3, y4] = some true ↔
      ∃ a1 a2 a3 a4 b1 b2 b3 b4, (E.dec1 x1 = some a1 ∧ E.dec1 x2 = some a2 ∧ E.dec1 x3 = some a3 ∧ E.dec1 x4 = some a4) ∧
        (E.dec2 y1 = some b1 ∧ E.dec2 y2 = some b2 ∧ E.dec2 y3 = some b3 ∧ E.dec2 y4 = some b4) ∧
        P.e a1 b1 * P.e a2 b2 * P.e a3 b3 * P.e a4 b4 = 1 := by
  rw [pairing, if_pos (show [x1, x2, x3, x4].length = [y1, y2, y3, y4].length from rfl)]
  simp only [List.zip_cons_cons, List.zip_nil_left, List.flatMap_cons, List.flatMap_nil, List.cons_append, List.nil_append, readPairs, Prod.mk.eta,
    Option.bind_eq_bind]
  rcases E.dec1 x1 with _ | a1
  · simp
  rcases E.dec1 x2 with _ | a2
  · simp
  rcases E.dec1 x3 with _ | a3
  · simp
  rcases E.dec1 x4 with _ | a4
  · simp
  rcases E.dec2 y1 with _ | b1
  · simp
  rcases E.dec2 y2 with _ | b2
  · simp
  rcases E.dec2 y3 with _ | b3
  · simp
  rcases E.dec2 y4 with _ | b4
  · simp
  simp [mul_assoc]

/-- the key in the contract is the key `vk` -/
structure KeyOk (E : Evm G1 G2 q) (c : VkC) (vk : Vk G1 G2) : Prop where
  alpha : c.alpha = E.enc1 vk.alpha
  beta : E.dec2 c.beta = some vk.beta
  gamma : E.dec2 c.gamma = some vk.gamma
  delta : E.dec2 c.delta = some vk.delta
  abc : c.abc = vk.ic.map E.enc1

/-- **C136**: the contract made for a key accepts inputs and a proof if and only if the inputs are below the order of the group, the coordinates are those of
points, and `groth16_verify` accepts these points and inputs. -/
theorem contract_iff (E : Evm G1 G2 q) (P : Bilin G1 G2 GT) (hq : 0 < q) {r : ℕ} (c : VkC) (vk : Vk G1 G2) (hk : KeyOk E c vk) (hic : vk.ic ≠ [])
    (input : List ℕ) (pr : ProofC) :
    verifyTx E P r c input pr = some true ↔
      (∀ s ∈ input, s < r) ∧ ∃ a b z, E.dec1 pr.a = some a ∧ E.dec2 pr.b = some b ∧ Reads E pr.c z ∧
        native P vk (input.map fun s : ℕ => (s : ZMod r)) a b z = some true := by
  obtain ⟨g, rest, hg⟩ := List.exists_cons_of_ne_nil hic
  have hl : c.abc.length = vk.ic.length := by rw [hk.abc, List.length_map]
  have hl' : vk.ic.length = rest.length + 1 := by rw [hg]; rfl
  by_cases hn : input.length = rest.length
  swap
  · rw [verifyTx, if_neg (by omega)]
    refine iff_of_false (by simp) ?_
    rintro ⟨_, a, b, z, _, _, _, h⟩
    rw [native, if_neg (by rw [List.length_map]; omega)] at h
    cases h
  rw [verifyTx, if_pos (by omega), verify, if_pos (by omega)]
  have hloop := loop_eq E r vk.ic input 0 0 (by omega)
  rw [E.enc_zero, ← hk.abc] at hloop
  rw [hloop]
  by_cases hs : ∀ s ∈ input, s < r
  swap
  · rw [if_neg hs]
    exact iff_of_false (by simp) fun h => hs h.1
  rw [if_pos hs]
  have h0 : c.abc[0]? = some (E.enc1 g) := by rw [hk.abc, hg]; rfl
  have hd : vk.ic.drop 1 = rest := by rw [hg]; rfl
  have hadd : comb input rest 0 + g = comb input rest g := by rw [comb_add, zero_add]
  simp only [Nat.zero_add, hd, Option.bind_eq_bind, Option.bind_some, h0, addition_enc, hadd, negate_enc, hk.alpha]
  have hnat : ∀ a b z, native P vk (input.map fun s : ℕ => (s : ZMod r)) a b z = some true ↔
      P.e a b * P.e (comb input rest g) (-vk.gamma) * P.e z (-vk.delta) = P.e vk.alpha vk.beta := by
    intro a b z
    rw [native, if_pos (by rw [List.length_map]; omega), hd, show vk.ic[0]? = some g by rw [hg]; rfl]
    simp only [Option.bind_eq_bind, Option.bind_some]
    rw [comb_cast input hs]
    simp
  have hgroup : ∀ a b z, P.e a b * P.e (-(comb input rest g)) vk.gamma * P.e (-z) vk.delta * P.e (-vk.alpha) vk.beta = 1 ↔
      P.e a b * P.e (comb input rest g) (-vk.gamma) * P.e z (-vk.delta) = P.e vk.alpha vk.beta := by
    intro a b z
    simp only [P.neg_left, P.neg_right]
    exact mul_inv_eq_one
  have hres : ∀ o : Option Bool, ((o.bind fun ok => some (if ok = true then 0 else 1)).map fun z : ℕ => decide (z = 0)) = some true ↔ o = some true := by
    intro o
    rcases o with _ | _ | _ <;> simp
  refine (hres _).trans ((pairing_four E P _ _ _ _ _ _ _ _).trans ?_)
  constructor
  · rintro ⟨a1, a2, a3, a4, b1, b2, b3, b4, ⟨h1, h2, h3, h4⟩, ⟨k1, k2, k3, k4⟩, he⟩
    rw [E.dec_enc] at h2 h4
    cases h2
    cases h4
    cases hk.gamma.symm.trans k2
    cases hk.delta.symm.trans k3
    cases hk.beta.symm.trans k4
    refine ⟨hs, a1, b1, -a3, h1, k1, (negate_reads E hq _ _).mp (by rw [neg_neg]; exact h3), (hnat _ _ _).mpr ((hgroup _ _ _).mp ?_)⟩
    rw [neg_neg]
    exact he
  · rintro ⟨_, a, b, z, h1, k1, hz, h⟩
    exact ⟨a, _, -z, _, b, _, _, _, ⟨h1, E.dec_enc _, (negate_reads E hq _ _).mpr hz, E.dec_enc _⟩, ⟨k1, hk.gamma, hk.delta, hk.beta⟩,
      (hgroup _ _ _).mpr ((hnat _ _ _).mp h)⟩

/-- for coordinates as `groth16_prove` writes them the contract and `groth16_verify` agree -/
theorem contract_honest (E : Evm G1 G2 q) (P : Bilin G1 G2 GT) (hq : 0 < q) {r : ℕ} (c : VkC) (vk : Vk G1 G2) (hk : KeyOk E c vk) (hic : vk.ic ≠ [])
    (input : List ℕ) (hin : ∀ s ∈ input, s < r) (a : G1) (b : G2) (z : G1) (cb : C2) (hb : E.dec2 cb = some b) :
    verifyTx E P r c input ⟨E.enc1 a, cb, E.enc1 z⟩ = some true ↔ native P vk (input.map fun s : ℕ => (s : ZMod r)) a b z = some true := by
  rw [contract_iff E P hq c vk hk hic]
  constructor
  · rintro ⟨_, a', b', z', h1, h2, h3, h4⟩
    cases (E.dec_enc a).symm.trans h1
    cases hb.symm.trans h2
    have := ((negate_reads E hq _ _).mpr h3).symm.trans ((negate_reads E hq _ z).mpr (Or.inl rfl))
    cases neg_injective (Option.some.inj this)
    exact h4
  · intro h
    exact ⟨hin, a, b, z, E.dec_enc a, hb, Or.inl rfl, h⟩

/-- an input that is not below the order is rejected: there is one list of inputs for each list of field elements -/
theorem contract_inputs (E : Evm G1 G2 q) (P : Bilin G1 G2 GT) (hq : 0 < q) {r : ℕ} (c : VkC) (vk : Vk G1 G2) (hk : KeyOk E c vk) (hic : vk.ic ≠ [])
    (i₁ i₂ : List ℕ) (pr pr' : ProofC) (h₁ : verifyTx E P r c i₁ pr = some true) (h₂ : verifyTx E P r c i₂ pr' = some true)
    (h : i₁.map (fun s : ℕ => (s : ZMod r)) = i₂.map fun s : ℕ => (s : ZMod r)) : i₁ = i₂ := by
  have key : ∀ l : List ℕ, (∀ s ∈ l, s < r) → (l.map fun s : ℕ => (s : ZMod r)).map ZMod.val = l := by
    intro l hl
    rw [List.map_map]
    conv_rhs => rw [← List.map_id l]
    exact List.map_congr_left fun s hs => ZMod.val_cast_of_lt (hl s hs)
  rw [← key i₁ ((contract_iff E P hq c vk hk hic i₁ pr).mp h₁).1, h, key i₂ ((contract_iff E P hq c vk hk hic i₂ pr').mp h₂).1]

/-- **the proof is malleable**: an accepted proof with another second coordinate of the point `c`, larger by `q`, is accepted too -/
theorem contract_malleable (E : Evm G1 G2 q) (P : Bilin G1 G2 GT) (hq : 0 < q) {r : ℕ} (c : VkC) (vk : Vk G1 G2) (hk : KeyOk E c vk) (hic : vk.ic ≠ [])
    (input : List ℕ) (a : C1) (b : C2) (z : G1) (hz : z ≠ 0) (h : verifyTx E P r c input ⟨a, b, E.enc1 z⟩ = some true) :
    verifyTx E P r c input ⟨a, b, ((E.enc1 z).1, (E.enc1 z).2 + q)⟩ = some true := by
  rw [contract_iff E P hq c vk hk hic] at h ⊢
  obtain ⟨h0, a', b', z', h1, h2, h3, h4⟩ := h
  refine ⟨h0, a', b', z', h1, h2, ?_, h4⟩
  have := ((negate_reads E hq _ _).mpr h3).symm.trans ((negate_reads E hq _ z).mpr (Or.inl rfl))
  cases neg_injective (Option.some.inj this)
  exact Or.inr ⟨hz, rfl, by rw [Nat.add_mod_right, Nat.mod_eq_of_lt (E.enc_pos z hz).2]⟩

end

/-! ## an example: groups of order five, written with coordinates modulo seven -/

/-- the coordinates -/
def toyEnc (p : ZMod 5) : C1 := [(0, 0), (1, 1), (2, 2), (2, 5), (1, 6)].getD p.val (0, 0)

/-- the precompiles -/
def toy : Evm (ZMod 5) (ZMod 5) 7 where
  enc1 := toyEnc
  dec1 c := [0, 1, 2, 3, 4].find? fun p => toyEnc p = c
  dec_iff := by
    intro c p
    constructor
    · intro h
      exact (of_decide_eq_true (p := toyEnc p = c) (List.find?_some (p := fun p => decide (toyEnc p = c)) h)).symm
    · rintro rfl
      revert p
      decide
  enc_zero := rfl
  enc_neg := by decide
  enc_pos := by decide
  dec2 c := if c.1.1 < 5 ∧ c.1.2 = 0 ∧ c.2 = (3, 4) then some (c.1.1 : ZMod 5) else none

/-- the pairing -/
def toyP : Bilin (ZMod 5) (ZMod 5) (Multiplicative (ZMod 5)) where
  e a b := Multiplicative.ofAdd (a * b)
  add_left a b c := by rw [add_mul]; rfl
  add_right a b c := by rw [mul_add]; rfl

/-- a key with two inputs -/
def toyVk : Vk (ZMod 5) (ZMod 5) := ⟨2, 3, 1, 4, [1, 2, 3]⟩
/-- its coordinates -/
def toyVkC : VkC := ⟨(2, 2), ((3, 0), (3, 4)), ((1, 0), (3, 4)), ((4, 0), (3, 4)), [(1, 1), (2, 2), (2, 5)]⟩

example : KeyOk toy toyVkC toyVk ∧ toyVk.ic ≠ [] := ⟨⟨by decide, by decide, by decide, by decide, by decide⟩, by decide⟩

/-- inputs 1 and 4, proof (1, 0, 1): accepted, also with the second coordinate of `c` moved by 7, which is not accepted for `a`; another input and another `c` are
rejected, an input that is not reduced reverts -/
example : verifyTx toy toyP 5 toyVkC [1, 4] ⟨(1, 1), ((0, 0), (3, 4)), (1, 1)⟩ = some true ∧
    verifyTx toy toyP 5 toyVkC [1, 4] ⟨(1, 1), ((0, 0), (3, 4)), (1, 8)⟩ = some true ∧
    verifyTx toy toyP 5 toyVkC [1, 4] ⟨(1, 8), ((0, 0), (3, 4)), (1, 1)⟩ = none ∧
    verifyTx toy toyP 5 toyVkC [1, 3] ⟨(1, 1), ((0, 0), (3, 4)), (1, 1)⟩ = some false ∧
    verifyTx toy toyP 5 toyVkC [1, 4] ⟨(1, 1), ((0, 0), (3, 4)), (2, 5)⟩ = some false ∧
    verifyTx toy toyP 5 toyVkC [1, 9] ⟨(1, 1), ((0, 0), (3, 4)), (1, 1)⟩ = none := by decide

end Verif.Io.Solidity
