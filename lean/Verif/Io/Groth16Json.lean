import Verif.Io.Text
import Verif.Plonk.Circuit
import Mathlib.Tactic.IntervalCases

/-!
# Groth16 proofs, keys and public inputs as JSON files (C128, C129): `groth16/src/json_utils.rs`, `algebraic/src/utils.rs`

The CPU build. A point is its pair of coordinates (`into_xy_unchecked`, `from_xy_unchecked` of crate `pairing`: the flag of the point at infinity is
not modelled); serde_json is taken to write and read the structures `G1`, `G2`, `ProofFile`, `VerifyingKeyFile` and lists of strings faithfully.
-/
namespace Verif.Io.Groth16Json

open Verif.Io.PilNumber (toDigit)
open Verif.Io.Text

/-- strings -/
abbrev Str := List Char

/-- `{:016x}` of a `u64` (standard library) -/
def hex16 (v : Nat) : Str := List.replicate (16 - (Nat.toDigits 16 v).length) '0' ++ Nat.toDigits 16 v

/-- the limbs of a representation, most significant first: `self.0.iter().rev()` of crate `ff_ce` -/
def limbsRev : Nat → Nat → List Nat
  | 0, _ => []
  | n + 1, v => v / 2 ^ (64 * n) % 2 ^ 64 :: limbsRev n v

/-- `Display` of a representation of `n` limbs (crate `ff_ce`): `0x` and sixteen digits per limb; called by json_utils.rs L122, utils.rs L12 -/
def reprString (n v : Nat) : Str := '0' :: 'x' :: ((limbsRev n v).map hex16).flatten

/-- the digit loop of `BigUint::from_str_radix` (crate num-bigint): underscores are skipped -/
def bigLoop (radix : Nat) : Str → Nat → Option Nat
  | [], acc => some acc
  | c :: cs, acc => if c = '_' then bigLoop radix cs acc else (toDigit radix c).bind fun d => bigLoop radix cs (acc * radix + d)

/-- the start of `BigUint::from_str_radix` (crate num-bigint): an optional `+` not followed by another is dropped -/
def stripPlus : Str → Str
  | '+' :: '+' :: cs => '+' :: '+' :: cs
  | '+' :: cs => cs
  | s => s

/-- `BigUint::from_str_radix` (crate num-bigint): no empty string, no leading underscore -/
def bigFromStr (radix : Nat) (s : Str) : Option Nat :=
  if stripPlus s = [] ∨ (stripPlus s).head? = some '_' then none else bigLoop radix (stripPlus s) 0

/-- utils.rs L11-13 `repr_to_big`; `none` is a panic (`unwrap`, or a string of fewer than two bytes) -/
def reprToBig (s : Str) : Option Str := if s.length < 2 then none else (bigFromStr 16 (s.drop 2)).map dec

/-- json_utils.rs L118-126 `render_scalar_to_str`, for a field whose representation has `n` limbs -/
def renderScalar {p : Nat} (n : Nat) (x : ZMod p) (toHex : Bool) : Option Str :=
  if toHex then some (reprString n x.val) else reprToBig (reprString n x.val)

/-- json_utils.rs L129-135 `render_str_to_scalar`; `none` is a panic -/
def strToScalar (p : Nat) (s : Str) : Option (ZMod p) :=
  (match s with
    | '0' :: 'x' :: rest => (bigFromStr 16 rest).map dec
    | _ => some s).bind (fieldFromStr p)

/-- json_utils.rs L29-33 `G1` -/
structure G1 where
  x : Str
  y : Str

/-- json_utils.rs L35-39 `G2` -/
structure G2 where
  x : Str × Str
  y : Str × Str

/-- a point of the first and of the second group: coordinates -/
abbrev Pt1 (p : Nat) := ZMod p × ZMod p
abbrev Pt2 (p : Nat) := (ZMod p × ZMod p) × (ZMod p × ZMod p)

/-- json_utils.rs L96-98, L144-147, L177-180 `parse_g1`, `parse_g1_json` -/
def parseG1 {p : Nat} (n : Nat) (e : Pt1 p) (toHex : Bool) : Option G1 := do
  let x ← renderScalar n e.1 toHex
  let y ← renderScalar n e.2 toHex
  return ⟨x, y⟩

/-- json_utils.rs L100-103, L149-157, L182-190 `parse_g2`, `parse_g2_json` -/
def parseG2 {p : Nat} (n : Nat) (e : Pt2 p) (toHex : Bool) : Option G2 := do
  let x0 ← renderScalar n e.1.1 toHex
  let x1 ← renderScalar n e.1.2 toHex
  let y0 ← renderScalar n e.2.1 toHex
  let y1 ← renderScalar n e.2.2 toHex
  return ⟨(x0, x1), (y0, y1)⟩

/-- json_utils.rs L159-161, L192-194 `to_g1` on the strings of a file -/
def toG1 (p : Nat) (g : G1) : Option (Pt1 p) := do
  let x ← strToScalar p g.x
  let y ← strToScalar p g.y
  return (x, y)

/-- json_utils.rs L163-167, L196-200 `to_g2` -/
def toG2 (p : Nat) (g : G2) : Option (Pt2 p) := do
  let x0 ← strToScalar p g.x.1
  let x1 ← strToScalar p g.x.2
  let y0 ← strToScalar p g.y.1
  let y1 ← strToScalar p g.y.2
  return ((x0, x1), (y0, y1))

/-- bellman `Proof` -/
structure Proof (p : Nat) where
  a : Pt1 p
  b : Pt2 p
  c : Pt1 p

/-- json_utils.rs L75-87 `ProofFile` -/
structure ProofFile where
  a : G1
  b : G2
  c : G1
  protocol : Str
  curve : Str

/-- bellman `VerifyingKey` -/
structure VK (p : Nat) where
  alphaG1 : Pt1 p
  betaG1 : Pt1 p
  betaG2 : Pt2 p
  gammaG2 : Pt2 p
  deltaG1 : Pt1 p
  deltaG2 : Pt2 p
  ic : List (Pt1 p)

/-- json_utils.rs L53-73 `VerifyingKeyFile` -/
structure VKFile where
  protocol : Str
  curve : Str
  alphaG1 : G1
  betaG1 : G1
  betaG2 : G2
  gammaG2 : G2
  deltaG1 : G1
  deltaG2 : G2
  ic : List G1

/-- json_utils.rs L302-312 `serialize_proof` -/
def serializeProof {p : Nat} (n : Nat) (pr : Proof p) (curve : Str) (toHex : Bool) : Option ProofFile := do
  let a ← parseG1 n pr.a toHex
  let b ← parseG2 n pr.b toHex
  let c ← parseG1 n pr.c toHex
  return ⟨a, b, c, "groth16".toList, curve⟩

/-- json_utils.rs L335-343 `to_proof` -/
def toProof (p : Nat) (f : ProofFile) : Option (Proof p) := do
  let a ← toG1 p f.a
  let b ← toG2 p f.b
  let c ← toG1 p f.c
  return ⟨a, b, c⟩

/-- json_utils.rs L281-300 `serialize_vk` -/
def serializeVk {p : Nat} (n : Nat) (vk : VK p) (curve : Str) (toHex : Bool) : Option VKFile := do
  let a ← parseG1 n vk.alphaG1 toHex
  let b1 ← parseG1 n vk.betaG1 toHex
  let b2 ← parseG2 n vk.betaG2 toHex
  let g2 ← parseG2 n vk.gammaG2 toHex
  let d1 ← parseG1 n vk.deltaG1 toHex
  let d2 ← parseG2 n vk.deltaG2 toHex
  let ic ← vk.ic.mapM fun e => parseG1 n e toHex
  return ⟨"groth16".toList, curve, a, b1, b2, g2, d1, d2, ic⟩

/-- json_utils.rs L314-333 `to_verification_key` -/
def toVk (p : Nat) (f : VKFile) : Option (VK p) := do
  let a ← toG1 p f.alphaG1
  let b1 ← toG1 p f.betaG1
  let b2 ← toG2 p f.betaG2
  let g2 ← toG2 p f.gammaG2
  let d1 ← toG1 p f.deltaG1
  let d2 ← toG2 p f.deltaG2
  let ic ← f.ic.mapM (toG1 p)
  return ⟨a, b1, b2, g2, d1, d2, ic⟩

/-- circom_circuit.rs L79-86 `get_public_inputs_json`, the strings of the list -/
def publicInputsJson {p : Nat} (n : Nat) (ci : Plonk.Circuit.Circ (ZMod p)) : Option (List Str) :=
  (Plonk.Circuit.getPublicInputs ci).bind fun
    | none => some []
    | some l => l.mapM fun x => reprToBig (reprString n x.val)

/-- json_utils.rs L138-141 `to_public_input` -/
def toPublicInput (p : Nat) (l : List Str) : Option (List (ZMod p)) := l.mapM (strToScalar p)

/-! ## Proofs -/

theorem toDigit16_digitChar : ∀ d < 16, toDigit 16 (Nat.digitChar d) = some d ∧ Nat.digitChar d ≠ '_' := by decide +kernel

theorem bigLoop_append (r : Nat) (a b : Str) (x : Nat) : bigLoop r (a ++ b) x = (bigLoop r a x).bind (bigLoop r b) := by
  induction a generalizing x with
  | nil => rfl
  | cons c a ih =>
    rw [List.cons_append, bigLoop, bigLoop]
    split_ifs
    · exact ih x
    · cases toDigit r c with
      | none => rfl
      | some d => exact ih _

theorem bigLoop_zeros (k : Nat) (x : Nat) : bigLoop 16 (List.replicate k '0') x = some (x * 16 ^ k) := by
  induction k generalizing x with
  | zero => simp [bigLoop]
  | succ k ih =>
    rw [List.replicate_succ, bigLoop, if_neg (by decide), show toDigit 16 '0' = some 0 by decide +kernel, Option.bind_some, ih]
    congr 1
    ring

theorem bigLoop_digits (v x : Nat) : bigLoop 16 (Nat.toDigits 16 v) x = some (x * 16 ^ (Nat.toDigits 16 v).length + v) := by
  induction v using Nat.strong_induction_on generalizing x with
  | _ v ih =>
    by_cases hv : v < 16
    · rw [Nat.toDigits_of_lt_base hv, bigLoop, if_neg (toDigit16_digitChar v hv).2, (toDigit16_digitChar v hv).1]
      simp [bigLoop]
    · have e : 16 * (v / 16) + v % 16 = v := Nat.div_add_mod v 16
      have hd : v % 16 < 16 := Nat.mod_lt _ (by norm_num)
      have h1 : Nat.toDigits 16 v = Nat.toDigits 16 (v / 16) ++ [Nat.digitChar (v % 16)] := by
        rw [← Nat.toDigits_of_lt_base hd, Nat.toDigits_append_toDigits (by norm_num) (by omega) hd, e]
      rw [h1, bigLoop_append, ih (v / 16) (by omega), Option.bind_some, bigLoop, if_neg (toDigit16_digitChar _ hd).2, (toDigit16_digitChar _ hd).1,
        Option.bind_some, bigLoop, List.length_append, List.length_singleton, pow_succ]
      congr 1
      nlinarith

theorem hex16_length {v : Nat} (h : v < 2 ^ 64) : (hex16 v).length = 16 := by
  have := Nat.toDigits_length 16 v 16 (by norm_num) (by norm_num; omega)
  simp [hex16]
  omega

theorem bigLoop_hex16 {v : Nat} (h : v < 2 ^ 64) (x : Nat) : bigLoop 16 (hex16 v) x = some (x * 2 ^ 64 + v) := by
  have hl := hex16_length h
  rw [hex16, List.length_append, List.length_replicate] at hl
  rw [hex16, bigLoop_append, bigLoop_zeros, Option.bind_some, bigLoop_digits, mul_assoc, ← pow_add, hl, show (16 : Nat) ^ 16 = 2 ^ 64 by norm_num]

theorem bigLoop_limbs (n v x : Nat) : bigLoop 16 ((limbsRev n v).map hex16).flatten x = some (x * 2 ^ (64 * n) + v % 2 ^ (64 * n)) := by
  induction n generalizing x with
  | zero => simp [limbsRev, bigLoop, Nat.mod_one]
  | succ n ih =>
    rw [limbsRev, List.map_cons, List.flatten_cons, bigLoop_append, bigLoop_hex16 (Nat.mod_lt _ (by positivity)), Option.bind_some, ih]
    refine congrArg some ?_
    rw [show 64 * (n + 1) = 64 * n + 64 by ring, pow_add, Nat.mod_mul]
    generalize (2 : Nat) ^ 64 = B
    generalize (2 : Nat) ^ (64 * n) = A
    ring

theorem hexDigit_plain (v : Nat) : ∀ c ∈ hex16 v, c ≠ '_' ∧ c ≠ '+' := by
  intro c hc
  rw [hex16, List.mem_append] at hc
  rcases hc with hc | hc
  · rw [List.eq_of_mem_replicate hc]; decide
  · induction v using Nat.strong_induction_on with
    | _ v ih =>
      by_cases hv : v < 16
      · rw [Nat.toDigits_of_lt_base hv, List.mem_singleton] at hc
        subst hc
        revert v
        decide +kernel
      · have e : 16 * (v / 16) + v % 16 = v := Nat.div_add_mod v 16
        have hd : v % 16 < 16 := Nat.mod_lt _ (by norm_num)
        rw [← e, ← Nat.toDigits_append_toDigits (by norm_num) (by omega) hd, Nat.toDigits_of_lt_base hd, List.mem_append, List.mem_singleton] at hc
        rcases hc with hc | rfl
        · exact ih (v / 16) (by omega) hc
        · generalize v % 16 = d at hd
          revert d
          decide +kernel

/-- the digits of a representation, read as one number -/
theorem bigFromStr_repr {n v : Nat} (hn : 0 < n) (hv : v < 2 ^ (64 * n)) : bigFromStr 16 ((limbsRev n v).map hex16).flatten = some v := by
  have hl := bigLoop_limbs n v 0
  have hne : ((limbsRev n v).map hex16).flatten ≠ [] := by
    obtain ⟨m, rfl⟩ := Nat.exists_eq_succ_of_ne_zero hn.ne'
    rw [limbsRev, List.map_cons, List.flatten_cons]
    intro h
    have := hex16_length (v := v / 2 ^ (64 * m) % 2 ^ 64) (Nat.mod_lt _ (by positivity))
    rw [(List.append_eq_nil_iff.mp h).1] at this
    simp at this
  have hpl : ∀ c ∈ ((limbsRev n v).map hex16).flatten, c ≠ '_' ∧ c ≠ '+' := by
    intro c hc
    obtain ⟨l, hl, hc⟩ := List.mem_flatten.mp hc
    obtain ⟨w, _, rfl⟩ := List.mem_map.mp hl
    exact hexDigit_plain w c hc
  rw [Nat.mod_eq_of_lt hv, Nat.zero_mul, Nat.zero_add] at hl
  generalize ((limbsRev n v).map hex16).flatten = s at *
  obtain ⟨c, cs, rfl⟩ := List.exists_cons_of_ne_nil hne
  obtain ⟨h1, h2⟩ := hpl c (by simp)
  have hs : stripPlus (c :: cs) = c :: cs := by
    unfold stripPlus
    split
    · rename_i heq
      exact absurd (List.cons.inj heq).1 h2
    · rename_i heq
      exact absurd (List.cons.inj heq).1 h2
    · rfl
  rw [bigFromStr, hs, if_neg (by simp [h1]), hl]

variable {p : Nat} [NeZero p] {n : Nat}

/-- rendering never fails and reading gives the value back, in both formats -/
theorem scalar_roundtrip (hn : 0 < n) (hp : p ≤ 2 ^ (64 * n)) (x : ZMod p) (toHex : Bool) :
    ∃ s, renderScalar n x toHex = some s ∧ strToScalar p s = some x := by
  have hb := bigFromStr_repr hn (lt_of_lt_of_le (ZMod.val_lt x) hp)
  cases toHex with
  | true =>
    refine ⟨_, if_pos rfl, ?_⟩
    simp only [strToScalar, reprString, hb, Option.map_some, Option.bind_some]
    rw [fieldFromStr_dec, ZMod.natCast_zmod_val]
  | false =>
    refine ⟨dec x.val, ?_, ?_⟩
    · rw [renderScalar, if_neg (by simp), reprToBig, if_neg (by simp [reprString]), reprString, List.drop_succ_cons, List.drop_succ_cons, List.drop_zero, hb]
      rfl
    · unfold strToScalar
      split
      · rename_i rest heq
        exfalso
        have : 'x' ∈ dec x.val := by rw [heq]; simp
        exact absurd (Nat.isDigit_of_mem_toDigits (b := 10) (n := x.val) (by norm_num) (by norm_num) this) (by decide)
      · rw [Option.bind_some, fieldFromStr_dec, ZMod.natCast_zmod_val]

theorem g1_roundtrip (hn : 0 < n) (hp : p ≤ 2 ^ (64 * n)) (e : Pt1 p) (toHex : Bool) : ∃ g, parseG1 n e toHex = some g ∧ toG1 p g = some e := by
  obtain ⟨s, h1, h2⟩ := scalar_roundtrip hn hp e.1 toHex
  obtain ⟨t, h3, h4⟩ := scalar_roundtrip hn hp e.2 toHex
  exact ⟨⟨s, t⟩, by simp [parseG1, h1, h3], by simp [toG1, h2, h4]⟩

theorem g2_roundtrip (hn : 0 < n) (hp : p ≤ 2 ^ (64 * n)) (e : Pt2 p) (toHex : Bool) : ∃ g, parseG2 n e toHex = some g ∧ toG2 p g = some e := by
  obtain ⟨s, h1, h2⟩ := scalar_roundtrip hn hp e.1.1 toHex
  obtain ⟨t, h3, h4⟩ := scalar_roundtrip hn hp e.1.2 toHex
  obtain ⟨u, h5, h6⟩ := scalar_roundtrip hn hp e.2.1 toHex
  obtain ⟨v, h7, h8⟩ := scalar_roundtrip hn hp e.2.2 toHex
  exact ⟨⟨(s, t), (u, v)⟩, by simp [parseG2, h1, h3, h5, h7], by simp [toG2, h2, h4, h6, h8]⟩

theorem mapM_roundtrip {α β : Type} {f : α → Option β} {g : β → Option α} (h : ∀ a, ∃ b, f a = some b ∧ g b = some a) :
    ∀ l : List α, ∃ l', l.mapM f = some l' ∧ l'.mapM g = some l
  | [] => ⟨[], rfl, rfl⟩
  | a :: l => by
    obtain ⟨b, h1, h2⟩ := h a
    obtain ⟨l', h3, h4⟩ := mapM_roundtrip h l
    exact ⟨b :: l', by rw [List.mapM_cons, h1, h3]; rfl, by rw [List.mapM_cons, h2, h4]; rfl⟩

/-- **C128** (proof): for every prime field of at most `n` limbs, every proof, every curve name and both formats: writing succeeds, and reading
the file gives the same proof. -/
theorem proof_roundtrip (hn : 0 < n) (hp : p ≤ 2 ^ (64 * n)) (pr : Proof p) (curve : Str) (toHex : Bool) :
    ∃ f, serializeProof n pr curve toHex = some f ∧ toProof p f = some pr ∧ f.protocol = "groth16".toList ∧ f.curve = curve := by
  obtain ⟨a, h1, h2⟩ := g1_roundtrip hn hp pr.a toHex
  obtain ⟨b, h3, h4⟩ := g2_roundtrip hn hp pr.b toHex
  obtain ⟨c, h5, h6⟩ := g1_roundtrip hn hp pr.c toHex
  exact ⟨_, by simp only [serializeProof, h1, h3, h5, Option.bind_eq_bind, Option.bind_some]; rfl,
    by simp only [toProof, h2, h4, h6, Option.bind_eq_bind, Option.bind_some]; rfl, rfl, rfl⟩

/-- **C128** (verification key): likewise, with any number of points in `IC`. -/
theorem vk_roundtrip (hn : 0 < n) (hp : p ≤ 2 ^ (64 * n)) (vk : VK p) (curve : Str) (toHex : Bool) :
    ∃ f, serializeVk n vk curve toHex = some f ∧ toVk p f = some vk ∧ f.protocol = "groth16".toList ∧ f.curve = curve := by
  obtain ⟨a, h1, h2⟩ := g1_roundtrip hn hp vk.alphaG1 toHex
  obtain ⟨b, h3, h4⟩ := g1_roundtrip hn hp vk.betaG1 toHex
  obtain ⟨c, h5, h6⟩ := g2_roundtrip hn hp vk.betaG2 toHex
  obtain ⟨d, h7, h8⟩ := g2_roundtrip hn hp vk.gammaG2 toHex
  obtain ⟨e, h9, h10⟩ := g1_roundtrip hn hp vk.deltaG1 toHex
  obtain ⟨f, h11, h12⟩ := g2_roundtrip hn hp vk.deltaG2 toHex
  obtain ⟨ic, h13, h14⟩ := mapM_roundtrip (fun e => g1_roundtrip hn hp e toHex) vk.ic
  exact ⟨_, by simp only [serializeVk, h1, h3, h5, h7, h9, h11, h13, Option.bind_eq_bind, Option.bind_some]; rfl,
    by simp only [toVk, h2, h4, h6, h8, h10, h12, h14, Option.bind_eq_bind, Option.bind_some]; rfl, rfl, rfl⟩

/-- **C128** (public inputs): the file written next to a proof holds the public inputs of the circuit: reading it gives exactly what
`get_public_inputs` returns, and the empty list without a witness. -/
theorem publics_roundtrip (hn : 0 < n) (hp : p ≤ 2 ^ (64 * n)) (ci : Plonk.Circuit.Circ (ZMod p)) {o : Option (List (ZMod p))}
    (h : Plonk.Circuit.getPublicInputs ci = some o) : ∃ f, publicInputsJson n ci = some f ∧ toPublicInput p f = some (o.getD []) := by
  cases o with
  | none => exact ⟨[], by rw [publicInputsJson, h]; rfl, rfl⟩
  | some l =>
    obtain ⟨f, h1, h2⟩ := mapM_roundtrip (fun x => scalar_roundtrip hn hp x false) l
    exact ⟨f, by rw [publicInputsJson, h, Option.bind_some]; exact h1, h2⟩

/-! ### C129: what a reader accepts -/

theorem digit_char {c : Char} {d : Nat} (h : toDigit 10 c = some d) : d < 10 ∧ c = Nat.digitChar d := by
  rw [Verif.Io.PilNumber.toDigit_iff] at h
  obtain ⟨hd, ⟨k, hk, rfl, rfl⟩ | ⟨k, hk, _, rfl⟩⟩ := h
  · refine ⟨hd, ?_⟩
    interval_cases d <;> rfl
  · omega

theorem dec_snoc {a d : Nat} (ha : 0 < a) (hd : d < 10) : dec (10 * a + d) = dec a ++ [Nat.digitChar d] := by
  rw [dec, dec, ← Nat.toDigits_of_lt_base hd, Nat.toDigits_append_toDigits (by norm_num) ha hd]

theorem fieldLoop_some (m : Nat) (cs : Str) : ∀ {a : Nat} (v : ZMod m), 0 < a → fieldLoop m cs false (a : ZMod m) = some v →
    ∃ k, dec k = dec a ++ cs ∧ v = (k : ZMod m) := by
  induction cs with
  | nil =>
    intro a v _ h
    exact ⟨a, by simp, (Option.some.inj h).symm⟩
  | cons c cs ih =>
    intro a v ha h
    rw [fieldLoop] at h
    obtain ⟨d, h1, h2⟩ := Option.bind_eq_some_iff.mp h
    obtain ⟨hd, rfl⟩ := digit_char h1
    rw [if_neg (by simp)] at h2
    have e : (a : ZMod m) * 10 + (d : ZMod m) = ((10 * a + d : Nat) : ZMod m) := by push_cast; ring
    rw [e] at h2
    obtain ⟨k, h3, h4⟩ := ih v (by omega) h2
    refine ⟨k, ?_, h4⟩
    rw [h3, dec_snoc ha hd, List.append_assoc]
    rfl

/-- `F::from_str` accepts exactly the decimal numerals without leading zeros, of any size -/
theorem fieldFromStr_iff (m : Nat) (s : Str) (v : ZMod m) : fieldFromStr m s = some v ↔ ∃ k : Nat, s = dec k ∧ v = (k : ZMod m) := by
  constructor
  · intro h
    unfold fieldFromStr at h
    split at h
    · exact absurd h (by simp)
    · exact ⟨0, by decide +kernel, by rw [← Option.some.inj h]; simp⟩
    · rename_i s hne h0
      obtain ⟨c, cs, rfl⟩ := List.exists_cons_of_ne_nil hne
      rw [fieldLoop] at h
      obtain ⟨d, h1, h2⟩ := Option.bind_eq_some_iff.mp h
      obtain ⟨hd, rfl⟩ := digit_char h1
      split_ifs at h2 with hz
      have hd0 : 0 < d := Nat.pos_of_ne_zero fun e => hz ⟨rfl, e⟩
      rw [zero_mul, zero_add] at h2
      obtain ⟨k, h3, h4⟩ := fieldLoop_some m cs v hd0 h2
      refine ⟨k, ?_, h4⟩
      rw [h3, dec, Nat.toDigits_of_lt_base hd]
      rfl
  · rintro ⟨k, rfl, rfl⟩
    exact fieldFromStr_dec m k

/-- a hexadecimal digit, of either case, and its value -/
def HexDigit (c : Char) (d : Nat) : Prop := "0123456789abcdef".toList[d]? = some c ∨ "0123456789ABCDEF".toList[d]? = some c

theorem toDigit_hex (c : Char) (d : Nat) : toDigit 16 c = some d ↔ HexDigit c d := by
  constructor
  · intro h
    have key : ∀ n < 128, ∀ d < 16, toDigit 16 (Char.ofNat n) = some d → "0123456789abcdef".toList[d]? = some (Char.ofNat n) ∨
        "0123456789ABCDEF".toList[d]? = some (Char.ofNat n) := by decide +kernel
    have hd : d < 16 := by
      unfold toDigit at h
      dsimp only at h
      generalize (if 48 ≤ c.toNat ∧ c.toNat ≤ 57 then c.toNat - 48 else if 97 ≤ c.toNat ∧ c.toNat ≤ 102 then c.toNat - 87
        else if 65 ≤ c.toNat ∧ c.toNat ≤ 70 then c.toNat - 55 else 16) = v at h
      split at h
      · rename_i hv
        cases h
        exact hv
      · cases h
    have hc : c.toNat < 128 := by
      by_contra hge
      have : toDigit 16 c = none := by
        unfold toDigit
        dsimp only
        rw [if_neg (show ¬ (48 ≤ c.toNat ∧ c.toNat ≤ 57) by omega), if_neg (show ¬ (97 ≤ c.toNat ∧ c.toNat ≤ 102) by omega),
          if_neg (show ¬ (65 ≤ c.toNat ∧ c.toNat ≤ 70) by omega), if_neg (by omega)]
      rw [this] at h
      cases h
    have := key c.toNat hc d hd
    rw [Char.ofNat_toNat] at this
    exact this h
  · intro h
    have hd : d < 16 := by
      rcases h with h | h
      · exact (List.getElem?_eq_some_iff.mp h).1
      · exact (List.getElem?_eq_some_iff.mp h).1
    have key : ∀ d < 16, toDigit 16 ("0123456789abcdef".toList.getD d ' ') = some d ∧ toDigit 16 ("0123456789ABCDEF".toList.getD d ' ') = some d := by
      decide +kernel
    rcases h with h | h
    · have := (key d hd).1
      rwa [List.getD_eq_getElem?_getD, h] at this
    · have := (key d hd).2
      rwa [List.getD_eq_getElem?_getD, h] at this

theorem bigLoop_iff (t : Str) : ∀ acc v, bigLoop 16 t acc = some v ↔
    ∃ ds, List.Forall₂ HexDigit (t.filter (· ≠ '_')) ds ∧ v = acc * 16 ^ ds.length + Nat.ofDigits 16 ds.reverse := by
  induction t with
  | nil =>
    intro acc v
    simp [bigLoop, eq_comm]
  | cons c cs ih =>
    intro acc v
    by_cases hc : c = '_'
    · rw [bigLoop, if_pos hc, ih, List.filter_cons_of_neg (by simp [hc])]
    · rw [bigLoop, if_neg hc, Option.bind_eq_some_iff, List.filter_cons_of_pos (by simp [hc])]
      constructor
      · rintro ⟨d, h1, h2⟩
        obtain ⟨ds, h3, h4⟩ := (ih _ _).mp h2
        refine ⟨d :: ds, List.Forall₂.cons ((toDigit_hex c d).mp h1) h3, ?_⟩
        rw [h4, List.reverse_cons, Nat.ofDigits_append, List.length_reverse, List.length_cons, Nat.ofDigits_singleton]
        ring
      · rintro ⟨ds, h3, h4⟩
        cases h3 with
        | cons h5 h6 =>
          rename_i d ds
          refine ⟨d, (toDigit_hex c d).mpr h5, (ih _ _).mpr ⟨ds, h6, ?_⟩⟩
          rw [h4, List.reverse_cons, Nat.ofDigits_append, List.length_reverse, List.length_cons, Nat.ofDigits_singleton]
          ring

/-- what `BigUint` accepts in base 16, and as which number: an optional plus, then hexadecimal digits among which underscores may stand, but not first -/
theorem bigFromStr_iff (s : Str) (v : Nat) : bigFromStr 16 s = some v ↔ ∃ t ds, (s = t ∨ s = '+' :: t) ∧ t ≠ [] ∧ t.head? ≠ some '_' ∧
    List.Forall₂ HexDigit (t.filter (· ≠ '_')) ds ∧ v = Nat.ofDigits 16 ds.reverse := by
  have hplus : ∀ t ds, ¬ List.Forall₂ HexDigit (('+' :: t).filter (· ≠ '_')) ds := by
    intro t ds h
    rw [List.filter_cons_of_pos (by decide)] at h
    cases h with
    | cons h5 _ =>
      have := (toDigit_hex _ _).mpr h5
      revert this
      rw [show toDigit 16 '+' = none from by decide]
      simp
  have main : ∀ t, stripPlus s = t → (bigFromStr 16 s = some v ↔ ∃ ds, t ≠ [] ∧ t.head? ≠ some '_' ∧
      List.Forall₂ HexDigit (t.filter (· ≠ '_')) ds ∧ v = Nat.ofDigits 16 ds.reverse) := by
    intro t ht
    rw [bigFromStr, ht]
    by_cases h : t = [] ∨ t.head? = some '_'
    · rw [if_pos h]
      constructor
      · intro h'
        cases h'
      · rintro ⟨ds, h1, h2, _⟩
        exact absurd h (by rintro (h | h); exacts [h1 h, h2 h])
    · rw [if_neg h, bigLoop_iff]
      push Not at h
      simp only [Nat.zero_mul, Nat.zero_add]
      exact ⟨fun ⟨ds, h1, h2⟩ => ⟨ds, h.1, h.2, h1, h2⟩, fun ⟨ds, _, _, h1, h2⟩ => ⟨ds, h1, h2⟩⟩
  rw [main _ rfl]
  unfold stripPlus
  split
  · rename_i cs
    constructor
    · rintro ⟨ds, _, _, h, _⟩
      exact absurd h (hplus _ _)
    · rintro ⟨t, ds, h1 | h1, _, _, h, _⟩
      · rw [← h1] at h
        exact absurd h (hplus _ _)
      · rw [← (List.cons.inj h1).2] at h
        exact absurd h (hplus _ _)
  · rename_i cs hcs
    constructor
    · rintro ⟨ds, h⟩
      exact ⟨_, ds, Or.inr rfl, h⟩
    · rintro ⟨t, ds, h1 | h1, h2, h3, h, h4⟩
      · rw [← h1] at h
        exact absurd h (hplus _ _)
      · rw [← (List.cons.inj h1).2] at h2 h3 h
        exact ⟨ds, h2, h3, h, h4⟩
  · rename_i h0 h00
    constructor
    · rintro ⟨ds, h⟩
      exact ⟨_, ds, Or.inl rfl, h⟩
    · rintro ⟨t, ds, h1 | h1, h2, h3, h, h4⟩
      · rw [← h1] at h2 h3 h
        exact ⟨ds, h2, h3, h, h4⟩
      · exact absurd h1 (h00 t)

/-- `+a_F` is 175 -/
example : bigFromStr 16 "+a_F".toList = some 175 :=
  (bigFromStr_iff _ _).mpr ⟨"a_F".toList, [10, 15], Or.inr (by decide), by decide, by decide,
    List.Forall₂.cons (by decide +kernel : "0123456789abcdef".toList[10]? = some 'a' ∨ _) (List.Forall₂.cons (Or.inr (by decide +kernel)) List.Forall₂.nil), by decide⟩

/-- **C129**, what is accepted: after `0x` what `BigUint` accepts in base 16 (`bigFromStr_iff`), otherwise a decimal numeral without leading zeros; the result is the
number reduced modulo `p`. Missing: that numbers from `p` on are rejected, which fails (`str_alias`). -/
theorem strToScalar_partial (s : Str) (v : ZMod p) : strToScalar p s = some v ↔
    ∃ k : Nat, v = (k : ZMod p) ∧ (s = dec k ∨ ∃ t, s = '0' :: 'x' :: t ∧ bigFromStr 16 t = some k) := by
  unfold strToScalar
  split
  · rename_i rest
    rw [Option.bind_map]
    constructor
    · intro h
      obtain ⟨k, h1, h2⟩ := Option.bind_eq_some_iff.mp h
      rw [Function.comp, fieldFromStr_dec] at h2
      exact ⟨k, (Option.some.inj h2).symm, Or.inr ⟨rest, rfl, h1⟩⟩
    · rintro ⟨k, rfl, h | ⟨t, h, h1⟩⟩
      · have : 'x' ∈ dec k := by rw [← h]; simp
        exact absurd (Nat.isDigit_of_mem_toDigits (b := 10) (n := k) (by norm_num) (by norm_num) this) (by decide)
      · simp only [List.cons.injEq, true_and] at h
        subst h
        rw [h1, Option.bind_some, Function.comp, fieldFromStr_dec]
  · rename_i hx
    rw [Option.bind_some, fieldFromStr_iff]
    constructor
    · rintro ⟨k, h1, h2⟩
      exact ⟨k, h2, Or.inl h1⟩
    · rintro ⟨k, h2, h | ⟨t, h, _⟩⟩
      · exact ⟨k, h, h2⟩
      · exact absurd h (hx t)

/-- every element has infinitely many numerals that are accepted as it: a public-input file with `x + k p` in place of `x` is read as the same inputs -/
theorem str_alias (x k : Nat) : strToScalar p (dec (x + k * p)) = some ((x : Nat) : ZMod p) := by
  rw [strToScalar_partial]
  exact ⟨x + k * p, by simp, Or.inl rfl⟩

/-- the numerals differ -/
theorem dec_inj {a b : Nat} (h : dec a = dec b) : a = b := by
  have ha := fieldFromStr_dec 0 a
  have hb := fieldFromStr_dec 0 b
  rw [h, hb] at ha
  exact_mod_cast (Option.some.inj ha).symm

/-! ### Non-vacuity: BN254's base field, four limbs; BLS12-381's, six -/

/-- the base field of BN254 -/
def fqBn : Nat := 21888242871839275222246405745257275088696311157297823662689037894645226208583

instance : NeZero fqBn := ⟨by decide⟩

example (pr : Proof fqBn) : ∃ f, serializeProof 4 pr "BN128".toList false = some f ∧ toProof fqBn f = some pr ∧ f.protocol = "groth16".toList ∧ f.curve = "BN128".toList :=
  proof_roundtrip (n := 4) (by norm_num) (by norm_num [fqBn]) pr _ _

example (vk : VK fqBn) : ∃ f, serializeVk 4 vk "BN128".toList true = some f ∧ toVk fqBn f = some vk ∧ f.protocol = "groth16".toList ∧ f.curve = "BN128".toList :=
  vk_roundtrip (n := 4) (by norm_num) (by norm_num [fqBn]) vk _ _

example : ∃ f, publicInputsJson 4 (p := fqBn) ⟨3, 1, [], some [1, 7, 8, 9], none, 0⟩ = some f ∧ toPublicInput fqBn f = some [7, 8] :=
  publics_roundtrip (n := 4) (by norm_num) (by norm_num [fqBn]) _ (o := some [7, 8]) rfl

/-- 1 and 1 + p are two files for the same input -/
example : dec 1 ≠ dec (1 + fqBn) ∧ strToScalar fqBn (dec 1) = strToScalar fqBn (dec (1 + fqBn)) := by
  refine ⟨fun h => by have := dec_inj h; norm_num [fqBn] at this, ?_⟩
  have h0 := str_alias (p := fqBn) 1 0
  have h1 := str_alias (p := fqBn) 1 1
  rw [zero_mul, add_zero] at h0
  rw [one_mul] at h1
  rw [h0, h1]

end Verif.Io.Groth16Json
