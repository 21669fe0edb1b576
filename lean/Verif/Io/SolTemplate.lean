import Mathlib.Data.List.Basic

/-!
# C136: the text of the Solidity verifier, groth16/src/api.rs L390-484

The holes `<%name%>` of the template are pieces of their own.  Simplifications: the values are put in as text that is not searched again (the strings of a key
contain no `<%` and no `$`), and the last replacement, which writes `uint256(0x...)` around hexadecimal numbers of 64 digits, is left out.
-/
namespace Verif.Io.SolTemplate

/-- a piece of the template -/
inductive Piece where
  | text (s : String)
  | hole (name : List Char)

/-- `CONTRACT_TEMPLATE`, template.rs L1-54 -/
def template : List Piece := [
  .text "\ncontract Verifier {\n    using Pairing for *;\n    struct VerifyingKey {\n        Pairing.G1Point alpha;\n        Pairing.G2Point beta;\n        Pairing.G2Point gamma;\n        Pairing.G2Point delta;\n        Pairing.G1Point[] gamma_abc;\n    }\n    struct Proof {\n        Pairing.G1Point a;\n        Pairing.G2Point b;\n        Pairing.G1Point c;\n    }\n    function verifyingKey() pure internal returns (VerifyingKey memory vk) {\n        vk.alpha = Pairing.G1Point(",
  .hole "vk_alpha".toList,
  .text ");\n        vk.beta = Pairing.G2Point(",
  .hole "vk_beta".toList,
  .text ");\n        vk.gamma = Pairing.G2Point(",
  .hole "vk_gamma".toList,
  .text ");\n        vk.delta = Pairing.G2Point(",
  .hole "vk_delta".toList,
  .text ");\n        vk.gamma_abc = new Pairing.G1Point[](",
  .hole "vk_gamma_abc_length".toList,
  .text ");\n        ",
  .hole "vk_gamma_abc_pts".toList,
  .text "\n    }\n    function verify(uint[] memory input, Proof memory proof) internal view returns (uint) {\n        uint256 snark_scalar_field = 21888242871839275222246405745257275088548364400416034343698204186575808495617;\n        VerifyingKey memory vk = verifyingKey();\n        require(input.length + 1 == vk.gamma_abc.length);\n        // Compute the linear combination vk_x\n        Pairing.G1Point memory vk_x = Pairing.G1Point(0, 0);\n        for (uint i = 0; i < input.length; i++) {\n            require(input[i] < snark_scalar_field);\n            vk_x = Pairing.addition(vk_x, Pairing.scalar_mul(vk.gamma_abc[i + 1], input[i]));\n        }\n        vk_x = Pairing.addition(vk_x, vk.gamma_abc[0]);\n        if(!Pairing.pairingProd4(\n             proof.a, proof.b,\n             Pairing.negate(vk_x), vk.gamma,\n             Pairing.negate(proof.c), vk.delta,\n             Pairing.negate(vk.alpha), vk.beta)) return 1;\n        return 0;\n    }\n    function verifyTx(\n            Proof memory proof",
  .hole "input_argument".toList,
  .text "\n        ) public view returns (bool r) {\n        uint[] memory inputValues = new uint[](",
  .hole "vk_input_length".toList,
  .text ");\n        ",
  .hole "input_loop".toList,
  .text "\n        if (verify(inputValues, proof) == 0) {\n            return true;\n        } else {\n            return false;\n        }\n    }\n}\n"]

/-- `Regex::replace`: the first match -/
def replace (p : List Char → Bool) (new : String) : List Piece → List Piece
  | [] => []
  | .text s :: l => .text s :: replace p new l
  | .hole n :: l => if p n then .text new :: l else .hole n :: replace p new l

/-- `<%vk_[^i%]*%>`, api.rs L405 -/
def vkRegex (n : List Char) : Bool := n.take 3 = "vk_".toList ∧ ∀ c ∈ n.drop 3, c ≠ 'i' ∧ c ≠ '%'

/-- a pattern that is one name, api.rs L406-410 -/
def nameRegex (name : List Char) (n : List Char) : Bool := n = name

/-- the strings of a key: json_utils.rs L30-34 `G1`, L36-40 `G2` -/
structure VkFile where
  alpha : String × String
  beta : (String × String) × (String × String)
  gamma : (String × String) × (String × String)
  delta : (String × String) × (String × String)
  ic : List (String × String)

/-- `Display` of `G1`, json_utils.rs L42-46 -/
def showG1 (p : String × String) : String := p.1 ++ ", " ++ p.2

/-- `Display` of `G2`, json_utils.rs L48-52 -/
def showG2 (p : (String × String) × (String × String)) : String :=
  "[" ++ p.1.1 ++ ", " ++ p.1.2 ++ "], [" ++ p.2.1 ++ ", " ++ p.2.2 ++ "]"

/-- the loop over the points, api.rs L463-472, from index `i` of `n` -/
def points (n : Nat) : Nat → List (String × String) → String → String
  | _, [], acc => acc
  | i, g :: gs, acc =>
    let acc := acc ++ ("vk.gamma_abc[" ++ toString i ++ "] = Pairing.G1Point(" ++ showG1 g ++ ");")
    points n (i + 1) gs (if i < n - 1 then acc ++ "\n        " else acc)

/-- the loop of `verifyTx`, api.rs L439-443 -/
def inputLoop : String := "\n        for(uint i = 0; i < input.length; i++){\n            inputValues[i] = input[i];\n        }"

/-- `generate_verifier`, api.rs L390-477; `none`: the subtraction of L433 panics -/
def generate (vk : VkFile) : Option (List Piece) :=
  let n := vk.ic.length
  let t := replace vkRegex (showG1 vk.alpha) template
  let t := replace vkRegex (showG2 vk.beta) t
  let t := replace vkRegex (showG2 vk.gamma) t
  let t := replace vkRegex (showG2 vk.delta) t
  let t := replace (nameRegex "vk_gamma_abc_length".toList) (toString n) t
  if n = 0 then none else
    let t := replace (nameRegex "vk_input_length".toList) (toString (n - 1)) t
    let t := replace (nameRegex "input_loop".toList) (if n > 1 then inputLoop else "") t
    let t := replace (nameRegex "input_argument".toList) (if n > 1 then ", uint[" ++ toString (n - 1) ++ "] memory input" else "") t
    some (replace (nameRegex "vk_gamma_abc_pts".toList) (points n 0 vk.ic "") t)

/-- what belongs in a hole -/
def value (vk : VkFile) (n : List Char) : Option String :=
  if n = "vk_alpha".toList then some (showG1 vk.alpha)
  else if n = "vk_beta".toList then some (showG2 vk.beta)
  else if n = "vk_gamma".toList then some (showG2 vk.gamma)
  else if n = "vk_delta".toList then some (showG2 vk.delta)
  else if n = "vk_gamma_abc_length".toList then some (toString vk.ic.length)
  else if n = "vk_gamma_abc_pts".toList then
    some ("\n        ".intercalate (vk.ic.zipIdx.map fun g => "vk.gamma_abc[" ++ toString g.2 ++ "] = Pairing.G1Point(" ++ showG1 g.1 ++ ");"))
  else if n = "vk_input_length".toList then some (toString (vk.ic.length - 1))
  else if n = "input_loop".toList then some (if vk.ic.length = 1 then "" else inputLoop)
  else if n = "input_argument".toList then some (if vk.ic.length = 1 then "" else ", uint[" ++ toString (vk.ic.length - 1) ++ "] memory input")
  else none

/-- a piece with its hole filled -/
def fill (vk : VkFile) : Piece → Option String
  | .text s => some s
  | .hole n => value vk n

/-- the loop writes the assignments, in order and separated -/
theorem points_eq (gs : List (String × String)) : ∀ (i n : Nat) (acc : String), n = i + gs.length → points n i gs acc = acc ++
    "\n        ".intercalate ((gs.zipIdx i).map fun g => "vk.gamma_abc[" ++ toString g.2 ++ "] = Pairing.G1Point(" ++ showG1 g.1 ++ ");") := by
  induction gs with
  | nil =>
    intro i n acc _
    rw [points]
    exact String.append_empty.symm
  | cons g gs ih =>
    intro i n acc h
    rw [List.length_cons] at h
    cases gs with
    | nil =>
      rw [points, if_neg (by simp at h; omega), points]
      rfl
    | cons g' gs =>
      rw [List.length_cons] at h
      rw [points, if_pos (by omega), ih (i + 1) n _ (by rw [List.length_cons]; omega)]
      conv_rhs => rw [List.zipIdx_cons, List.map_cons, List.zipIdx_cons, List.map_cons, String.intercalate_cons_cons]
      conv_lhs => rw [List.zipIdx_cons, List.map_cons]
      simp only [String.append_assoc]

/-- **C136, the text**: `generate_verifier` fills every hole of the template with the part of the key that belongs there -/
theorem generate_fill (vk : VkFile) (h : vk.ic ≠ []) :
    ∃ t, generate vk = some t ∧ t.map (fun | .text s => some s | .hole _ => none) = template.map (fill vk) := by
  have hn : vk.ic.length ≠ 0 := fun h' => h (List.eq_nil_of_length_eq_zero h')
  refine ⟨_, if_neg hn, ?_⟩
  rw [points_eq vk.ic 0 _ "" (Nat.zero_add _).symm, String.empty_append]
  have e : ∀ a b : String, (if vk.ic.length > 1 then a else b) = if vk.ic.length = 1 then b else a := by
    intro a b
    by_cases h1 : vk.ic.length = 1
    · rw [if_pos h1, if_neg (by omega)]
    · rw [if_neg h1, if_pos (by omega)]
  rw [e, e]
  rfl

/-- no hole is left -/
theorem generate_closed (vk : VkFile) (h : vk.ic ≠ []) : ∀ t, generate vk = some t → ∀ p ∈ t, ∃ s, p = .text s := by
  intro t ht p hp
  obtain ⟨t', h1, h2⟩ := generate_fill vk h
  cases h1.symm.trans ht
  cases p with
  | text s => exact ⟨s, rfl⟩
  | hole n =>
    have h3 : none ∈ template.map (fill vk) := h2 ▸ List.mem_map.mpr ⟨_, hp, rfl⟩
    have h4 : ¬ none ∈ template.map (fill vk) := by simp [template, fill, value]
    exact absurd h3 h4

/-- a key with no point is rejected (the program panics) -/
theorem generate_empty (vk : VkFile) (h : vk.ic = []) : generate vk = none := by
  rw [generate, h]
  rfl

/-- a key with one public input -/
example : ∃ t, generate ⟨("1", "2"), (("3", "4"), ("5", "6")), (("7", "8"), ("9", "10")), (("11", "12"), ("13", "14")), [("15", "16"), ("17", "18")]⟩ = some t :=
  (generate_fill _ (by simp)).imp fun _ h => h.1

end Verif.Io.SolTemplate
