import Verif.Poseidon.Bn128T2
import Verif.Poseidon.Bn128T3
import Verif.Poseidon.Bn128T4
import Verif.Poseidon.Bn128T5
import Verif.Poseidon.Bn128T6
import Verif.Poseidon.Bn128T7
import Verif.Poseidon.Bn128T8
import Verif.Poseidon.Bn128T9
import Verif.Poseidon.Bn128T10
import Verif.Poseidon.Bn128T11
import Verif.Poseidon.Bn128T12
import Verif.Poseidon.Bn128T13
import Verif.Poseidon.Bn128T14
import Verif.Poseidon.Bn128T15
import Verif.Poseidon.Bn128T16
import Verif.Poseidon.Bn128T17
import Verif.Poseidon.Hash

/-!
# Poseidon over BN254: the optimized hash is the plain hash, and it loses nothing

`Bn` is the field of `Fr`; its Montgomery arithmetic (ff crate) is not modelled.
-/
namespace Verif.Poseidon.Bn128

/-- the tables of the sixteen widths with `n_rounds_p`, starky/src/poseidon_bn128_opt.rs L59-67, poseidon_bn128.rs L46-52 -/
def widths : List Width := [
  ⟨56, opt2, c2, m2, mInv2⟩,
  ⟨57, opt3, c3, m3, mInv3⟩,
  ⟨56, opt4, c4, m4, mInv4⟩,
  ⟨60, opt5, c5, m5, mInv5⟩,
  ⟨60, opt6, c6, m6, mInv6⟩,
  ⟨63, opt7, c7, m7, mInv7⟩,
  ⟨64, opt8, c8, m8, mInv8⟩,
  ⟨63, opt9, c9, m9, mInv9⟩,
  ⟨60, opt10, c10, m10, mInv10⟩,
  ⟨66, opt11, c11, m11, mInv11⟩,
  ⟨60, opt12, c12, m12, mInv12⟩,
  ⟨65, opt13, c13, m13, mInv13⟩,
  ⟨70, opt14, c14, m14, mInv14⟩,
  ⟨60, opt15, c15, m15, mInv15⟩,
  ⟨64, opt16, c16, m16, mInv16⟩,
  ⟨68, opt17, c17, m17, mInv17⟩]

/-- the tables of width `t` (index `t - 2`) -/
def width (t : Nat) : Width := widths.getD (t - 2) ⟨0, ⟨[], [], [], [], [], []⟩, [], [], []⟩

/-- the rounds of starky/src/poseidon_bn128_opt.rs L123-221, `n_rounds_f = 8` -/
def optPermT (t : Nat) : (Fin t → Bn) → Fin t → Bn := optPerm pow5 ((width t).opt.opt Bn) 4 (width t).np

/-- the rounds of starky/src/poseidon_bn128.rs L133-137, `n_rounds_f = 8` -/
def plainPermT (t : Nat) : (Fin t → Bn) → Fin t → Bn := plainPerm pow5 (flat Bn (width t).c) (entry Bn (width t).m) 8 (width t).np

/-- `hash_ex` of starky/src/poseidon_bn128_opt.rs L99-101 -/
def hashEx (inp : List Bn) (init : Bn) (out : Nat) : Res Bn := hashInner optPermT inp init out

/-- `hash_ex` of starky/src/poseidon_bn128.rs L113-115 -/
def plainHashEx (inp : List Bn) (init : Bn) (out : Nat) : Res Bn := hashInner plainPermT inp init out

/-- `hash` of starky/src/poseidon_bn128_opt.rs L94-97: the first element -/
def hash (inp : List Bn) (init : Bn) : Option Bn :=
  match hashEx inp init 1 with
  | .ok (x :: _) => some x
  | _ => none

/-- `hash` of starky/src/poseidon_bn128.rs L108-111: the first element -/
def plainHash (inp : List Bn) (init : Bn) : Option Bn :=
  match plainHashEx inp init 1 with
  | .ok (x :: _) => some x
  | _ => none

/-- the checks of one width -/
def Width.Ok (w : Width) (n : Nat) : Prop :=
  (w.opt.sized n 4 w.np && w.opt.below bnMod && w.c.length == 8 + w.np && w.c.all (·.all (· < bnMod)) && w.m.all (·.all (· < bnMod))) = true ∧
  w.opt.check bnMod n 4 w.np w.c w.m = true ∧ invOk bnMod w.mInv n w.opt.m = true

/-- **The tables of all sixteen widths**: sizes, ranges, the relation between the optimized and the plain tables, and the inverse matrix. -/
theorem widths_ok (n : Nat) (h1 : 1 ≤ n) (h16 : n ≤ 16) : Width.Ok (width (n + 1)) n := by
  interval_cases n
  exacts [⟨sized2, ok2, inv2⟩, ⟨sized3, ok3, inv3⟩, ⟨sized4, ok4, inv4⟩, ⟨sized5, ok5, inv5⟩, ⟨sized6, ok6, inv6⟩, ⟨sized7, ok7, inv7⟩, ⟨sized8, ok8, inv8⟩, ⟨sized9, ok9, inv9⟩, ⟨sized10, ok10, inv10⟩, ⟨sized11, ok11, inv11⟩, ⟨sized12, ok12, inv12⟩, ⟨sized13, ok13, inv13⟩, ⟨sized14, ok14, inv14⟩, ⟨sized15, ok15, inv15⟩, ⟨sized16, ok16, inv16⟩, ⟨sized17, ok17, inv17⟩]

theorem optPermT_eq (n : Nat) (h1 : 1 ≤ n) (h16 : n ≤ 16) : optPermT (n + 1) = plainPermT (n + 1) := by
  funext x
  exact optPerm_eq_plain pow5 _ _ _ 4 _ (by norm_num) (check_sound bnMod (width (n + 1)).opt 4 _ (by norm_num) _ _ (widths_ok n h1 h16).2.1) x

/-- **The optimized hash is the plain hash**, for every input vector, initial state and number of outputs, including the calls that fail. -/
theorem hashEx_eq_plain (inp : List Bn) (init : Bn) (out : Nat) : hashEx inp init out = plainHashEx inp init out := by
  unfold hashEx plainHashEx hashInner
  by_cases h : inp.length = 0 ∨ 16 < inp.length
  · rw [if_pos h, if_pos h]
  · rw [if_neg h, if_neg h, optPermT_eq inp.length (by omega) (by omega)]

theorem hash_eq_plain (inp : List Bn) (init : Bn) : hash inp init = plainHash inp init := by
  unfold hash plainHash
  rw [hashEx_eq_plain]

/-- **When a hash is returned**: exactly for 1 to 16 inputs; anything else is reported as an error. -/
theorem hash_some_iff (inp : List Bn) (init : Bn) : (hash inp init).isSome = true ↔ 1 ≤ inp.length ∧ inp.length ≤ 16 := by
  unfold hash hashEx hashInner
  by_cases h : inp.length = 0 ∨ 16 < inp.length
  · rw [if_pos h]
    simp only [Option.isSome_none, Bool.false_eq_true, false_iff]
    omega
  · rw [if_neg h]
    simp only [List.length_ofFn]
    rw [if_pos (by omega), List.ofFn_succ]
    simp only [List.take_succ_cons, Option.isSome_some, true_iff]
    omega

/-- `x ↦ x^5` permutes the field: 5 is invertible modulo `p - 1` -/
theorem pow5_bij : Function.Bijective (pow5 : Bn → Bn) := by
  have : (pow5 : Bn → Bn) = fun x => x ^ 5 := by funext x; exact pow5_eq x
  rw [this]
  exact pow_bij bnMod 5 0x26b6a528b427b35493736af8679aad17535cb9d394945a0dcfe7f7a98ccccccd 4 (by decide +kernel)

theorem optPermT_bij (n : Nat) (h1 : 1 ≤ n) (h16 : n ≤ 16) : Function.Bijective (optPermT (n + 1)) :=
  optPerm_bij bnMod pow5_bij (width (n + 1)).opt 4 _ (by norm_num) _ _ _ (widths_ok n h1 h16).2.1 (widths_ok n h1 h16).2.2

/-- **No two inputs of one length have the same full output.** -/
theorem hashEx_inj (inp inp' : List Bn) (init init' : Bn) (h1 : 1 ≤ inp.length) (h16 : inp.length ≤ 16) (hl : inp.length = inp'.length)
    (h : hashEx inp init (inp.length + 1) = hashEx inp' init' (inp.length + 1)) : inp = inp' ∧ init = init' :=
  hashInner_inj optPermT inp inp' init init' h1 h16 hl (optPermT_bij _ h1 h16).1 h

/-- **Every vector of 2 to 17 elements is a full output.** -/
theorem hashEx_surj (y : List Bn) (h2 : 2 ≤ y.length) (h17 : y.length ≤ 17) :
    ∃ inp init, inp.length + 1 = y.length ∧ hashEx inp init y.length = .ok y := by
  refine hashInner_surj optPermT y h2 h17 ?_
  obtain ⟨n, hn⟩ : ∃ n, y.length = n + 1 := ⟨y.length - 1, by omega⟩
  rw [hn]
  exact (optPermT_bij n (by omega) (by omega)).2

/-- `test_poseidon_bn128_opt_hash`, starky/src/poseidon_bn128_opt.rs L233-258 -/
example : hash [1] 0 = some 0x29176100eaa962bdc1fe6c654d6a3c130e96a4d1168b33848b897dc502820133 := by decide +kernel
example : hash [1, 2] 0 = some 0x115cc0f5e7d690413df64c6b9662e9cf2a3617f2743245519e19607a4417189a := by decide +kernel
/-- seventeen inputs are refused, three outputs of one input panic -/
example : hashEx (List.replicate 17 1) 0 1 = .err ∧ hashEx [] 0 1 = .err ∧ hashEx [1] 0 3 = .panic := by decide +kernel

end Verif.Poseidon.Bn128
