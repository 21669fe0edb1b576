import Verif.Poseidon.BlsT2
import Verif.Poseidon.BlsT3
import Verif.Poseidon.BlsT4
import Verif.Poseidon.BlsT5
import Verif.Poseidon.BlsT6
import Verif.Poseidon.BlsT7
import Verif.Poseidon.BlsT8
import Verif.Poseidon.BlsT9
import Verif.Poseidon.BlsT10
import Verif.Poseidon.BlsT11
import Verif.Poseidon.BlsT12
import Verif.Poseidon.BlsT13
import Verif.Poseidon.BlsT14
import Verif.Poseidon.BlsT15
import Verif.Poseidon.BlsT16
import Verif.Poseidon.BlsT17
import Verif.Poseidon.BlsOld
import Verif.Poseidon.Hash

/-!
# Poseidon over BLS12-381: the optimized hash is a Poseidon hash in plain form, and it loses nothing

`Bls` is the field of `Fr`; its Montgomery arithmetic (ff crate) is not modelled.  The crate has no plain tables for this instance: the round
constants of the plain form are computed from the optimized ones by `Table.plainC`.
-/
namespace Verif.Poseidon.Bls

/-- the tables of the sixteen widths with `n_rounds_p`, starky/src/poseidon_bls12381_opt.rs L59-68 -/
def widths : List Width := [
  ⟨55, opt2, opt2.plainC blsMod 1 (opt2.plainM 1), opt2.plainM 1, mInv2⟩,
  ⟨55, opt3, opt3.plainC blsMod 2 (opt3.plainM 2), opt3.plainM 2, mInv3⟩,
  ⟨56, opt4, opt4.plainC blsMod 3 (opt4.plainM 3), opt4.plainM 3, mInv4⟩,
  ⟨56, opt5, opt5.plainC blsMod 4 (opt5.plainM 4), opt5.plainM 4, mInv5⟩,
  ⟨56, opt6, opt6.plainC blsMod 5 (opt6.plainM 5), opt6.plainM 5, mInv6⟩,
  ⟨56, opt7, opt7.plainC blsMod 6 (opt7.plainM 6), opt7.plainM 6, mInv7⟩,
  ⟨57, opt8, opt8.plainC blsMod 7 (opt8.plainM 7), opt8.plainM 7, mInv8⟩,
  ⟨57, opt9, opt9.plainC blsMod 8 (opt9.plainM 8), opt9.plainM 8, mInv9⟩,
  ⟨57, opt10, opt10.plainC blsMod 9 (opt10.plainM 9), opt10.plainM 9, mInv10⟩,
  ⟨57, opt11, opt11.plainC blsMod 10 (opt11.plainM 10), opt11.plainM 10, mInv11⟩,
  ⟨57, opt12, opt12.plainC blsMod 11 (opt12.plainM 11), opt12.plainM 11, mInv12⟩,
  ⟨57, opt13, opt13.plainC blsMod 12 (opt13.plainM 12), opt13.plainM 12, mInv13⟩,
  ⟨57, opt14, opt14.plainC blsMod 13 (opt14.plainM 13), opt14.plainM 13, mInv14⟩,
  ⟨57, opt15, opt15.plainC blsMod 14 (opt15.plainM 14), opt15.plainM 14, mInv15⟩,
  ⟨59, opt16, opt16.plainC blsMod 15 (opt16.plainM 15), opt16.plainM 15, mInv16⟩,
  ⟨59, opt17, opt17.plainC blsMod 16 (opt17.plainM 16), opt17.plainM 16, mInv17⟩]

/-- the tables of width `t` (index `t - 2`) -/
def width (t : Nat) : Width := widths.getD (t - 2) ⟨0, ⟨[], [], [], [], [], []⟩, [], [], []⟩

/-- the rounds of starky/src/poseidon_bls12381_opt.rs L129-226, `n_rounds_f = 8` -/
def optPermT (t : Nat) : (Fin t → Bls) → Fin t → Bls := optPerm pow5 ((width t).opt.opt Bls) 4 (width t).np

/-- **Specification**: the plain rounds (4 full, `np` partial, 4 full) -/
def plainPermT (t : Nat) : (Fin t → Bls) → Fin t → Bls := plainPerm pow5 (flat Bls (width t).c) (entry Bls (width t).m) 8 (width t).np

/-- `hash_ex` of starky/src/poseidon_bls12381_opt.rs L105-107 -/
def hashEx (inp : List Bls) (init : Bls) (out : Nat) : Res Bls := hashInner optPermT inp init out

/-- **Specification**: the hash with the plain rounds -/
def plainHashEx (inp : List Bls) (init : Bls) (out : Nat) : Res Bls := hashInner plainPermT inp init out

/-- `hash` of starky/src/poseidon_bls12381_opt.rs L95-103: the second element of two -/
def hash (inp : List Bls) (init : Bls) : Option Bls :=
  match hashEx inp init 2 with
  | .ok (_ :: x :: _) => some x
  | _ => none

/-- `hash` of the deprecated starky/src/poseidon_bls12381.rs L108-139 for one input: the first element, 56 partial rounds, its own tables -/
def oldHash1 (x init : Bls) : Option Bls :=
  match hashInner (fun _ => plainPerm pow5 (flat Bls oldC2) (entry Bls oldM2) 8 56) [x] init 1 with
  | .ok (x :: _) => some x
  | _ => none

/-- the checks of one width -/
def Width.Ok (w : Width) (n : Nat) : Prop :=
  (w.opt.sized n 4 w.np && w.opt.below blsMod) = true ∧
  w.opt.check blsMod n 4 w.np w.c w.m = true ∧ invOk blsMod w.mInv n w.opt.m = true

/-- **The tables of all sixteen widths**: sizes, ranges, the relation between the optimized and the plain tables, and the inverse matrix. -/
theorem widths_ok (n : Nat) (h1 : 1 ≤ n) (h16 : n ≤ 16) : Width.Ok (width (n + 1)) n := by
  interval_cases n
  exacts [⟨sized2, ok2, inv2⟩, ⟨sized3, ok3, inv3⟩, ⟨sized4, ok4, inv4⟩, ⟨sized5, ok5, inv5⟩, ⟨sized6, ok6, inv6⟩, ⟨sized7, ok7, inv7⟩, ⟨sized8, ok8, inv8⟩, ⟨sized9, ok9, inv9⟩, ⟨sized10, ok10, inv10⟩, ⟨sized11, ok11, inv11⟩, ⟨sized12, ok12, inv12⟩, ⟨sized13, ok13, inv13⟩, ⟨sized14, ok14, inv14⟩, ⟨sized15, ok15, inv15⟩, ⟨sized16, ok16, inv16⟩, ⟨sized17, ok17, inv17⟩]

theorem optPermT_eq (n : Nat) (h1 : 1 ≤ n) (h16 : n ≤ 16) : optPermT (n + 1) = plainPermT (n + 1) := by
  funext x
  exact optPerm_eq_plain pow5 _ _ _ 4 _ (by norm_num) (check_sound blsMod (width (n + 1)).opt 4 _ (by norm_num) _ _ (widths_ok n h1 h16).2.1) x

/-- **The optimized hash is the plain hash**, for every input vector, initial state and number of outputs, including the calls that fail. -/
theorem hashEx_eq_plain (inp : List Bls) (init : Bls) (out : Nat) : hashEx inp init out = plainHashEx inp init out := by
  unfold hashEx plainHashEx hashInner
  by_cases h : inp.length = 0 ∨ 16 < inp.length
  · rw [if_pos h, if_pos h]
  · rw [if_neg h, if_neg h, optPermT_eq inp.length (by omega) (by omega)]

/-- **When a hash is returned**: exactly for 1 to 16 inputs; anything else is reported as an error. -/
theorem hash_some_iff (inp : List Bls) (init : Bls) : (hash inp init).isSome = true ↔ 1 ≤ inp.length ∧ inp.length ≤ 16 := by
  unfold hash hashEx hashInner
  by_cases h : inp.length = 0 ∨ 16 < inp.length
  · rw [if_pos h]
    simp only [Option.isSome_none, Bool.false_eq_true, false_iff]
    omega
  · rw [if_neg h]
    simp only [List.length_ofFn]
    rw [if_pos (by omega)]
    have key : ∀ (n : Nat) (f : Fin (n + 1) → Bls), 1 ≤ n → ∃ a b l, List.take 2 (List.ofFn f) = a :: b :: l := by
      intro n f hn
      obtain ⟨m, rfl⟩ : ∃ m, n = m + 1 := ⟨n - 1, by omega⟩
      exact ⟨_, _, _, by rw [List.ofFn_succ, List.ofFn_succ]; rfl⟩
    obtain ⟨a, b, l, hl⟩ := key inp.length (optPermT (inp.length + 1) (start inp init)) (by omega)
    rw [hl]
    simp only [Option.isSome_some, true_iff]
    omega

/-- `x ↦ x^5` permutes the field: 5 is invertible modulo `p - 1` -/
theorem pow5_bij : Function.Bijective (pow5 : Bls → Bls) := by
  have : (pow5 : Bls → Bls) = fun x => x ^ 5 := by funext x; exact pow5_eq x
  rw [this]
  exact pow_bij blsMod 5 0x2e5f0fbadd72321ce14a56699d73f002217f0e679998f19933333332cccccccd 2 (by decide +kernel)

theorem optPermT_bij (n : Nat) (h1 : 1 ≤ n) (h16 : n ≤ 16) : Function.Bijective (optPermT (n + 1)) :=
  optPerm_bij blsMod pow5_bij (width (n + 1)).opt 4 _ (by norm_num) _ _ _ (widths_ok n h1 h16).2.1 (widths_ok n h1 h16).2.2

/-- **No two inputs of one length have the same full output.** -/
theorem hashEx_inj (inp inp' : List Bls) (init init' : Bls) (h1 : 1 ≤ inp.length) (h16 : inp.length ≤ 16) (hl : inp.length = inp'.length)
    (h : hashEx inp init (inp.length + 1) = hashEx inp' init' (inp.length + 1)) : inp = inp' ∧ init = init' :=
  hashInner_inj optPermT inp inp' init init' h1 h16 hl (optPermT_bij _ h1 h16).1 h

/-- **Every vector of 2 to 17 elements is a full output.** -/
theorem hashEx_surj (y : List Bls) (h2 : 2 ≤ y.length) (h17 : y.length ≤ 17) :
    ∃ inp init, inp.length + 1 = y.length ∧ hashEx inp init y.length = .ok y := by
  refine hashInner_surj optPermT y h2 h17 ?_
  obtain ⟨n, hn⟩ : ∃ n, y.length = n + 1 := ⟨y.length - 1, by omega⟩
  rw [hn]
  exact (optPermT_bij n (by omega) (by omega)).2

/-- `test_poseidon_opt_hash`, starky/src/poseidon_bls12381_opt.rs L238-260 -/
example : hash [1] 0 = some 0x164efff6c8a32ef98836c868f8c8dedcbe3068d16ba6098f282a6d185edb551f := by decide +kernel
example : hash [1, 0] 0 = some 0x59220c0fc5748e83c141c7bb8dae0a2bd5bbb227c778ede87296ba07960ec3d8 := by decide +kernel
/-- `test_poseidon_hash`, starky/src/poseidon_bls12381.rs L168-185 -/
example : oldHash1 1 0 = some 0x49a66f6b01dbc6440d1a5f920e027b94429916f2c821a920cf6203ad3de56cea := by decide +kernel

/-- **The deprecated hash and its replacement are different functions**: they disagree on the one-element input 1. -/
theorem old_hash_differs : ∃ x init, oldHash1 x init ≠ hash [x] init := ⟨1, 0, by decide +kernel⟩

/-- seventeen inputs are refused, three outputs of one input panic -/
example : hashEx (List.replicate 17 1) 0 1 = .err ∧ hashEx [] 0 1 = .err ∧ hashEx [1] 0 3 = .panic := by decide +kernel

end Verif.Poseidon.Bls
