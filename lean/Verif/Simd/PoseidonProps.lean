import Verif.Simd.PoseidonTbl

/-!
# The vectorized Poseidon hash is the scalar one
-/
namespace Verif.Simd
open Verif.GL (F MODULUS)
open Verif.Poseidon (Opt optPerm pow7 Res)
open Verif.Poseidon.Gl (opt permGl)
open Verif.Linear (poseidonHash)

/-- the outcome of the scalar `Poseidon::hash` (starky/src/poseidon_opt.rs L76-204) as `Ok` or `Err` -/
def scalarHash (inp init : List F) (out : Nat) : Res F :=
  match poseidonHash permGl inp init out with
  | some l => .ok l
  | none => .err

theorem ofFn_take4 (f : Fin 12 → F) : (List.ofFn f).take 4 = [f 0, f 1, f 2, f 3] := by
  simp [List.ofFn_succ, List.take]

theorem hashAvx2_eq (inp init : List F) (hi : inp.length = 8) (hn : init.length = 4) (out : Nat) :
    hashAvx2 inp init out = if out ≤ 4 then .ok ((permGl (inp ++ init)).take out) else .panic := by
  unfold hashAvx2
  rw [hashV_eq lawful2 tblAvx2 _ tblAvx2_ok inp init hi hn out]
  by_cases ho : out ≤ 4
  · rw [if_pos ho, if_pos (by omega)]
    have e : ∀ q, q = 0 → grpIn 1 (inp ++ init) q = fun i : Fin 12 => (inp ++ init).getD i 0 := by
      intro q hq
      subst hq
      funext m
      unfold grpIn
      congr 1
      omega
    have h4 : ∀ l : List F, l.take out = (l.take 4).take out := fun l => by rw [List.take_take, Nat.min_eq_left ho]
    rw [h4 (permGl _)]
    unfold permGl
    rw [ofFn_take4]
    have : (List.ofFn fun k : Fin (4 * 1) => optPerm pow7 (opt.opt F) 4 22 (grpIn 1 (inp ++ init) (k / 4)) ⟨k % 4, by omega⟩) =
        [optPerm pow7 (opt.opt F) 4 22 (grpIn 1 (inp ++ init) (0 / 4)) 0, optPerm pow7 (opt.opt F) 4 22 (grpIn 1 (inp ++ init) (1 / 4)) 1,
         optPerm pow7 (opt.opt F) 4 22 (grpIn 1 (inp ++ init) (2 / 4)) 2, optPerm pow7 (opt.opt F) 4 22 (grpIn 1 (inp ++ init) (3 / 4)) 3] := by
      rw [List.ofFn_succ, List.ofFn_succ, List.ofFn_succ, List.ofFn_succ, List.ofFn_zero]
      rfl
    rw [this, e _ rfl]
  · rw [if_neg ho, if_neg (by omega)]

/-- **The AVX2 hash is the scalar hash**: for every input and capacity of whatever length, and up to four outputs, same digest and same rejection. -/
theorem avx2_scalar (inp init : List F) (out : Nat) (ho : out ≤ 4) : hashAvx2 inp init out = scalarHash inp init out := by
  unfold scalarHash poseidonHash
  by_cases hi : inp.length = 8
  · by_cases hn : init.length = 4
    · rw [hashAvx2_eq inp init hi hn, if_pos ho, if_pos ⟨hi, hn⟩]
    · rw [if_neg (by tauto)]
      unfold hashAvx2 hashV
      rw [if_neg (by simpa using hi), if_pos (by simpa using hn)]
  · rw [if_neg (by tauto)]
    unfold hashAvx2 hashV
    rw [if_pos (by simpa using hi)]

example : hashAvx2 (List.replicate 8 0) (List.replicate 4 0) 4 =
    .ok [0x3c18a9786cb0b359, 0xc4055e3364a246c3, 0x7953db0ab48808f4, 0xc71603f33a1144ca] := by
  rw [avx2_scalar _ _ _ le_rfl]; decide +kernel
example : hashAvx2 (List.replicate 7 0) (List.replicate 4 0) 4 = .err := by
  rw [avx2_scalar _ _ _ le_rfl]; decide +kernel

/-- **More than four outputs** are available from the scalar hash only: the AVX2 hash panics. -/
theorem avx2_wide_panics (inp init : List F) (out : Nat) (hi : inp.length = 8) (hn : init.length = 4) (ho : 4 < out) :
    hashAvx2 inp init out = .panic ∧ scalarHash inp init out = .ok ((permGl (inp ++ init)).take out) := by
  constructor
  · rw [hashAvx2_eq inp init hi hn, if_neg (by omega)]
  · unfold scalarHash poseidonHash
    rw [if_pos ⟨hi, hn⟩]

example : hashAvx2 (List.replicate 8 0) (List.replicate 4 0) 12 = .panic := (avx2_wide_panics _ _ 12 rfl rfl (by norm_num)).1

/-! ### AVX-512: two hashes at once -/

/-- the inputs of two hashes in the order of the AVX-512 `hash`: the first halves, then the second halves -/
def weave (a b : List F) : List F := a.take 4 ++ b.take 4 ++ (a.drop 4 ++ b.drop 4)

theorem weave_length {a b : List F} (ha : a.length = 8) (hb : b.length = 8) : (weave a b).length = 16 := by
  simp [weave, ha, hb]

theorem eight {l : List F} (h : l.length = 8) : ∃ a b c d e f g k, l = [a, b, c, d, e, f, g, k] := by
  match l, h with
  | [a, b, c, d, e, f, g, k], _ => exact ⟨a, b, c, d, e, f, g, k, rfl⟩
theorem four {l : List F} (h : l.length = 4) : ∃ a b c d, l = [a, b, c, d] := by
  match l, h with
  | [a, b, c, d], _ => exact ⟨a, b, c, d, rfl⟩

theorem grpIn_weave (a b ca cb : List F) (ha : a.length = 8) (hb : b.length = 8) (hca : ca.length = 4) (hcb : cb.length = 4) :
    grpIn 2 (weave a b ++ (ca ++ cb)) 0 = (fun i : Fin 12 => (a ++ ca).getD i 0) ∧
    grpIn 2 (weave a b ++ (ca ++ cb)) 1 = (fun i : Fin 12 => (b ++ cb).getD i 0) := by
  obtain ⟨a0, a1, a2, a3, a4, a5, a6, a7, rfl⟩ := eight ha
  obtain ⟨b0, b1, b2, b3, b4, b5, b6, b7, rfl⟩ := eight hb
  obtain ⟨c0, c1, c2, c3, rfl⟩ := four hca
  obtain ⟨d0, d1, d2, d3, rfl⟩ := four hcb
  constructor
  · funext m; fin_cases m <;> rfl
  · funext m; fin_cases m <;> rfl

/-- **The AVX-512 hash computes two scalar hashes**: of the inputs `a`, `b` with the capacities `ca`, `cb`, for all of them. -/
theorem avx512_two (a b ca cb : List F) (ha : a.length = 8) (hb : b.length = 8) (hca : ca.length = 4) (hcb : cb.length = 4) :
    ∃ da db, scalarHash a ca 4 = .ok da ∧ scalarHash b cb 4 = .ok db ∧ da.length = 4 ∧ db.length = 4 ∧
      ∀ out, hashAvx512 (weave a b) (ca ++ cb) out = if out ≤ 8 then .ok ((da ++ db).take out) else .panic := by
  refine ⟨(permGl (a ++ ca)).take 4, (permGl (b ++ cb)).take 4, ?_, ?_, by simp [permGl], by simp [permGl], ?_⟩
  · unfold scalarHash poseidonHash; rw [if_pos ⟨ha, hca⟩]
  · unfold scalarHash poseidonHash; rw [if_pos ⟨hb, hcb⟩]
  intro out
  unfold hashAvx512
  rw [hashV_eq lawful512 tblAvx512 _ tblAvx512_ok _ _ (weave_length ha hb) (by simp [hca, hcb])]
  by_cases ho : out ≤ 8
  · rw [if_pos ho, if_pos (by omega)]
    obtain ⟨e0, e1⟩ := grpIn_weave a b ca cb ha hb hca hcb
    unfold permGl
    rw [ofFn_take4, ofFn_take4]
    have : (List.ofFn fun k : Fin (4 * 2) => optPerm pow7 (opt.opt F) 4 22 (grpIn 2 (weave a b ++ (ca ++ cb)) (k / 4)) ⟨k % 4, by omega⟩) =
        [optPerm pow7 (opt.opt F) 4 22 (grpIn 2 (weave a b ++ (ca ++ cb)) 0) 0, optPerm pow7 (opt.opt F) 4 22 (grpIn 2 (weave a b ++ (ca ++ cb)) 0) 1,
         optPerm pow7 (opt.opt F) 4 22 (grpIn 2 (weave a b ++ (ca ++ cb)) 0) 2, optPerm pow7 (opt.opt F) 4 22 (grpIn 2 (weave a b ++ (ca ++ cb)) 0) 3,
         optPerm pow7 (opt.opt F) 4 22 (grpIn 2 (weave a b ++ (ca ++ cb)) 1) 0, optPerm pow7 (opt.opt F) 4 22 (grpIn 2 (weave a b ++ (ca ++ cb)) 1) 1,
         optPerm pow7 (opt.opt F) 4 22 (grpIn 2 (weave a b ++ (ca ++ cb)) 1) 2, optPerm pow7 (opt.opt F) 4 22 (grpIn 2 (weave a b ++ (ca ++ cb)) 1) 3] := by
      rw [List.ofFn_succ, List.ofFn_succ, List.ofFn_succ, List.ofFn_succ, List.ofFn_succ, List.ofFn_succ, List.ofFn_succ, List.ofFn_succ, List.ofFn_zero]
      rfl
    rw [this, e0, e1]
    rfl
  · rw [if_neg ho, if_neg (by omega)]

/-- every admissible input of the AVX-512 hash is of the form of `avx512_two` -/
theorem weave_surj (inp init : List F) (hi : inp.length = 16) (hn : init.length = 8) :
    ∃ a b ca cb, a.length = 8 ∧ b.length = 8 ∧ ca.length = 4 ∧ cb.length = 4 ∧ inp = weave a b ∧ init = ca ++ cb := by
  refine ⟨inp.take 4 ++ (inp.drop 8).take 4, (inp.drop 4).take 4 ++ inp.drop 12, init.take 4, init.drop 4, ?_, ?_, ?_, ?_, ?_, ?_⟩
  · simp [hi]
  · simp [hi]
  · simp [hn]
  · simp [hn]
  · unfold weave
    rw [List.take_left' (by simp [hi]), List.take_left' (by simp [hi]), List.drop_left' (by simp [hi]), List.drop_left' (by simp [hi])]
    have h1 : inp = inp.take 4 ++ inp.drop 4 := (List.take_append_drop 4 inp).symm
    have h2 : inp.drop 4 = (inp.drop 4).take 4 ++ inp.drop 8 := by
      conv_lhs => rw [← List.take_append_drop 4 (inp.drop 4), List.drop_drop]
    have h3 : inp.drop 8 = (inp.drop 8).take 4 ++ inp.drop 12 := by
      conv_lhs => rw [← List.take_append_drop 4 (inp.drop 8), List.drop_drop]
    conv_lhs => rw [h1, h2, h3]
    simp only [List.append_assoc]
  · exact (List.take_append_drop 4 init).symm

/-- **Other lengths are rejected.** -/
theorem avx512_err (inp init : List F) (out : Nat) (h : ¬ (inp.length = 16 ∧ init.length = 8)) : hashAvx512 inp init out = .err := by
  unfold hashAvx512 hashV
  by_cases hi : inp.length = 16
  · rw [if_neg (by simpa using hi), if_pos (by simp; tauto)]
  · rw [if_pos (by simpa using hi)]

/-- two different hashes at once -/
example : hashAvx512 (weave (List.replicate 8 0) [1, 2, 3, 4, 5, 6, 7, 8]) (List.replicate 4 0 ++ [9, 10, 11, 12]) 8 =
    .ok ([0x3c18a9786cb0b359, 0xc4055e3364a246c3, 0x7953db0ab48808f4, 0xc71603f33a1144ca] ++ (permGl [1, 2, 3, 4, 5, 6, 7, 8, 9, 10, 11, 12]).take 4) := by
  obtain ⟨da, db, h1, h2, _, _, h3⟩ := avx512_two (List.replicate 8 0) [1, 2, 3, 4, 5, 6, 7, 8] (List.replicate 4 0) [9, 10, 11, 12] rfl rfl rfl rfl
  have e1 : da = [0x3c18a9786cb0b359, 0xc4055e3364a246c3, 0x7953db0ab48808f4, 0xc71603f33a1144ca] := by
    have : scalarHash (List.replicate 8 0) (List.replicate 4 0) 4 = .ok [0x3c18a9786cb0b359, 0xc4055e3364a246c3, 0x7953db0ab48808f4, 0xc71603f33a1144ca] := by
      decide +kernel
    rw [this] at h1
    injection h1 with h1
    exact h1.symm
  have e2 : db = (permGl [1, 2, 3, 4, 5, 6, 7, 8, 9, 10, 11, 12]).take 4 := by
    injection h2 with h2
    exact h2.symm
  rw [h3, if_pos le_rfl, ← e1, ← e2, List.take_of_length_le]
  simp [e1, e2, permGl]

end Verif.Simd
