import Verif.Circom.VerifierTr

/-!
# C110: the checks of the template, one by one
-/
set_option linter.unusedSectionVars false

namespace Verif.Circom
open Stark Codegen Fri FFT
open Verif.GL (F)
open Verif.Ext3 (K coord)

noncomputable local instance : DecidableEq K := Classical.decEq _

variable {perm : List F → List F}

theorem bitF_eq_one (b : Bool) : (bitF b : F) = 1 ↔ b = true := by
  cases b <;> simp [bitF]

theorem keyIdx_spec (key : Nat → F) (y off : Nat) : ∀ n, (∀ i < n, key i = bitF (y.testBit (i + off))) →
    keyIdx key n = (y / 2 ^ off) % 2 ^ n
  | 0, _ => by simp [keyIdx, Nat.mod_one]
  | n + 1, h => by
    rw [keyIdx, keyIdx_spec key y off n fun i hi => h i (by omega), mod_two_pow_succ', h n (by omega), Nat.testBit_div_two_pow]
    congr 1
    cases y.testBit (n + off) <;> simp [bitF]

theorem root_total : ∀ (sib : List (List F)) (idx : Nat) (v : List F), (∀ l ∈ sib, l.length = 4) → v.length = 4 →
    Linear.IsState perm → ∃ r, MerkleGL.rootFromProof perm sib idx v = some r
  | [], _, v, _, _, _ => ⟨v, rfl⟩
  | s :: mp, idx, v, hs, hv, hp => by
    have hin : (MerkleGL.pairInput idx v s).length = 8 := by
      have := hs s (by simp)
      unfold MerkleGL.pairInput; split_ifs <;> simp <;> omega
    rw [MerkleGL.rootFromProof, if_pos (by rw [hs s (by simp)]), Linear.poseidonHash, if_pos ⟨hin, by simp⟩, Option.bind_some]
    exact root_total mp _ _ (fun l hl => hs l (by simp [hl])) (by rw [List.length_take, hp _ (by simp [hin])]; rfl) hp

theorem merkle_spec (hp : Linear.IsState perm) (workers : Nat) (vals : List F) (sib : List (List F)) (hs : ∀ l ∈ sib, l.length = 4)
    (key : Nat → F) : ∃ r, merkleHash perm vals sib key = some r ∧ r.length = 4 ∧
      ∀ root, (glMT perm workers).verify root sib (keyIdx key sib.length) vals = some (decide (root = r)) := by
  obtain ⟨r, hr⟩ := root_total (perm := perm) sib (keyIdx key sib.length) (Linear.digest perm vals 0) hs (Linear.digest_length hp _ _) hp
  refine ⟨r, ?_, MerkleGL.rootFromProof_length hp _ _ _ _ (Linear.digest_length hp _ _) hr, fun root => ?_⟩
  · rw [merkleHash, Linear.hash_eq_digest hp, Option.bind_some, hr]
  · show MerkleGL.verifyGroupProof perm root sib _ vals = _
    rw [MerkleGL.verifyGroupProof, Linear.hash_eq_digest hp, Option.bind_some, hr, Option.map_some]

theorem same3_one (a b : F × F × F) : same3 1 a b = true ↔ a = b := by
  obtain ⟨a0, a1, a2⟩ := a
  obtain ⟨b0, b1, b2⟩ := b
  simp [same3, sub_eq_zero]

theorem same4_one {a b : List F} (ha : a.length = 4) (hb : b.length = 4) : same4 1 a b = true ↔ b = a := by
  match a, b, ha, hb with
  | [a0, a1, a2, a3], [b0, b1, b2, b3], _, _ =>
    simp only [same4, decide_eq_true_eq, List.getD_cons_zero, List.getD_cons_succ, one_mul, sub_eq_zero, List.cons.injEq, and_true]
    exact ⟨fun h => ⟨h.1.symm, h.2.1.symm, h.2.2.1.symm, h.2.2.2.symm⟩, fun h => ⟨h.1.symm, h.2.1.symm, h.2.2.1.symm, h.2.2.2.symm⟩⟩

theorem triples_spec : ∀ (m : Nat) (l : List F), l.length = m * 3 → (triples l).length = m ∧
    split3 encK l = some ((triples l).map (dec3 extK)) ∧ ∀ i, get3 encK l i = ((triples l)[i]?).map (dec3 extK)
  | 0, [], _ => ⟨rfl, rfl, fun i => by simp [get3, triples]⟩
  | 0, _ :: _, h => by simp at h
  | m + 1, [], h => by simp at h
  | m + 1, [_], h => by simp at h; omega
  | m + 1, [_, _], h => by simp at h; omega
  | m + 1, a :: b :: c :: l, h => by
    obtain ⟨h1, h2, h3⟩ := triples_spec m l (by simp only [List.length_cons] at h; omega)
    refine ⟨by simp [triples, h1], by rw [split3, h2]; rfl, fun i => ?_⟩
    cases i with
    | zero => rfl
    | succ i =>
      have := h3 i
      unfold get3 at this ⊢
      have e : (triples (a :: b :: c :: l))[i + 1]? = (triples l)[i]? := rfl
      rw [e, ← this, show (i + 1) * 3 = i * 3 + 3 by ring, show i * 3 + 3 + 1 = i * 3 + 1 + 3 by ring, show i * 3 + 3 + 2 = i * 3 + 2 + 3 by ring]
      rfl

theorem sxAcc_spec {mg : Nat → F} {a : F} {pb : Nat} (hmg : ∀ k < pb, mg (pb - (k + 1)) = mg (pb - k) ^ 2) {ys : Nat → F} {y n : Nat}
    (hn : n ≤ pb) (hy : ∀ j < n, ys j = bitF (y.testBit j)) : ∀ i < n, sxAcc mg a pb ys i = a * ((mg pb)⁻¹ ^ (y % 2 ^ (i + 1))) := by
  have hroot : ∀ k ≤ pb, mg (pb - k) = mg pb ^ 2 ^ k := by
    intro k
    induction k with
    | zero => intro _; simp
    | succ k ih =>
      intro hk
      rw [hmg k (by omega), ih (by omega), ← pow_mul, ← pow_succ]
  intro i
  induction i with
  | zero =>
    intro h
    rw [sxAcc, hy 0 h, mod_two_pow_succ']
    cases y.testBit 0 <;> simp [Nat.mod_one, bitF]
  | succ i ih =>
    intro h
    rw [sxAcc, ih (by omega), hy (i + 1) h, hroot (i + 1) (by omega), mod_two_pow_succ' y (i + 1)]
    cases y.testBit (i + 1) <;> simp [pow_add, mul_assoc, bitF]

theorem mapM_total {α β : Type} {f : α → Option β} : ∀ {l : List α}, (∀ a ∈ l, ∃ b, f a = some b) → ∃ m, l.mapM f = some m
  | [], _ => ⟨[], rfl⟩
  | a :: l, h => by
    obtain ⟨b, hb⟩ := h a (by simp)
    obtain ⟨m, hm⟩ := mapM_total (l := l) fun x hx => h x (by simp [hx])
    refine ⟨b :: m, ?_⟩
    rw [List.mapM_cons, hb]
    show Option.bind (some b) _ = _
    rw [Option.bind_some, hm]
    rfl

/-- all of a list of tests -/
theorem mapM_all {α : Type} {f : α → Option Bool} {P : α → Prop} {l : List α} (h : ∀ a ∈ l, ∃ b, f a = some b ∧ (b = true ↔ P a)) :
    ∃ bs, l.mapM f = some bs ∧ (bs.all id = true ↔ ∀ a ∈ l, P a) := by
  induction l with
  | nil => exact ⟨[], rfl, by simp⟩
  | cons a l ih =>
    obtain ⟨b, hb, h1⟩ := h a (by simp)
    obtain ⟨bs, hbs, h2⟩ := ih fun x hx => h x (by simp [hx])
    refine ⟨b :: bs, ?_, ?_⟩
    · rw [List.mapM_cons, hb]
      show Option.bind (some b) _ = _
      rw [Option.bind_some, hbs]
      rfl
    · rw [List.all_cons, Bool.and_eq_true, h2, List.forall_mem_cons]
      exact and_congr_left fun _ => h1

end Verif.Circom
