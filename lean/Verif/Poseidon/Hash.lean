import Verif.Poseidon.Bij
import Verif.Poseidon.Primes

/-!
# The hash functions around the permutation over a 256-bit field
-/
namespace Verif.Poseidon

/-- what a call returns: a vector, an `Err`, or a panic -/
inductive Res (F : Type) where
  | ok (l : List F)
  | err
  | panic
  deriving DecidableEq

/-- the tables of one width; `mInv` is only used by the proofs -/
structure Width where
  np : Nat
  opt : Table
  c : List (List Nat)
  m : List (List Nat)
  mInv : List (List Nat)

/-- `state = [init_state, inp..]`, starky/src/poseidon_bn128_opt.rs L121-122, poseidon_bn128.rs L130-131, poseidon_bls12381_opt.rs L127-128 -/
def start {F : Type} [Zero F] (inp : List F) (init : F) : Fin (inp.length + 1) → F := fun i => (init :: inp).getD i 0

/-- `hash_inner`, starky/src/poseidon_bn128_opt.rs L103-224, poseidon_bn128.rs L117-139, poseidon_bls12381_opt.rs L109-229,
poseidon_bls12381.rs L117-139, with the rounds of each width as a parameter: an `Err` unless there are 1 to 16 inputs, the slice `state[0..out]`
panics when `out` exceeds the width -/
def hashInner {F : Type} [Zero F] (perm : (t : Nat) → (Fin t → F) → Fin t → F) (inp : List F) (init : F) (out : Nat) : Res F :=
  if inp.length = 0 ∨ 16 < inp.length then .err
  else
    let s := List.ofFn (perm (inp.length + 1) (start inp init))
    if out ≤ s.length then .ok (s.take out) else .panic

section
variable {F : Type} [Zero F]

theorem hashInner_full (perm : (t : Nat) → (Fin t → F) → Fin t → F) (inp : List F) (init : F) (h1 : 1 ≤ inp.length) (h16 : inp.length ≤ 16) (out : Nat)
    (ho : out = inp.length + 1) : hashInner perm inp init out = .ok (List.ofFn (perm (inp.length + 1) (start inp init))) := by
  subst ho
  have hc : ¬ (inp.length = 0 ∨ 16 < inp.length) := by omega
  have hl : (List.ofFn (perm (inp.length + 1) (start inp init))).length = inp.length + 1 := List.length_ofFn
  unfold hashInner
  rw [if_neg hc]
  dsimp only
  rw [if_pos (le_of_eq hl.symm), List.take_of_length_le (le_of_eq hl)]

theorem start_inj {inp inp' : List F} {init init' : F} (hl : inp.length = inp'.length)
    (h : ∀ i : Nat, i < inp.length + 1 → (init :: inp).getD i 0 = (init' :: inp').getD i 0) : inp = inp' ∧ init = init' := by
  constructor
  · apply List.ext_getElem hl
    intro i h1 h2
    have := h (i + 1) (by omega)
    simpa [List.getD_eq_getElem?_getD, h1, h2] using this
  · simpa using h 0 (by omega)

theorem hashInner_inj (perm : (t : Nat) → (Fin t → F) → Fin t → F) (inp inp' : List F) (init init' : F) (h1 : 1 ≤ inp.length) (h16 : inp.length ≤ 16)
    (hl : inp.length = inp'.length) (hp : Function.Injective (perm (inp.length + 1)))
    (h : hashInner perm inp init (inp.length + 1) = hashInner perm inp' init' (inp.length + 1)) : inp = inp' ∧ init = init' := by
  apply start_inj hl
  rw [hashInner_full perm inp init h1 h16 _ rfl, hashInner_full perm inp' init' (by omega) (by omega) _ (by omega)] at h
  injection h with h
  have key : ∀ (n n' : Nat) (e : n = n') (x : Fin (n + 1) → F) (x' : Fin (n' + 1) → F), Function.Injective (perm (n + 1)) →
      List.ofFn (perm (n + 1) x) = List.ofFn (perm (n' + 1) x') → ∀ i (hi : i < n + 1), x ⟨i, hi⟩ = x' ⟨i, by omega⟩ := by
    intro n n' e x x' hp h i hi
    subst e
    rw [hp (List.ofFn_injective h)]
  intro i hi
  exact key _ _ hl _ _ hp h i hi

theorem hashInner_surj (perm : (t : Nat) → (Fin t → F) → Fin t → F) (y : List F) (h2 : 2 ≤ y.length) (h17 : y.length ≤ 17)
    (hp : Function.Surjective (perm y.length)) : ∃ inp init, inp.length + 1 = y.length ∧ hashInner perm inp init y.length = .ok y := by
  obtain ⟨x, hx⟩ := hp fun i => y.getD i 0
  have key : ∀ (n : Nat) (x : Fin n → F), 2 ≤ n → n ≤ 17 → n = y.length → (perm n x = fun i : Fin n => y.getD i 0) →
      ∃ inp init, inp.length + 1 = n ∧ hashInner perm inp init n = .ok y := by
    intro n x h2 h17 hn hx
    obtain ⟨n, rfl⟩ : ∃ m, n = m + 1 := ⟨n - 1, by omega⟩
    refine ⟨List.ofFn fun i : Fin n => x i.succ, x 0, by simp, ?_⟩
    have hlen : (List.ofFn fun i : Fin n => x i.succ).length = n := by simp
    rw [hashInner_full perm _ _ (by omega) (by omega) _ (by omega)]
    congr 1
    have hs : ∀ (k : Nat) (e : k = n) (z : Fin (k + 1) → F), (∀ i : Nat, ∀ (h : i < k + 1), z ⟨i, h⟩ = x ⟨i, by omega⟩) →
        List.ofFn (perm (k + 1) z) = y := by
      intro k e z hz
      subst e
      have : z = x := by funext i; exact hz i i.2
      rw [this, hx]
      apply List.ext_getElem
      · simpa using hn
      · intro i h1 h2
        rw [List.getElem_ofFn]
        simp [List.getD_eq_getElem?_getD, h2]
    apply hs _ hlen
    intro i hi
    show (x 0 :: List.ofFn fun i : Fin n => x i.succ).getD i 0 = _
    rcases i with _ | i
    · rfl
    · have : i < n := by simpa using hi
      simp [List.getD_eq_getElem?_getD, this, Fin.succ]
  exact key _ x h2 h17 rfl hx
end

end Verif.Poseidon
