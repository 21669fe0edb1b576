import Verif.Gadget.OnTranscriptProps

/-!
# C119: the challenges and query indices of the on-chain circuit
-/
set_option linter.unusedSectionVars false

namespace Verif.Gadget.On
open Verif.TranscriptBN (IsHash)
open Verif.Poseidon (blsMod Bls)
open Verif.GL (F)

section
variable {r : Nat} [Fact r.Prime] {I O : Type} [DecidableEq O]
variable {perm : List (ZMod r) → ZMod r → List (ZMod r)} {H : (Nat → ZMod r) → ZMod r → (Nat → ZMod r) → Prop} {inp : I → ZMod r}

/-- a choice of a 255-bit number in the class of every element -/
structure Rep (rep : ZMod r → Nat) : Prop where
  lt : ∀ x, rep x < 2 ^ 255
  cast : ∀ x, x = (rep x : ZMod r)

/-- the outputs of the split of the number chosen -/
def limbOf (rep : ZMod r → Nat) (x : ZMod r) (e : Nat) : ZMod r := ((digit64 (rep x) e : Nat) : ZMod r)

/-- the outputs of the bit decomposition of the number chosen -/
def btOf (rep : ZMod r → Nat) (x : ZMod r) (b : Nat) : ZMod r := bitZ ((rep x).testBit b)

theorem rep_oracle {rep : ZMod r → Nat} (h : Rep rep) : Oracle (limbOf rep) (btOf rep) :=
  ⟨fun x => (bn1togl3_iff _ _).mpr ⟨rep x, h.lt x, h.cast x, fun _ => rfl⟩,
    fun x => (num2Bits_iff _ _ _).mpr ⟨rep x, h.lt x, h.cast x, fun _ _ => rfl⟩⟩

theorem rep_val (hr : r ≤ 2 ^ 255) : Rep (r := r) ZMod.val := by
  have : NeZero r := ⟨(Fact.out : r.Prime).ne_zero⟩
  exact ⟨fun x => lt_of_lt_of_le (ZMod.val_lt x) hr, fun x => by rw [ZMod.natCast_val, ZMod.cast_id]⟩

theorem single_eq {x : ZMod r} (hx : Single x) {v : Nat} (hv : v < 2 ^ 255) (e : x = (v : ZMod r)) : v = x.val := by
  subst e
  unfold Single at hx
  rw [ZMod.val_natCast] at hx ⊢
  have h1 := Nat.div_add_mod v r
  have h2 : v / r = 0 := by
    by_contra hne
    have : r * 1 ≤ r * (v / r) := Nat.mul_le_mul_left _ (Nat.one_le_iff_ne_zero.mpr hne)
    omega
  rw [h2] at h1
  omega

theorem exact_val : Exact (r := r) (limbOf ZMod.val) (btOf ZMod.val) := by
  refine ⟨fun x o hx h e => ?_, fun x o hx h b hb => ?_⟩
  · obtain ⟨v, hv, e1, e2⟩ := (bn1togl3_iff _ _).mp h
    rw [e2 e, single_eq hx hv e1]
    rfl
  · obtain ⟨v, hv, e1, e2⟩ := (num2Bits_iff _ _ _).mp h
    rw [e2 b hb, single_eq hx hv e1]
    rfl

/-- what the native transcript makes of a drawn scalar (transcript_bn128.rs L78-82) -/
def splitNat (x : ZMod r) : List Nat := TranscriptBN.splitInt x.val

/-- **Specification**: the signals are the native answers: each challenge `(name, elements)` stands in the three signals of its name, and
the bits of each query index in its row of `ys` -/
structure Answers (w : Asg (ZMod r) O) (ops : List (Op I O)) (fs : List (O × List Nat)) (ps : List (List Nat)) : Prop where
  names : fs.map Prod.fst = dsts ops
  fields : ∀ q ∈ fs, q.2.length = 3 ∧ ∀ k < 3, Out (w.av q.1 k) ((q.2.getD k 0 : Nat) : F)
  perms : List.Forall₂ (fun sz ys => ys.length = sz.1 ∧ ∀ i < sz.1, ∀ j < sz.2, w.ys i j = bitZ ((ys.getD i 0).testBit j)) (sizes ops) ps

theorem digit_split (x : ZMod r) {k : Nat} (hk : k < 3) : (((splitNat x).getD k 0 : Nat) : F) = ((digit64 x.val k : Nat) : F) := by
  have : NeZero (18446744069414584321 : Nat) := ⟨by norm_num⟩
  have h : ∀ y : F, ((y.val : Nat) : F) = y := fun y => ZMod.natCast_zmod_val y
  unfold splitNat
  rw [← digit64_native, List.getD_eq_getElem?_getD, List.getElem?_map, List.getElem?_range hk, Option.map_some, Option.getD_some, h]

/-- the evaluation's values give the answers -/
theorem answers_of {w : Asg (ZMod r) O} {env : Env (ZMod r) O} {ops : List (Op I O)} {fs : List (O × List Nat)} {ps : List (List Nat)}
    (hav : ∀ d k x, env.av d k = some x → w.av d k = x) (hys : ∀ i j x, env.ys i j = some x → w.ys i j = x) (h0 : fs.map Prod.fst = dsts ops)
    (h1 : ∀ q ∈ fs, HoldsF splitNat (limbOf ZMod.val) env q) (hb : ∀ sz ∈ sizes ops, sz.2 ≤ 64)
    (h2 : List.Forall₂ (HoldsP ZMod.val (btOf ZMod.val) env) (sizes ops) ps) : Answers w ops fs ps := by
  refine ⟨h0, fun q hq => ?_, ?_⟩
  · obtain ⟨x, e, ha⟩ := h1 q hq
    refine ⟨by rw [← e]; rfl, fun k hk => ?_⟩
    rw [hav q.1 k (limbOf ZMod.val x k) (by rw [ha, if_pos hk]), ← e, digit_split x hk]
    exact ⟨digit64 x.val k, Nat.mod_lt _ (by norm_num), rfl, rfl⟩
  · generalize sizes ops = szs at h2 hb
    induction h2 with
    | nil => exact .nil
    | @cons sz ys szs ps g1 g2 ih =>
      refine .cons ?_ (ih fun sz h => hb sz (by simp [h]))
      obtain ⟨e1, xs, e2, e3, e4⟩ := g1
      refine ⟨e1, fun i hi j hj => ?_⟩
      rw [hys i j _ (by rw [e4, if_pos ⟨hi, hj⟩])]
      obtain ⟨ys', q1, q2, q3⟩ := Perms.permutations_spec (w := 253) (by omega) sz.1 sz.2 xs.length (hb sz (by simp)) (xs.map ZMod.val) e2
        (by rw [List.length_map])
      rw [e3] at q1
      cases Option.some.inj q1
      rw [(q3 i hi).2 j hj]
      unfold bitAt btOf
      congr 2
      rw [List.getD_eq_getElem?_getD, List.getD_eq_getElem?_getD, List.getElem?_map]
      cases xs[(i * sz.2 + j) / 253]? with
      | none => simp
      | some y => simp

theorem mem_sizes {ops : List (Op I O)} {sz : Nat × Nat} (h : sz ∈ sizes ops) : Op.perms sz.1 sz.2 ∈ ops := by
  induction ops with
  | nil => cases h
  | cons o l ih =>
    cases o with
    | put as => exact List.mem_cons_of_mem _ (ih h)
    | getField d => exact List.mem_cons_of_mem _ (ih h)
    | perms n b =>
      rcases List.mem_cons.mp h with rfl | h
      · exact List.mem_cons_self
      · exact List.mem_cons_of_mem _ (ih h)

/-- the calls the circuit generator can make: different names, at most one `getPermutations`, of a nonzero number of bits, at most 64 each -/
structure Calls (ops : List (Op I O)) : Prop where
  names : (dsts ops).Nodup
  perms : nPerms ops ≤ 1
  sizes : ∀ n b, Op.perms n b ∈ ops → Perms.nFields 253 n b ≠ none ∧ b ≤ 64

variable {enc : List Nat → Option (ZMod r)} {nin : I → List Nat}

/-- **C119, completeness**: for every sequence of calls and all inputs the generator does not panic, and the printed constraints have a
solution whose signals are the challenges and query indices of the native transcript. -/
theorem onTranscript_complete (hr : r ≤ 2 ^ 255) (hp : IsHash perm) (hH : HashIs H perm) (he : ∀ a, enc (nin a) = some (inp a))
    (ops : List (Op I O)) (hc : Calls ops) :
    ∃ ct fs ps w, gen ops OT.new = some ct ∧ native perm enc splitNat ZMod.val nin ops TranscriptBN.new = some (fs, ps) ∧
      (∀ s ∈ ct.code, Sat H inp w s) ∧ Answers w ops fs ps := by
  obtain ⟨ct, env, fs, ps, h1, h2, h3, h0, h4, h5, -⟩ := script_sim (limb := limbOf ZMod.val) (bt := btOf ZMod.val) (num := ZMod.val) hp
    (split := splitNat (r := r)) (fun _ => rfl) he ops sim_new hc.names (fun _ _ _ => rfl) hc.perms (fun _ _ _ => rfl) hc.sizes
  refine ⟨ct, fs, ps, toAsg (limbOf ZMod.val) (btOf ZMod.val) env, h1, h3, fun s hs => ?_, ?_⟩
  · exact (runs_sat hp hH (rep_oracle (rep_val hr)) _ h2).2 s hs env (.refl _)
  · refine answers_of (env := env) (fun d k x h => ?_) (fun i j x h => ?_) h0 h4 (fun sz h => (hc.sizes _ _ (mem_sizes h)).2) h5
    · show (env.av d k).getD 0 = x
      rw [h]
      rfl
    · show (env.ys i j).getD 0 = x
      rw [h]
      rfl

/-- **C119, soundness where it holds**: for every sequence of calls, all inputs and every solution of the printed constraints in which no
number that is split or decomposed has two 255-bit representatives, the signals are the challenges and query indices of the native
transcript. -/
theorem onTranscript_sound_partial (hp : IsHash perm) (hH : HashIs H perm) (he : ∀ a, enc (nin a) = some (inp a))
    (ops : List (Op I O)) (hc : Calls ops) {ct : OT I O} (hg : gen ops OT.new = some ct) (w : Asg (ZMod r) O) (hs : ∀ s ∈ ct.code, Sat H inp w s)
    (h1 : ∀ s ∈ ct.code, SingleAt inp w s) :
    ∃ fs ps, native perm enc splitNat ZMod.val nin ops TranscriptBN.new = some (fs, ps) ∧ Answers w ops fs ps := by
  obtain ⟨ct', env, fs, ps, g1, g2, g3, h0, h4, h5, -⟩ := script_sim (limb := limbOf ZMod.val) (bt := btOf ZMod.val) (num := ZMod.val) hp
    (split := splitNat (r := r)) (fun _ => rfl) he ops sim_new hc.names (fun _ _ _ => rfl) hc.perms (fun _ _ _ => rfl) hc.sizes
  rw [hg] at g1
  cases Option.some.inj g1
  refine ⟨fs, ps, g3, ?_⟩
  have ha : Agree (limbOf ZMod.val) (btOf ZMod.val) env w := runs_agree hH exact_val _ g2
    ⟨(fun _ _ h => by cases h), (fun _ _ h => by cases h), (fun _ _ _ h => by cases h), (fun _ _ h => by cases h), (fun _ _ _ h => by cases h)⟩ hs h1
  exact answers_of ha.av ha.ys h0 h4 (fun sz h => (hc.sizes _ _ (mem_sizes h)).2) h5

end

section
variable {I O : Type} [DecidableEq O]

/-- the other representative, where there is one -/
def rep2 (x : Bls) : Nat := if x.val + blsMod < 2 ^ 255 then x.val + blsMod else x.val

theorem rep2_ok : Rep rep2 := by
  refine ⟨fun x => ?_, fun x => ?_⟩
  · unfold rep2
    split_ifs with h
    · exact h
    · exact (rep_val (by decide)).lt x
  · have := (rep_val (r := blsMod) (by decide)).cast x
    unfold rep2
    split_ifs with h
    · rw [Nat.cast_add, ZMod.natCast_self, add_zero]; exact this
    · exact this

/-- the second digits of the two representatives are different elements of the Goldilocks field -/
theorem digit_ne (v : Nat) : ((digit64 v 1 : Nat) : F) ≠ ((digit64 (v + blsMod) 1 : Nat) : F) := by
  intro hc
  have hc := congrArg ZMod.val hc
  rw [natCast_mod_P, natCast_mod_P] at hc
  unfold digit64 at hc
  have hb : blsMod = (0x73eda753299d7d483339d80809a1d805 * 2 ^ 64 + 0x53bda402fffe5bfe) * 2 ^ 64 + 0xffffffff00000001 := by decide
  have hP : P = 0xFFFFFFFF00000001 := rfl
  rw [hP, Nat.mul_one] at hc
  obtain ⟨c, hc1, h1⟩ : ∃ c, c ≤ 1 ∧ (v + blsMod) / 2 ^ 64 = v / 2 ^ 64 + (0x73eda753299d7d483339d80809a1d805 * 2 ^ 64 + 0x53bda402fffe5bfe) + c := by
    refine ⟨(v % 2 ^ 64 + 0xffffffff00000001) / 2 ^ 64, ?_, ?_⟩
    · omega
    · rw [hb]
      omega
  rw [h1] at hc
  generalize v / 2 ^ 64 = q at hc
  have h2 : (q + (0x73eda753299d7d483339d80809a1d805 * 2 ^ 64 + 0x53bda402fffe5bfe) + c) % 2 ^ 64 = (q % 2 ^ 64 + 0x53bda402fffe5bfe + c) % 2 ^ 64 := by omega
  rw [h2] at hc
  have h3 := Nat.mod_lt q (show 0 < 2 ^ 64 by norm_num)
  generalize q % 2 ^ 64 = d at hc h3
  have h4 : (d + 0x53bda402fffe5bfe + c) % 2 ^ 64 = d + 0x53bda402fffe5bfe + c ∨ (d + 0x53bda402fffe5bfe + c) % 2 ^ 64 + 2 ^ 64 = d + 0x53bda402fffe5bfe + c := by
    clear hc; omega
  have h5 := Nat.mod_lt (d + 0x53bda402fffe5bfe + c) (show 0 < 2 ^ 64 by norm_num)
  generalize (d + 0x53bda402fffe5bfe + c) % 2 ^ 64 = x at hc h4 h5
  have h6 : ∀ y, y < 2 ^ 64 → y % 0xFFFFFFFF00000001 = y ∨ y % 0xFFFFFFFF00000001 + 0xFFFFFFFF00000001 = y := by
    intro y hy; clear hc; omega
  have h7 := h6 d h3
  have h8 := h6 x h5
  generalize d % 0xFFFFFFFF00000001 = d' at hc h7
  generalize x % 0xFFFFFFFF00000001 = x' at hc h8
  clear h6 h1 hb hP h2
  rcases h4 with h4 | h4 <;> rcases h7 with h7 | h7 <;> rcases h8 with h8 | h8 <;> omega

/-- **C119, the failure**: over the scalar field of BLS12-381, for every sequence of calls: whenever the scalar the native transcript draws
for a challenge is below `2^255 - r` (about one in ten), the printed constraints have two solutions, for the same inputs, that give
the challenge two different values. -/
theorem onTranscript_two {perm : List Bls → Bls → List Bls} {H : (Nat → Bls) → Bls → (Nat → Bls) → Prop} {inp : I → Bls}
    (hp : IsHash perm) (hH : HashIs H perm) (ops : List (Op I O)) (hc : Calls ops) :
    ∃ ct fs ps, gen ops OT.new = some ct ∧
      native perm List.head? (fun x => [x, x, x]) ZMod.val (fun a => [inp a]) ops TranscriptBN.new = some (fs, ps) ∧
      ∀ d x, (d, [x, x, x]) ∈ fs → x.val + blsMod < 2 ^ 255 →
        ∃ w w' y y', (∀ s ∈ ct.code, Sat H inp w s) ∧ (∀ s ∈ ct.code, Sat H inp w' s) ∧ Out (w.av d 1) y ∧ Out (w'.av d 1) y' ∧ y ≠ y' := by
  have key := fun (rep : Bls → Nat) => script_sim (limb := limbOf rep) (bt := btOf rep) (num := ZMod.val) hp
    (split := fun x : Bls => [x, x, x]) (fun _ => rfl) (enc := List.head?) (nin := fun a => [inp a]) (inp := inp) (fun _ => rfl) ops sim_new hc.names
    (fun _ _ _ => rfl) hc.perms (fun _ _ _ => rfl) hc.sizes
  obtain ⟨ct, env, fs, ps, h1, h2, h3, h0, h4, h5, -⟩ := key ZMod.val
  obtain ⟨ct', env', fs', ps', g1, g2, g3, g0, g4, g5, -⟩ := key rep2
  rw [h1] at g1
  cases Option.some.inj g1
  rw [h3] at g3
  cases Option.some.inj g3
  refine ⟨ct, fs, ps, h1, h3, fun d x hd hx => ⟨toAsg (limbOf ZMod.val) (btOf ZMod.val) env, toAsg (limbOf rep2) (btOf rep2) env',
    ((digit64 x.val 1 : Nat) : F), ((digit64 (x.val + blsMod) 1 : Nat) : F), ?_, ?_, ?_, ?_, digit_ne _⟩⟩
  · exact fun s hs => (runs_sat hp hH (rep_oracle (rep_val (by decide))) _ h2).2 s hs env (.refl _)
  · exact fun s hs => (runs_sat hp hH (rep_oracle rep2_ok) _ g2).2 s hs env' (.refl _)
  · obtain ⟨z, e1, e2⟩ := h4 _ hd
    have : z = x := by simpa using e1
    subst this
    refine ⟨digit64 z.val 1, Nat.mod_lt _ (by norm_num), ?_, rfl⟩
    show (env.av d 1).getD 0 = _
    rw [e2 1, if_pos (by omega), Option.getD_some]
    rfl
  · obtain ⟨z, e1, e2⟩ := g4 _ hd
    have : z = x := by simpa using e1
    subst this
    refine ⟨digit64 (z.val + blsMod) 1, Nat.mod_lt _ (by norm_num), ?_, rfl⟩
    show (env'.av d 1).getD 0 = _
    rw [e2 1, if_pos (by omega), Option.getD_some, limbOf, rep2, if_pos hx]

/-! ### The hash of the repository's circuits -/

/-- `hash_ex(.., 17)` of poseidon_bls12381_opt.rs, the hash of the native transcript over BLS12-381 -/
def blsPerm (l : List Bls) (s : Bls) : List Bls :=
  match Verif.Poseidon.Bls.hashEx l s 17 with
  | .ok o => o
  | _ => []

theorem hashEx16 (l : List Bls) (s : Bls) (h : l.length = 16) : ∃ o, Verif.Poseidon.Bls.hashEx l s 17 = .ok o ∧ o.length = 17 := by
  refine ⟨_, hashInner_len _ l s 17 16 h (by omega) (by omega) (by omega), ?_⟩
  rw [List.length_take, List.length_ofFn]
  rfl

theorem blsPerm_isHash : IsHash blsPerm := by
  intro l s h
  obtain ⟨o, e, ho⟩ := hashEx16 l s h
  rw [blsPerm, e]
  exact ho

theorem blsPerm_hashIs : HashIs (PoseidonEx 16 17) blsPerm := by
  intro l s o h
  have hl : (List.range 16).map (fun i => l.getD i 0) = l := by
    refine List.ext_getElem (by simp [h]) fun i h1 h2 => ?_
    rw [List.getElem_map, List.getElem_range, List.getD_eq_getElem?_getD, List.getElem?_eq_getElem h2, Option.getD_some]
  rw [poseidonEx_iff (by omega) (by omega) (by omega), hl]
  obtain ⟨q, e, -⟩ := hashEx16 l s h
  rw [blsPerm, e]
  constructor
  · intro h
    exact Verif.Poseidon.Res.ok.inj h
  · intro h
    exact congrArg _ h

/-- **C119** for the circuits of the repository: `PoseidonEx(16,17)` against `poseidon_bls12381_opt` -/
theorem bls_transcript_partial {inp : I → Bls} {enc : List Nat → Option Bls} {nin : I → List Nat} (he : ∀ a, enc (nin a) = some (inp a))
    (ops : List (Op I O)) (hc : Calls ops) :
    ∃ ct fs ps, gen ops OT.new = some ct ∧ native blsPerm enc splitNat ZMod.val nin ops TranscriptBN.new = some (fs, ps) ∧
      (∃ w, (∀ s ∈ ct.code, Sat (PoseidonEx 16 17) inp w s) ∧ Answers w ops fs ps) ∧
      ∀ w, (∀ s ∈ ct.code, Sat (PoseidonEx 16 17) inp w s) → (∀ s ∈ ct.code, SingleAt inp w s) → Answers w ops fs ps := by
  obtain ⟨ct, fs, ps, w, h1, h2, h3, h4⟩ := onTranscript_complete (r := blsMod) (by decide) blsPerm_isHash blsPerm_hashIs he ops hc
  refine ⟨ct, fs, ps, h1, h2, ⟨w, h3, h4⟩, fun w hs hu => ?_⟩
  obtain ⟨fs', ps', g1, g2⟩ := onTranscript_sound_partial blsPerm_isHash blsPerm_hashIs he ops hc h1 w hs hu
  rw [h2] at g1
  cases Option.some.inj g1
  exact g2

end

/-! ### Examples -/

/-- three inputs, a challenge, one more input, a second challenge and two indices of three bits -/
def exOps : List (Op Nat Nat) := [.put [0, 1, 2], .getField 0, .put [3], .getField 1, .perms 2 3]

/-- the calls of the example, and an encoding of inputs, meet the hypotheses -/
example : Calls exOps ∧ ∀ a : Nat, (fun l : List Nat => l.head?.map fun x => (x : Bls)) [a] = some ((a : Nat) : Bls) := by
  refine ⟨⟨by decide, by decide, ?_⟩, fun a => rfl⟩
  intro n b h
  simp [exOps] at h
  obtain ⟨rfl, rfl⟩ := h
  decide

/-- a hash with outputs below `2^255 - r`: the constant one -/
def onePerm : List Bls → Bls → List Bls := fun _ _ => List.replicate 17 1

/-- the case of `onTranscript_two` is met: with that hash both challenges of the example come from the scalar one -/
example : IsHash onePerm ∧ HashIs (fun _ _ o => onePerm [] 0 = (List.range 17).map o) onePerm ∧
    (native onePerm List.head? (fun x => [x, x, x]) ZMod.val (fun a => [((a : Nat) : Bls)]) exOps TranscriptBN.new).map (fun q => q.1.map (fun e => (e.1, e.2.map ZMod.val)))
      = some [(0, [1, 1, 1]), (1, [1, 1, 1])] ∧ (1 : Bls).val + blsMod < 2 ^ 255 := by
  refine ⟨fun _ _ _ => rfl, fun _ _ _ _ => Iff.rfl, by decide +kernel, by decide +kernel⟩

end Verif.Gadget.On
