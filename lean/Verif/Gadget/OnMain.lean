import Verif.Gadget.Bits

/-!
# C132: the hash of the public inputs in the template `Main` of the on-chain circuit, starky/src/stark_verifier_circom_onchain.rs L1776-1823

`Main` hashes the address of the prover and the public inputs of the STARK with circomlib's `Sha256` (not in the repository: taken to be a function of
its input bits, `ShaSpec`) and makes the digest its only public output.
-/
namespace Verif.Gadget.OnMain

open Verif.GL (F)

variable {r : Nat}

/-- stark_verifier_circom_onchain.rs L1786-1814 for the public inputs `pub`; `Sha nBits in out` are the constraints of circomlib's `Sha256(nBits)` -/
def MainHash (Sha : Nat → (Nat → ZMod r) → (Nat → ZMod r) → Prop) (addr : ZMod r) (pub : List (ZMod r)) (hash : ZMod r) : Prop :=
  ∃ (inp out ab : Nat → ZMod r) (pb : Nat → Nat → ZMod r),
    Num2Bits 160 addr ab ∧ (∀ i < 160, inp (160 - 1 - i) = ab i) ∧
    (∀ i, ∀ h : i < pub.length, Num2Bits 64 pub[i] (pb i) ∧ (∀ j < 64, inp (160 + 64 * i + 64 - 1 - j) = pb i j) ∧
      CompConstant64 0xFFFFFFFF00000000 (pb i) 0) ∧
    Sha (160 + 64 * pub.length) inp out ∧
    Bits2Num 256 (fun i => out (255 - i)) hash

/-! ### Specification -/

/-- `v` in `k` bytes, big endian -/
def beBytes (k v : Nat) : List Nat := (List.range k).map fun i => v / 256 ^ (k - 1 - i) % 256

/-- what is hashed: the address in 20 bytes, then every public input in 8 -/
def message (a : Nat) (ys : List F) : List Nat := beBytes 20 a ++ (ys.map fun y => beBytes 8 y.val).flatten

/-- bit `m` of a string of bytes, the most significant bit of a byte first -/
def msgBit (bytes : List Nat) (m : Nat) : Bool := (bytes.getD (m / 8) 0).testBit (7 - m % 8)

/-- the constraints `Sha` say that the output bits are those of the 256-bit number `sha bytes`, most significant first -/
structure ShaSpec (Sha : Nat → (Nat → ZMod r) → (Nat → ZMod r) → Prop) (sha : List Nat → Nat) : Prop where
  lt : ∀ bytes, sha bytes < 2 ^ 256
  iff : ∀ bytes : List Nat, (∀ b ∈ bytes, b < 256) → ∀ inp, (∀ m < 8 * bytes.length, inp m = bitZ (msgBit bytes m)) →
    ∀ out, Sha (8 * bytes.length) inp out ↔ ∀ m < 256, out m = bitZ ((sha bytes).testBit (255 - m))

/-! ### Proofs -/

@[simp] theorem beBytes_length (k v : Nat) : (beBytes k v).length = k := by simp [beBytes]

theorem beBytes_lt (k v : Nat) : ∀ b ∈ beBytes k v, b < 256 := by
  intro b hb
  obtain ⟨i, -, rfl⟩ := List.mem_map.mp hb
  exact Nat.mod_lt _ (by norm_num)

theorem msgBit_beBytes {k v m : Nat} (h : m < 8 * k) : msgBit (beBytes k v) m = v.testBit (8 * k - 1 - m) := by
  have hm : m / 8 < k := by omega
  rw [msgBit, List.getD_eq_getElem?_getD, List.getElem?_eq_getElem (by simpa using hm), Option.getD_some]
  simp only [beBytes, List.getElem_map, List.getElem_range]
  rw [show (256 : Nat) = 2 ^ 8 by norm_num, ← pow_mul, Nat.testBit_mod_two_pow, Nat.testBit_div_two_pow,
    decide_eq_true (by omega : 7 - m % 8 < 8), Bool.true_and]
  congr 1
  omega

theorem msgBit_left {a b : List Nat} {m : Nat} (h : m < 8 * a.length) : msgBit (a ++ b) m = msgBit a m := by
  rw [msgBit, msgBit, List.getD_eq_getElem?_getD, List.getD_eq_getElem?_getD, List.getElem?_append_left (by omega)]

theorem msgBit_right {a b : List Nat} {m : Nat} : msgBit (a ++ b) (8 * a.length + m) = msgBit b m := by
  rw [msgBit, msgBit, List.getD_eq_getElem?_getD, List.getD_eq_getElem?_getD, List.getElem?_append_right (by omega),
    show (8 * a.length + m) / 8 - a.length = m / 8 by omega, show (8 * a.length + m) % 8 = m % 8 by omega]

theorem flat_length (ys : List F) : ((ys.map fun y => beBytes 8 y.val).flatten).length = 8 * ys.length := by
  induction ys with
  | nil => rfl
  | cons y ys ih =>
    rw [List.map_cons, List.flatten_cons, List.length_append, ih, beBytes_length, List.length_cons]
    ring

@[simp] theorem message_length (a : Nat) (ys : List F) : (message a ys).length = 20 + 8 * ys.length := by
  rw [message, List.length_append, flat_length, beBytes_length]

theorem message_lt (a : Nat) (ys : List F) : ∀ b ∈ message a ys, b < 256 := by
  intro b hb
  rcases List.mem_append.mp hb with hb | hb
  · exact beBytes_lt _ _ b hb
  · obtain ⟨l, hl, hb⟩ := List.mem_flatten.mp hb
    obtain ⟨y, -, rfl⟩ := List.mem_map.mp hl
    exact beBytes_lt _ _ b hb

theorem msgBit_flat (ys : List F) : ∀ i, ∀ h : i < ys.length, ∀ j < 64,
    msgBit ((ys.map fun y => beBytes 8 y.val).flatten) (64 * i + 64 - 1 - j) = (ys[i].val).testBit j := by
  induction ys with
  | nil => intro i h; simp at h
  | cons y ys ih =>
    intro i h j hj
    rw [List.map_cons, List.flatten_cons]
    cases i with
    | zero =>
      rw [msgBit_left (by rw [beBytes_length]; omega), msgBit_beBytes (by omega)]
      congr 1
      omega
    | succ i =>
      rw [show 64 * (i + 1) + 64 - 1 - j = 8 * (beBytes 8 y.val).length + (64 * i + 64 - 1 - j) by rw [beBytes_length]; omega, msgBit_right,
        ih i (by simpa using h) j hj, List.getElem_cons_succ]

theorem msgBit_addr {a : Nat} {ys : List F} {i : Nat} (hi : i < 160) : msgBit (message a ys) (160 - 1 - i) = a.testBit i := by
  rw [message, msgBit_left (by rw [beBytes_length]; omega), msgBit_beBytes (by omega)]
  congr 1
  omega

theorem msgBit_pub {a : Nat} {ys : List F} {i : Nat} (h : i < ys.length) {j : Nat} (hj : j < 64) :
    msgBit (message a ys) (160 + 64 * i + 64 - 1 - j) = (ys[i].val).testBit j := by
  rw [message, show 160 + 64 * i + 64 - 1 - j = 8 * (beBytes 20 a).length + (64 * i + 64 - 1 - j) by rw [beBytes_length]; omega, msgBit_right,
    msgBit_flat ys i h j hj]

/-- every position of the input is written -/
theorem inp_cover {a : Nat} {ys : List F} {inp : Nat → ZMod r} (h1 : ∀ i < 160, inp (160 - 1 - i) = bitZ (a.testBit i))
    (h2 : ∀ i, ∀ h : i < ys.length, ∀ j < 64, inp (160 + 64 * i + 64 - 1 - j) = bitZ ((ys[i].val).testBit j)) :
    ∀ m < 8 * (message a ys).length, inp m = bitZ (msgBit (message a ys) m) := by
  intro m hm
  rw [message_length] at hm
  by_cases h : m < 160
  · have := h1 (159 - m) (by omega)
    rw [← msgBit_addr (ys := ys) (by omega), show 160 - 1 - (159 - m) = m by omega] at this
    exact this
  · have hi : (m - 160) / 64 < ys.length := by omega
    have := h2 ((m - 160) / 64) hi (63 - (m - 160) % 64) (by omega)
    rw [← msgBit_pub (a := a) hi (by omega), show 160 + 64 * ((m - 160) / 64) + 64 - 1 - (63 - (m - 160) % 64) = m by omega] at this
    exact this

/-- the public inputs, one by one -/
theorem pub_canon [Fact r.Prime] (hr : 2 ^ 250 < r) {x : ZMod r} {b : Nat → ZMod r} (h1 : Num2Bits 64 x b) (h2 : CompConstant64 0xFFFFFFFF00000000 b 0) :
    ∃ y : F, x = canon y ∧ ∀ j < 64, b j = bitZ (y.val.testBit j) := by
  obtain ⟨y, rfl⟩ := (publics_canonical hr x).mp ⟨b, h1, h2⟩
  have : NeZero Verif.GL.MODULUS := ⟨by decide⟩
  have hy : y.val < P := ZMod.val_lt y
  have h64 : y.val < 2 ^ 64 := lt_trans hy (by decide)
  obtain ⟨v, hv, e, hb⟩ := (num2Bits_iff _ _ _).mp h1
  have : y.val = v := by
    rw [canon, ZMod.natCast_eq_natCast_iff', Nat.mod_eq_of_lt (by omega), Nat.mod_eq_of_lt (by omega)] at e
    exact e
  rw [← this] at hb
  exact ⟨y, rfl, hb⟩

theorem canon_bits [Fact r.Prime] (hr : 2 ^ 250 < r) (y : F) : Num2Bits 64 (canon y : ZMod r) (fun j => bitZ (y.val.testBit j)) ∧
    CompConstant64 0xFFFFFFFF00000000 (fun j => (bitZ (y.val.testBit j) : ZMod r)) 0 := by
  have : NeZero Verif.GL.MODULUS := ⟨by decide⟩
  have hy : y.val < P := ZMod.val_lt y
  have h64 : y.val < 2 ^ 64 := lt_trans hy (by decide)
  refine ⟨(num2Bits_iff _ _ _).mpr ⟨_, h64, rfl, fun _ _ => rfl⟩, (compConstant64_iff (by omega) (by norm_num) h64 (fun _ _ => rfl) 0).mpr ?_⟩
  rw [if_neg (by unfold P at hy; omega)]

theorem bits_digest {d : Nat} (hd : d < 2 ^ 256) {out : Nat → ZMod r} (h : ∀ m < 256, out m = bitZ (d.testBit (255 - m))) (hash : ZMod r) :
    Bits2Num 256 (fun i => out (255 - i)) hash ↔ hash = (d : ZMod r) := by
  have : ∑ i ∈ Finset.range 256, out (255 - i) * 2 ^ i = (d : ZMod r) := by
    rw [Finset.sum_congr rfl (g := fun i => bitZ (d.testBit i) * 2 ^ i), sum_bits, Nat.mod_eq_of_lt hd]
    intro i hi
    have := Finset.mem_range.mp hi
    rw [h _ (by omega), show 255 - (255 - i) = i by omega]
  unfold Bits2Num
  rw [this]

/-- **C132**: for every number of public inputs and every assignment: the constraints of `Main` hold exactly when the address is a number of 160 bits, every
public input is a canonical Goldilocks element, and the output is the digest, reduced modulo the field of the circuit, of the address in 20 bytes followed by
the public inputs in 8 bytes each, all big endian -/
theorem mainHash_iff [Fact r.Prime] (hr : 2 ^ 250 < r) {Sha : Nat → (Nat → ZMod r) → (Nat → ZMod r) → Prop} {sha : List Nat → Nat} (hS : ShaSpec Sha sha)
    (addr : ZMod r) (pub : List (ZMod r)) (hash : ZMod r) :
    MainHash Sha addr pub hash ↔ ∃ (a : Nat) (ys : List F), a < 2 ^ 160 ∧ addr = (a : ZMod r) ∧ pub = ys.map canon ∧
      hash = ((sha (message a ys) : Nat) : ZMod r) := by
  constructor
  · rintro ⟨inp, out, ab, pb, h1, h2, h3, h4, h5⟩
    obtain ⟨a, ha, ea, hab⟩ := (num2Bits_iff _ _ _).mp h1
    have hys : ∃ ys : List F, pub = ys.map canon ∧ ∀ i, ∀ h : i < ys.length, ∀ j < 64, pb i j = bitZ ((ys[i].val).testBit j) := by
      choose! f hf using fun i (h : i < pub.length) => pub_canon hr (h3 i h).1 (h3 i h).2.2
      refine ⟨(List.range pub.length).map f, ?_, ?_⟩
      · refine List.ext_getElem (by simp) fun i h _ => ?_
        rw [List.getElem_map, List.getElem_map, List.getElem_range]
        exact (hf i h).1
      · intro i h j hj
        rw [List.getElem_map, List.getElem_range]
        exact (hf i (by simpa using h)).2 j hj
    obtain ⟨ys, rfl, hy⟩ := hys
    rw [List.length_map] at h4
    have hin := inp_cover (a := a) (ys := ys) (inp := inp) (fun i hi => by rw [h2 i hi, hab i hi])
      (fun i h j hj => by rw [(h3 i (by simpa using h)).2.1 j hj, hy i h j hj])
    have hsz : 160 + 64 * ys.length = 8 * (message a ys).length := by rw [message_length]; ring
    rw [hsz] at h4
    have ho := (hS.iff _ (message_lt a ys) _ hin _).mp h4
    exact ⟨a, ys, ha, ea, rfl, (bits_digest (hS.lt _) ho hash).mp h5⟩
  · rintro ⟨a, ys, ha, rfl, rfl, rfl⟩
    have hsz : 160 + 64 * ys.length = 8 * (message a ys).length := by rw [message_length]; ring
    refine ⟨fun m => bitZ (msgBit (message a ys) m), fun m => bitZ ((sha (message a ys)).testBit (255 - m)), fun i => bitZ (a.testBit i),
      fun i j => bitZ ((ys.getD i 0).val.testBit j), (num2Bits_iff _ _ _).mpr ⟨a, ha, rfl, fun _ _ => rfl⟩, ?_, ?_, ?_, ?_⟩
    · intro i hi
      dsimp only
      rw [msgBit_addr hi]
    · intro i h
      have h' : i < ys.length := by simpa using h
      have e : ys.getD i 0 = ys[i] := by rw [List.getD_eq_getElem?_getD, List.getElem?_eq_getElem h', Option.getD_some]
      rw [List.getElem_map]
      dsimp only
      rw [e]
      refine ⟨(canon_bits hr _).1, fun j hj => ?_, (canon_bits hr _).2⟩
      rw [msgBit_pub h' hj]
    · rw [List.length_map, hsz]
      exact (hS.iff _ (message_lt a ys) _ (fun _ _ => rfl) _).mpr fun _ _ => rfl
    · exact (bits_digest (hS.lt _) (fun _ _ => rfl) _).mpr rfl

theorem beBytes_inj {k v w : Nat} (hv : v < 2 ^ (8 * k)) (hw : w < 2 ^ (8 * k)) (h : beBytes k v = beBytes k w) : v = w := by
  refine Nat.eq_of_testBit_eq fun i => ?_
  by_cases hi : i < 8 * k
  · have e1 := msgBit_beBytes (k := k) (v := v) (m := 8 * k - 1 - i) (by omega)
    have e2 := msgBit_beBytes (k := k) (v := w) (m := 8 * k - 1 - i) (by omega)
    rw [show 8 * k - 1 - (8 * k - 1 - i) = i by omega] at e1 e2
    rw [← e1, ← e2, h]
  · have hp : 2 ^ (8 * k) ≤ 2 ^ i := Nat.pow_le_pow_right (by norm_num) (by omega)
    rw [Nat.testBit_lt_two_pow (by omega), Nat.testBit_lt_two_pow (by omega)]

/-- nothing is lost in the encoding -/
theorem message_inj {a b : Nat} {ys zs : List F} (ha : a < 2 ^ 160) (hb : b < 2 ^ 160) (h : message a ys = message b zs) : a = b ∧ ys = zs := by
  obtain ⟨h1, h2⟩ := List.append_inj h (by simp)
  refine ⟨beBytes_inj (k := 20) ha hb h1, ?_⟩
  clear h h1
  induction ys generalizing zs with
  | nil =>
    have := congrArg List.length h2
    rw [flat_length, flat_length] at this
    exact (List.length_eq_zero_iff.mp (by simpa using this.symm)).symm
  | cons y ys ih =>
    cases zs with
    | nil =>
      have := congrArg List.length h2
      rw [flat_length, flat_length] at this
      simp at this
    | cons z zs =>
      rw [List.map_cons, List.map_cons, List.flatten_cons, List.flatten_cons] at h2
      obtain ⟨e1, e2⟩ := List.append_inj h2 (by simp)
      have : NeZero Verif.GL.MODULUS := ⟨by decide⟩
      have hlt : ∀ y : F, y.val < 2 ^ (8 * 8) := fun y => lt_trans (ZMod.val_lt y) (by decide)
      rw [ih e2, ZMod.val_injective _ (beBytes_inj (hlt y) (hlt z) e1)]

/-- **C132, binding**: two provers, or two lists of public inputs, with the same output are a collision of the digest modulo `r` -/
theorem mainHash_binding [Fact r.Prime] (hr : 2 ^ 250 < r) {Sha : Nat → (Nat → ZMod r) → (Nat → ZMod r) → Prop} {sha : List Nat → Nat} (hS : ShaSpec Sha sha)
    {addr addr' : ZMod r} {pub pub' : List (ZMod r)} {hash : ZMod r} (h : MainHash Sha addr pub hash) (h' : MainHash Sha addr' pub' hash)
    (hne : addr ≠ addr' ∨ pub ≠ pub') : ∃ m m' : List Nat, m ≠ m' ∧ sha m % r = sha m' % r := by
  obtain ⟨a, ys, ha, rfl, rfl, e⟩ := (mainHash_iff hr hS _ _ _).mp h
  obtain ⟨b, zs, hb, rfl, rfl, e'⟩ := (mainHash_iff hr hS _ _ _).mp h'
  refine ⟨message a ys, message b zs, fun hm => ?_, (ZMod.natCast_eq_natCast_iff' _ _ _).mp (e.symm.trans e')⟩
  obtain ⟨rfl, rfl⟩ := message_inj ha hb hm
  simp at hne

/-- the public inputs given to the verifier are signals in the range its proofs ask for (`InBase.publics` of C124, C127) -/
theorem mainHash_publics [Fact r.Prime] (hr : 2 ^ 250 < r) {Sha : Nat → (Nat → ZMod r) → (Nat → ZMod r) → Prop} {sha : List Nat → Nat} (hS : ShaSpec Sha sha)
    {addr : ZMod r} {pub : List (ZMod r)} {hash : ZMod r} (h : MainHash Sha addr pub hash) : ∃ ys : List F, List.Forall₂ Out pub ys := by
  obtain ⟨a, ys, -, -, rfl, -⟩ := (mainHash_iff hr hS _ _ _).mp h
  refine ⟨ys, ?_⟩
  clear h
  induction ys with
  | nil => exact List.Forall₂.nil
  | cons y ys ih => exact List.Forall₂.cons (canon_out y) ih

/-! ### Non-vacuity -/

/-- the relation of a hash function -/
def ofHash (r : Nat) (sha : List Nat → Nat) (n : Nat) (inp out : Nat → ZMod r) : Prop :=
  ∀ bytes : List Nat, (∀ b ∈ bytes, b < 256) → n = 8 * bytes.length → (∀ m < n, inp m = bitZ (msgBit bytes m)) →
    ∀ m < 256, out m = bitZ ((sha bytes).testBit (255 - m))

theorem bytes_ext {a b : List Nat} (ha : ∀ x ∈ a, x < 256) (hb : ∀ x ∈ b, x < 256) (hl : a.length = b.length) (h : ∀ m < 8 * a.length, msgBit a m = msgBit b m) :
    a = b := by
  refine List.ext_getElem hl fun i h1 h2 => Nat.eq_of_testBit_eq fun j => ?_
  by_cases hj : j < 8
  · have := h (8 * i + (7 - j)) (by omega)
    rw [msgBit, msgBit, show (8 * i + (7 - j)) / 8 = i by omega, show 7 - (8 * i + (7 - j)) % 8 = j by omega, List.getD_eq_getElem?_getD,
      List.getD_eq_getElem?_getD, List.getElem?_eq_getElem h1, List.getElem?_eq_getElem h2] at this
    exact this
  · have hp : 2 ^ 8 ≤ 2 ^ j := Nat.pow_le_pow_right (by norm_num) (by omega)
    rw [Nat.testBit_lt_two_pow (lt_of_lt_of_le (ha _ (List.getElem_mem h1)) hp), Nat.testBit_lt_two_pow (lt_of_lt_of_le (hb _ (List.getElem_mem h2)) hp)]

/-- every function with digests of 256 bits has such constraints -/
theorem ofHash_spec [Fact r.Prime] {sha : List Nat → Nat} (h : ∀ l, sha l < 2 ^ 256) : ShaSpec (ofHash r sha) sha := by
  refine ⟨h, fun bytes hb inp hin out => ⟨fun ho => ho bytes hb rfl hin, fun ho bytes' hb' hl hin' => ?_⟩⟩
  have : bytes = bytes' := by
    refine bytes_ext hb hb' (by omega) fun m hm => ?_
    have e := (hin m hm).symm.trans (hin' m hm)
    revert e
    cases msgBit bytes m <;> cases msgBit bytes' m <;> simp [bitZ]
  rw [← this]
  exact ho

/-- over BLS12-381, with any hash function: address `0xabcd`, public inputs 5 and `p - 1` -/
example (sha : List Nat → Nat) (h : ∀ l, sha l < 2 ^ 256) :
    MainHash (ofHash Poseidon.blsMod sha) 0xabcd [5, 18446744069414584320] ((sha (message 0xabcd [5, -1]) : Nat) : ZMod Poseidon.blsMod) := by
  refine (mainHash_iff (by decide) (ofHash_spec h) _ _ _).mpr ⟨0xabcd, [5, -1], by norm_num, by norm_cast, ?_, rfl⟩
  have h5 : (5 : F).val = 5 := rfl
  have h1 : (-1 : F).val = 18446744069414584320 := rfl
  rw [List.map_cons, List.map_cons, List.map_nil, canon, canon, h5, h1]
  norm_cast

/-- bytes of the message: twenty of the address, eight of each input -/
example : message 0xabcd [258] = [0, 0, 0, 0, 0, 0, 0, 0, 0, 0, 0, 0, 0, 0, 0, 0, 0, 0, 0xab, 0xcd, 0, 0, 0, 0, 0, 0, 1, 2] := by decide +kernel

/-- the public input `p`, which is zero to the verifier, is refused -/
example (sha : List Nat → Nat) (h : ∀ l, sha l < 2 ^ 256) (hash : ZMod Poseidon.blsMod) :
    ¬ MainHash (ofHash Poseidon.blsMod sha) 0 [18446744069414584321] hash := by
  intro hm
  obtain ⟨a, ys, -, -, e, -⟩ := (mainHash_iff (by decide) (ofHash_spec h) _ _ _).mp hm
  cases ys with
  | nil => simp at e
  | cons y t =>
    have : NeZero Verif.GL.MODULUS := ⟨by decide⟩
    have hy : y.val < P := ZMod.val_lt y
    replace e := (List.cons.inj e).1
    rw [canon, show (18446744069414584321 : ZMod Poseidon.blsMod) = ((18446744069414584321 : Nat) : ZMod Poseidon.blsMod) by norm_cast,
      ZMod.natCast_eq_natCast_iff', Nat.mod_eq_of_lt (by decide), Nat.mod_eq_of_lt (lt_trans hy (by decide))] at e
    unfold P at hy
    omega

end Verif.Gadget.OnMain
