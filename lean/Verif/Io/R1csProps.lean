import Verif.Io.R1cs

/-!
# R1CS files: properties
-/
namespace Verif.Io

theorem bind_run {α β : Type} {r : Rd α} {f : α → Rd β} {bs bs' : List Byte} {a : α} (h : r bs = some (a, bs')) : (r >>= f) bs = f a bs' := by
  simp only [bind, StateT.bind, h, Option.bind_some]

theorem pure_run {α : Type} (a : α) (bs : List Byte) : (pure a : Rd α) bs = some (a, bs) := rfl

theorem check_run {β : Type} {c : Prop} [Decidable c] {f : Unit → Rd β} {bs : List Byte} (h : c) : (check c >>= f) bs = f () bs := by
  refine bind_run ?_
  rw [check_iff]
  exact ⟨h, rfl⟩

theorem rdLe_run {k v : Nat} (h : v < 256 ^ k) (rest : List Byte) : rdLe k (le k v ++ rest) = some (v, rest) := (rdLe_iff _ _ _ _).mpr ⟨h, rfl⟩

theorem rdN_run {k : Nat} {x : List Byte} (h : x.length = k) (rest : List Byte) : rdN k (x ++ rest) = some (x, rest) := (rdN_iff _ _ _ _).mpr ⟨h, rfl⟩

theorem rdMany_run {α β : Type} (r : Rd β) (enc : α → List Byte) (g : α → β) (l : List α)
    (h : ∀ a ∈ l, ∀ rest, r (enc a ++ rest) = some (g a, rest)) (rest : List Byte) :
    rdMany r l.length (l.flatMap enc ++ rest) = some (l.map g, rest) := by
  induction l with
  | nil => rfl
  | cons a l ih =>
    rw [List.length_cons, rdMany, List.flatMap_cons, List.append_assoc, bind_run (h a (by simp) _), bind_run (ih fun b hb => h b (by simp [hb]))]
    rfl

/-! ### Sorting -/

/-- the vector after all insertions -/
def sorted (l : LCF) : LCF := l.foldl (fun v t => sortLC (v ++ [t])) []

theorem sortLC_sorted (l : LCF) : SortedFrom l (sortLC l) := by
  have htrans : ∀ (a b c : Nat × Nat), (decide (a.1 ≤ b.1)) = true → (decide (b.1 ≤ c.1)) = true → (decide (a.1 ≤ c.1)) = true := by
    intro a b c h1 h2
    simp only [decide_eq_true_eq] at *
    omega
  have htot : ∀ (a b : Nat × Nat), (decide (a.1 ≤ b.1) || decide (b.1 ≤ a.1)) = true := by
    intro a b
    simp only [Bool.or_eq_true, decide_eq_true_eq]
    omega
  have hperm : (sortLC l).Perm l := List.mergeSort_perm l _
  refine ⟨hperm, ?_, fun i => ?_⟩
  · have := List.pairwise_mergeSort htrans htot l
    exact this.imp fun h => by simpa using h
  · have hsub : (l.filter fun t => t.1 = i).Sublist (sortLC l) := by
      refine List.sublist_mergeSort htrans htot ?_ List.filter_sublist
      rw [List.pairwise_filter]
      refine List.pairwise_of_forall fun a b => ?_
      simp only [decide_eq_true_eq]
      omega
    have h2 := hsub.filter (fun t => decide (t.1 = i))
    rw [List.filter_filter] at h2
    simp only [Bool.and_self] at h2
    exact (h2.eq_of_length ((hperm.filter _).length_eq.symm)).symm

theorem SortedFrom.step {l v : LCF} (h : SortedFrom l v) (t : Nat × Nat) : SortedFrom (l ++ [t]) (sortLC (v ++ [t])) := by
  obtain ⟨h1, h2, h3⟩ := sortLC_sorted (v ++ [t])
  refine ⟨h1.trans (h.1.append_right _), h2, fun i => ?_⟩
  rw [h3 i, List.filter_append, List.filter_append, h.2.2 i]

theorem sorted_from (l : LCF) : SortedFrom l (sorted l) := by
  have key : ∀ (l v : LCF) (l0 : LCF), SortedFrom l0 v → SortedFrom (l0 ++ l) (l.foldl (fun v t => sortLC (v ++ [t])) v) := by
    intro l
    induction l with
    | nil => intro v l0 h; simpa using h
    | cons t l ih =>
      intro v l0 h
      have := ih _ _ (h.step t)
      rw [List.append_assoc] at this
      exact this
  have := key l [] [] ⟨List.Perm.refl _, List.Pairwise.nil, fun _ => rfl⟩
  rwa [List.nil_append] at this

/-! ### Readers on encodings -/

theorem rdField_run {e : Eng} (hp : e.p ≤ 256 ^ e.k) {v : Nat} (hv : v < e.p) (rest : List Byte) : rdField e.k e.p (le e.k v ++ rest) = some (v, rest) :=
  (rdField_iff _ _ _ _ _).mpr ⟨⟨by omega, hv⟩, rfl⟩

theorem p32 : (256 : Nat) ^ 4 = 2 ^ 32 := by norm_num
theorem p64 : (256 : Nat) ^ 8 = 2 ^ 64 := by norm_num

theorem rdTerms_run {e : Eng} (hp : e.p ≤ 256 ^ e.k) (l v : LCF) (h : ∀ t ∈ l, t.1 < 2 ^ 32 ∧ t.2 < e.p) (rest : List Byte) :
    rdTerms e l.length v (l.flatMap (encTerm e) ++ rest) = some (l.foldl (fun v t => sortLC (v ++ [t])) v, rest) := by
  induction l generalizing v with
  | nil => rfl
  | cons t l ih =>
    obtain ⟨h1, h2⟩ := h t (by simp)
    rw [List.length_cons, rdTerms, List.flatMap_cons, encTerm, List.append_assoc, List.append_assoc, bind_run (rdLe_run (by rw [p32]; exact h1) _),
      bind_run (rdField_run hp h2 _), ih _ fun t ht => h t (by simp [ht])]
    rfl

theorem rdLC_run {e : Eng} (hp : e.p ≤ 256 ^ e.k) (l : LCF) (h : LCOk e l) (rest : List Byte) :
    rdLC e (encLC e l ++ rest) = some (sorted l, rest) := by
  rw [rdLC, encLC, List.append_assoc, bind_run (rdLe_run (by rw [p32]; exact h.1) _), rdTerms_run hp l [] h.2]
  rfl

/-- a constraint after parsing -/
def sortedCon (c : LCF × LCF × LCF) : LCF × LCF × LCF := (sorted c.1, sorted c.2.1, sorted c.2.2)

theorem rdCon_run {e : Eng} (hp : e.p ≤ 256 ^ e.k) (c : LCF × LCF × LCF) (h : ConOk e c) (rest : List Byte) :
    rdCon e (encCon e c ++ rest) = some (sortedCon c, rest) := by
  rw [rdCon, encCon, List.append_assoc, List.append_assoc, bind_run (rdLC_run hp _ h.1 _), bind_run (rdLC_run hp _ h.2.1 _), bind_run (rdLC_run hp _ h.2.2 _)]
  rfl

theorem rdMap_run (m : List Nat) (hm : ∀ v ∈ m, v < 2 ^ 64) (h0 : m[0]? = some 0) (rest : List Byte) :
    rdMap (m.length * 8) m.length (encMap m ++ rest) = some (m, rest) := by
  rw [rdMap, check_run rfl, encMap, bind_run (rdMany_run (rdLe 8) (le 8) id m (fun v hv rest => rdLe_run (by rw [p64]; exact hm v hv) rest) rest),
    List.map_id, check_run h0]
  rfl

theorem rdStr_run (n : List Byte) (h : (0 : Byte) ∉ n) (rest : List Byte) : rdStr (n ++ 0 :: rest) = some (n, rest) := by
  unfold rdStr
  rw [if_pos (by simp)]
  have h1 : (n ++ 0 :: rest).takeWhile (· ≠ (0 : Byte)) = n := by
    rw [List.takeWhile_append_of_pos (fun x hx => by simpa using fun e : x = 0 => h (e ▸ hx))]
    simp
  have h2 : (n ++ 0 :: rest).dropWhile (· ≠ (0 : Byte)) = 0 :: rest := by
    rw [List.dropWhile_append_of_pos (fun x hx => by simpa using fun e : x = 0 => h (e ▸ hx))]
    simp
  rw [h1, h2]
  rfl

theorem rdDecl_run {e : Eng} (hp : e.p ≤ 256 ^ e.k) (d : GateDecl) (h : DeclOk e d) (rest : List Byte) :
    rdDecl e (encDecl e d ++ rest) = some (d, rest) := by
  obtain ⟨h1, h2, h3⟩ := h
  rw [rdDecl, encDecl, List.append_assoc, List.cons_append, bind_run (rdStr_run _ h1 _), List.append_assoc, bind_run (rdLe_run (by rw [p32]; exact h2) _),
    bind_run (rdMany_run _ _ id d.params (fun v hv rest => rdField_run hp (h3 v hv) rest) rest), List.map_id]
  rfl

theorem rdDecls_run {e : Eng} (hp : e.p ≤ 256 ^ e.k) (ds : List GateDecl) (hl : ds.length < 2 ^ 32) (h : ∀ d ∈ ds, DeclOk e d) (rest : List Byte) :
    rdDecls e (encDecls e ds ++ rest) = some (ds, rest) := by
  rw [rdDecls, encDecls, List.append_assoc, bind_run (rdLe_run (by rw [p32]; exact hl) _), rdMany_run _ _ id ds (fun d hd rest => rdDecl_run hp d (h d hd) rest),
    List.map_id]

theorem le_add (a b v : Nat) : le (a + b) v = le a v ++ le b (v / 256 ^ a) := by
  induction a generalizing v with
  | zero => simp [le]
  | succ a ih =>
    rw [Nat.succ_add, le, le, ih, List.cons_append, Nat.div_div_eq_div_mul, pow_succ']

/-- the words of a use -/
def useWords (u : GateUse) : List Nat := u.id :: u.signals.length :: u.signals.flatMap fun s => [s % 2 ^ 32, s / 2 ^ 32]

theorem encUse_words (u : GateUse) : encUse u = (useWords u).flatMap (le 4) := by
  have key : ∀ l : List Nat, l.flatMap (le 8) = (l.flatMap fun s => [s % 2 ^ 32, s / 2 ^ 32]).flatMap (le 4) := by
    intro l
    induction l with
    | nil => rfl
    | cons s l ih =>
      have e : le 8 s = le 4 (s % 2 ^ 32) ++ le 4 (s / 2 ^ 32) := by
        rw [show 8 = 4 + 4 from rfl, le_add, ← p32, le_mod]
      rw [List.flatMap_cons, List.flatMap_cons, List.flatMap_append, ih, e]
      simp
  rw [encUse, useWords, List.flatMap_cons, List.flatMap_cons, key]

theorem useWords_lt (u : GateUse) (h : UseOk u) : ∀ w ∈ useWords u, w < 2 ^ 32 := by
  obtain ⟨h1, h2, h3⟩ := h
  intro w hw
  simp only [useWords, List.mem_cons, List.mem_flatMap, List.not_mem_nil, or_false] at hw
  rcases hw with rfl | rfl | ⟨s, hs, rfl | rfl⟩
  · exact h1
  · exact h2
  · exact Nat.mod_lt _ (by norm_num)
  · have := h3 s hs
    exact Nat.div_lt_of_lt_mul (by norm_num at this ⊢; exact this)

theorem takeSignals_run (l ws : List Nat) : takeSignals l.length ((l.flatMap fun s => [s % 2 ^ 32, s / 2 ^ 32]) ++ ws) = some (l, ws) := by
  induction l with
  | nil => rfl
  | cons s l ih =>
    simp only [List.flatMap_cons, List.length_cons, List.cons_append, List.nil_append, takeSignals, ih, Option.map_some, Option.some.injEq, Prod.mk.injEq,
      List.cons.injEq, and_true]
    omega

theorem takeUses_run (us : List GateUse) (ws : List Nat) : takeUses us.length (us.flatMap useWords ++ ws) = some us := by
  induction us with
  | nil => rfl
  | cons u us ih =>
    rw [List.flatMap_cons, List.length_cons, useWords]
    simp only [List.cons_append, List.append_assoc, takeUses, takeSignals_run, Option.bind_some, ih, Option.map_some]

theorem rdUses_run (us : List GateUse) (hl : us.length < 2 ^ 32) (h : ∀ u ∈ us, UseOk u) (rest : List Byte) :
    rdUses (encUses us).length (encUses us ++ rest) = some (us, rest) := by
  have ew : encUses us = (us.length :: us.flatMap useWords).flatMap (le 4) := by
    rw [encUses, List.flatMap_cons, List.flatMap_assoc]
    congr 2
    funext u
    exact encUse_words u
  have hlt : ∀ w ∈ us.length :: us.flatMap useWords, w < 2 ^ 32 := by
    intro w hw
    rcases List.mem_cons.mp hw with rfl | hw
    · exact hl
    · obtain ⟨u, hu, hw⟩ := List.mem_flatMap.mp hw
      exact useWords_lt u (h u hu) w hw
  have hlen : (encUses us).length / 4 = (us.length :: us.flatMap useWords).length := by
    rw [ew, List.length_flatMap]
    simp only [le_length, List.map_const', List.sum_replicate]
    rw [show ∀ n : Nat, n • 4 = n * 4 from fun _ => rfl]
    omega
  rw [rdUses, hlen, ew, bind_run (rdMany_run (rdLe 4) (le 4) id _ (fun w hw rest => rdLe_run (by rw [p32]; exact hlt w hw) rest) rest), List.map_id]
  have := takeUses_run us []
  rw [List.append_nil] at this
  simp only [this, Option.map_some]

theorem rdHeader_run {e : Eng} {f : R1csFile} (ok : FileOk e f) (rest : List Byte) :
    rdHeader (encHeader f.header).length (encHeader f.header ++ rest) = some ({ f.header with useCustomGates := false }, rest) := by
  obtain ⟨n1, n2, n3, n4, n5⟩ := ok.nums
  have hk : e.k < 2 ^ 32 := by rcases ok.k with h | h <;> rw [h] <;> norm_num
  have hlen : (encHeader f.header).length = 32 + f.header.fieldSize := by
    simp only [encHeader, List.length_append, le_length, ok.primeLen, ok.fieldSize]
    omega
  rw [hlen, rdHeader, encHeader]
  simp only [List.append_assoc]
  rw [bind_run (rdLe_run (by rw [p32, ok.fieldSize]; exact hk) _), bind_run (rdN_run (by rw [ok.primeLen, ok.fieldSize]) _), check_run rfl,
    bind_run (rdLe_run (by rw [p32]; exact n1) _), bind_run (rdLe_run (by rw [p32]; exact n2) _), bind_run (rdLe_run (by rw [p32]; exact n3) _),
    bind_run (rdLe_run (by rw [p32]; exact n4) _), bind_run (rdLe_run (by rw [p64]; exact n5) _),
    bind_run (rdLe_run (by rw [p32, ok.nCons.1]; exact ok.nCons.2) _)]
  rfl

/-! ### The section table -/

theorem lastOf_cons (s : Nat × List Byte) (secs : List (Nat × List Byte)) (ty : Nat) :
    lastOf (s :: secs) ty = (lastOf secs ty).or (if s.1 = ty then some s.2 else none) := by
  unfold lastOf
  rw [List.reverse_cons, List.find?_append]
  cases h : List.find? (fun s => decide (s.1 = ty)) secs.reverse with
  | some x => rfl
  | none =>
    by_cases e : s.1 = ty
    · simp [e]
    · simp [e]

theorem scan_run (file : List Byte) (secs : List (Nat × List Byte)) (pos : Nat) (m : Nat → Option (Nat × Nat)) (rest : List Byte)
    (hs : ∀ s ∈ secs, s.1 < 2 ^ 32 ∧ s.2.length < 2 ^ 63) (hf : file.drop pos = secs.flatMap encSection ++ rest) :
    ∃ m', scanSections file secs.length pos m = some m' ∧
      ∀ ty, (lastOf secs ty = none → m' ty = m ty) ∧
        ∀ pl, lastOf secs ty = some pl → ∃ off rest, m' ty = some (off, pl.length) ∧ file.drop off = pl ++ rest := by
  induction secs generalizing pos m with
  | nil => exact ⟨m, rfl, fun ty => ⟨fun _ => rfl, fun pl h => by simp [lastOf] at h⟩⟩
  | cons s secs ih =>
    obtain ⟨h1, h2⟩ := hs s (by simp)
    rw [List.flatMap_cons, encSection] at hf
    simp only [List.append_assoc] at hf
    have hoff : file.drop (pos + 12) = s.2 ++ (secs.flatMap encSection ++ rest) := by
      rw [← List.drop_drop, hf, ← List.append_assoc, List.drop_left' (by simp)]
    obtain ⟨m', e1, e2⟩ := ih (pos + 12 + s.2.length) (Function.update m s.1 (some (pos + 12, s.2.length))) (fun s hs' => hs s (by simp [hs']))
      (by rw [← List.drop_drop, hoff, List.drop_left])
    refine ⟨m', ?_, fun ty => ?_⟩
    · rw [List.length_cons, scanSections, hf, rdLe_run (by rw [p32]; exact h1)]
      dsimp only
      rw [rdLe_run (by rw [p64]; omega)]
      dsimp only
      rw [if_pos h2]
      exact e1
    · rw [lastOf_cons]
      obtain ⟨a1, a2⟩ := e2 ty
      constructor
      · intro h
        rw [Option.or_eq_none_iff] at h
        rw [a1 h.1, Function.update_of_ne]
        intro e
        rw [if_pos e.symm] at h
        simp at h
      · intro pl h
        cases hl : lastOf secs ty with
        | some pl' =>
          rw [hl, Option.some_or] at h
          exact a2 pl (by rw [hl, h])
        | none =>
          rw [hl, Option.none_or] at h
          split at h
          · rename_i e
            simp only [Option.some.injEq] at h
            refine ⟨pos + 12, secs.flatMap encSection ++ rest, ?_, ?_⟩
            · rw [a1 hl, ← e, Function.update_self, h]
            · rw [hoff, h]
          · simp at h

/-- the circuit after parsing: its linear combinations are sorted, nothing else changes -/
def parsed (f : R1csFile) (custom : Bool) : R1csFile :=
  { f with header := { f.header with useCustomGates := custom }, constraints := f.constraints.map sortedCon }

/-- **Parsing an R1CS file** (C56): whatever the order of the sections, and whatever other sections (of unknown types, or earlier ones of a type that
occurs again) the file contains, the parser returns the encoded circuit with the terms of every linear combination sorted by wire. -/
theorem fromReader_spec (e : Eng) (f : R1csFile) (ok : FileOk e f) (secs : List (Nat × List Byte)) (hn : secs.length < 2 ^ 32)
    (hs : ∀ s ∈ secs, s.1 < 2 ^ 32 ∧ s.2.length < 2 ^ 63)
    (h1 : lastOf secs 1 = some (encHeader f.header)) (h2 : lastOf secs 2 = some (encCons e f.constraints)) (h3 : lastOf secs 3 = some (encMap f.wireMapping))
    (h4 : lastOf secs 4 = some (encDecls e f.gates) ∨ lastOf secs 4 = none ∧ f.gates = [])
    (h5 : lastOf secs 5 = some (encUses f.uses) ∨ lastOf secs 5 = none ∧ f.uses = []) :
    fromReader e (encFile secs) = some (parsed f ((lastOf secs 5).isSome && (lastOf secs 4).isSome)) := by
  obtain ⟨m, hm, htbl⟩ := scan_run (encFile secs) secs 12 (fun _ => none) [] hs (by
    rw [List.append_nil, encFile, ← List.append_assoc, ← List.append_assoc, List.drop_left' (by simp)])
  obtain ⟨o1, r1, t1, d1⟩ := (htbl 1).2 _ h1
  obtain ⟨o2, r2, t2, d2⟩ := (htbl 2).2 _ h2
  obtain ⟨o3, r3, t3, d3⟩ := (htbl 3).2 _ h3
  have hcons := rdMany_run (rdCon e) (encCon e) sortedCon f.constraints (fun c hc rest => rdCon_run ok.p c (ok.cons c hc) rest) r2
  have hmap := rdMap_run f.wireMapping ok.map.2.1 ok.map.2.2 r3
  have hsome : ∀ ty, (m ty).isSome = (lastOf secs ty).isSome := by
    intro ty
    cases h : lastOf secs ty with
    | none => rw [(htbl ty).1 h]; rfl
    | some pl => obtain ⟨o, r, t, -⟩ := (htbl ty).2 pl h; rw [t]; rfl
  have hg : declsAt e (encFile secs) (m 4) = some f.gates := by
    rcases h4 with h4 | ⟨h4, hg⟩
    · obtain ⟨o, r, t, d⟩ := (htbl 4).2 _ h4
      rw [t, declsAt]
      rw [d, rdDecls_run ok.p _ ok.gates.1 ok.gates.2]
      rfl
    · rw [(htbl 4).1 h4, hg, declsAt]
  have hu : usesAt (encFile secs) (m 5) = some f.uses := by
    rcases h5 with h5 | ⟨h5, hg⟩
    · obtain ⟨o, r, t, d⟩ := (htbl 5).2 _ h5
      rw [t, usesAt]
      rw [d, rdUses_run _ ok.uses.1 ok.uses.2]
      rfl
    · rw [(htbl 5).1 h5, hg, usesAt]
  have hfs : (f.header.fieldSize = 32 ∨ f.header.fieldSize = 8) := by rw [ok.fieldSize]; exact ok.k.symm
  unfold fromReader
  have q1 : rdN 4 (encFile secs) = some ([0x72, 0x31, 0x63, 0x73], le 4 1 ++ (le 4 secs.length ++ secs.flatMap encSection)) := rdN_run rfl _
  rw [q1]
  simp only [Option.bind_eq_bind, Option.bind_some]
  rw [if_neg (by simp), rdLe_run (by norm_num)]
  simp only [Option.bind_some]
  rw [if_neg (by simp), rdLe_run (by rw [p32]; exact hn)]
  simp only [Option.bind_some]
  rw [hm]
  simp only [Option.bind_some]
  rw [t1]
  simp only [Option.bind_some]
  rw [d1, rdHeader_run ok]
  simp only [Option.bind_some]
  rw [if_neg (by simp only [not_not]; exact hfs), if_neg (by simp only [not_not]; exact ok.fieldSize), if_neg (by simp only [not_not]; exact ok.prime), t2]
  simp only [Option.bind_some]
  rw [d2, ok.nCons.1, encCons, hcons]
  simp only [Option.bind_some]
  rw [t3]
  simp only [Option.bind_some]
  have hml : (encMap f.wireMapping).length = f.wireMapping.length * 8 := by
    rw [encMap, List.length_flatMap]
    simp only [le_length, List.map_const', List.sum_replicate]
    rfl
  rw [d3, hml, ← ok.map.1, hmap]
  simp only [Option.bind_some]
  rw [hg]
  simp only [Option.bind_some]
  rw [hu]
  simp only [Option.bind_some, pure, Option.some.injEq]
  rw [hsome 5, hsome 4, parsed, ← ok.nCons.1, ok.map.1]

/-- the terms of the parsed linear combinations: sorted by wire, same terms, equal wires in the order of the file -/
theorem parsed_sorted (f : R1csFile) (custom : Bool) (i : Nat) (c : LCF × LCF × LCF) (h : f.constraints[i]? = some c) :
    ∃ c', (parsed f custom).constraints[i]? = some c' ∧ SortedFrom c.1 c'.1 ∧ SortedFrom c.2.1 c'.2.1 ∧ SortedFrom c.2.2 c'.2.2 :=
  ⟨sortedCon c, by simp [parsed, h], sorted_from _, sorted_from _, sorted_from _⟩

/-- sections of distinct types can be looked up in any order -/
theorem lastOf_perm {secs secs' : List (Nat × List Byte)} (h : secs.Perm secs') (hd : (secs.map (·.1)).Nodup) (ty : Nat) : lastOf secs ty = lastOf secs' ty := by
  have key : ∀ l : List (Nat × List Byte), (l.map (·.1)).Nodup → ∀ pl, lastOf l ty = some pl ↔ (ty, pl) ∈ l := by
    intro l
    induction l with
    | nil => intro _ pl; simp [lastOf]
    | cons s l ih =>
      intro hn pl
      rw [List.map_cons, List.nodup_cons] at hn
      rw [lastOf_cons, List.mem_cons]
      cases hl : lastOf l ty with
      | some pl' =>
        have hmem := (ih hn.2 pl').mp hl
        rw [Option.some_or, ← hl, ih hn.2 pl]
        constructor
        · exact Or.inr
        · rintro (h | h)
          · exact absurd (List.mem_map_of_mem (f := (·.1)) hmem) (by rw [← h] at hn; exact hn.1)
          · exact h
      | none =>
        have hno : (ty, pl) ∉ l := fun hm => by rw [(ih hn.2 pl).mpr hm] at hl; simp at hl
        rw [Option.none_or]
        constructor
        · intro h
          split at h
          · rename_i e; simp only [Option.some.injEq] at h; left; rw [← e, ← h]
          · simp at h
        · rintro (h | h)
          · rw [← h, if_pos rfl]
          · exact absurd h hno
  have hd' : (secs'.map (·.1)).Nodup := (h.map _).nodup_iff.mp hd
  cases h1 : lastOf secs ty with
  | some pl => exact ((key secs' hd' pl).mpr (h.mem_iff.mp ((key secs hd pl).mp h1))).symm
  | none =>
    cases h2 : lastOf secs' ty with
    | none => rfl
    | some pl => rw [(key secs hd pl).mpr (h.mem_iff.mpr ((key secs' hd' pl).mp h2))] at h1; simp at h1

/-- **The order of the sections does not matter** (C56) -/
theorem fromReader_order (e : Eng) (f : R1csFile) (ok : FileOk e f) (secs secs' : List (Nat × List Byte)) (hp : secs.Perm secs') (hd : (secs.map (·.1)).Nodup)
    (hn : secs.length < 2 ^ 32) (hs : ∀ s ∈ secs, s.1 < 2 ^ 32 ∧ s.2.length < 2 ^ 63)
    (h1 : (1, encHeader f.header) ∈ secs) (h2 : (2, encCons e f.constraints) ∈ secs) (h3 : (3, encMap f.wireMapping) ∈ secs)
    (h4 : (4, encDecls e f.gates) ∈ secs) (h5 : (5, encUses f.uses) ∈ secs) :
    fromReader e (encFile secs) = some (parsed f true) ∧ fromReader e (encFile secs') = some (parsed f true) := by
  have key : ∀ ty pl, (ty, pl) ∈ secs → lastOf secs ty = some pl := by
    intro ty pl hm
    clear hp hn hs h1 h2 h3 h4 h5
    induction secs with
    | nil => simp at hm
    | cons s l ih =>
      rw [List.map_cons, List.nodup_cons] at hd
      rw [lastOf_cons]
      rcases List.mem_cons.mp hm with h | h
      · have hno : lastOf l ty = none := by
          cases hl : lastOf l ty with
          | none => rfl
          | some pl' =>
            exfalso
            unfold lastOf at hl
            obtain ⟨x, hx, -⟩ := Option.map_eq_some_iff.mp hl
            have hx1 := List.mem_reverse.mp (List.mem_of_find?_eq_some hx)
            have hx2 := List.find?_some hx
            simp only [decide_eq_true_eq] at hx2
            exact hd.1 (by rw [← h]; exact hx2 ▸ List.mem_map_of_mem (f := (·.1)) hx1)
        rw [hno, ← h]
        simp
      · rw [ih hd.2 h, Option.some_or]
  have main : ∀ s2 : List (Nat × List Byte), secs.Perm s2 → fromReader e (encFile s2) = some (parsed f true) := by
    intro s2 hp2
    have hl : ∀ ty pl, (ty, pl) ∈ secs → lastOf s2 ty = some pl := fun ty pl hm => by rw [← lastOf_perm hp2 hd, key ty pl hm]
    have := fromReader_spec e f ok s2 (by rw [← hp2.length_eq]; exact hn) (fun s hs' => hs s (hp2.mem_iff.mpr hs')) (hl _ _ h1) (hl _ _ h2) (hl _ _ h3)
      (Or.inl (hl _ _ h4)) (Or.inl (hl _ _ h5))
    rw [hl _ _ h4, hl _ _ h5] at this
    exact this
  exact ⟨main secs (List.Perm.refl _), main secs' hp⟩

/-! ### The prime of the file -/

theorem rdHeader_prime (size : Nat) (bs : List Byte) (h : Header) (rest : List Byte) (hr : rdHeader size bs = some (h, rest)) : h.prime.length = h.fieldSize := by
  simp only [rdHeader, check_bind, bind_iff (rdN _), bind_iff (rdLe _), rdN_iff, pure_iff, Prod.mk.injEq] at hr
  obtain ⟨fs, b1, -, pr, b2, ⟨hl, -⟩, -, _, _, -, _, _, -, _, _, -, _, _, -, _, _, -, _, _, -, rfl, -⟩ := hr
  exact hl

/-- **Files over another field** (`_partial`: with 32-byte elements a BLS12-381 file is accepted by the BN254 parser and conversely, see
`foreign_prime_accepted`): an accepted file has the element size of the engine, and with 8-byte elements its prime is the Goldilocks prime. -/
theorem fromReader_prime_partial (e : Eng) (file : List Byte) (f : R1csFile) (h : fromReader e file = some f) :
    f.header.fieldSize = e.k ∧ f.header.prime.length = e.k ∧ (e.k = 8 → f.header.prime = le 8 0xFFFFFFFF00000001) ∧
      (e.k = 32 → f.header.prime = le 32 rBN ∨ f.header.prime = primeBLS) := by
  unfold fromReader at h
  obtain ⟨⟨_, _⟩, -, h⟩ := Option.bind_eq_some_iff.mp h
  dsimp only at h
  split at h
  · simp at h
  obtain ⟨⟨_, _⟩, -, h⟩ := Option.bind_eq_some_iff.mp h
  dsimp only at h
  split at h
  · simp at h
  obtain ⟨⟨_, _⟩, -, h⟩ := Option.bind_eq_some_iff.mp h
  obtain ⟨tbl, -, h⟩ := Option.bind_eq_some_iff.mp h
  obtain ⟨⟨_, _⟩, -, h⟩ := Option.bind_eq_some_iff.mp h
  obtain ⟨⟨hd, _⟩, hh, h⟩ := Option.bind_eq_some_iff.mp h
  have hlen := rdHeader_prime _ _ _ _ hh
  dsimp only at h
  split at h
  · simp at h
  split at h
  · simp at h
  rename_i hk
  split at h
  · simp at h
  rename_i hp
  obtain ⟨⟨_, _⟩, -, h⟩ := Option.bind_eq_some_iff.mp h
  obtain ⟨⟨_, _⟩, -, h⟩ := Option.bind_eq_some_iff.mp h
  obtain ⟨⟨_, _⟩, -, h⟩ := Option.bind_eq_some_iff.mp h
  obtain ⟨⟨_, _⟩, -, h⟩ := Option.bind_eq_some_iff.mp h
  obtain ⟨_, -, h⟩ := Option.bind_eq_some_iff.mp h
  obtain ⟨_, -, h⟩ := Option.bind_eq_some_iff.mp h
  simp only [pure, Option.some.injEq] at h
  subst h
  simp only [ne_eq, not_not] at hk hp
  dsimp only
  refine ⟨hk, by rw [hlen, hk], fun h8 => ?_, fun h32 => ?_⟩
  · rcases hp with hp | hp | hp
    · rw [hp] at hlen; rw [hk, h8] at hlen; simp [primeHex] at hlen
    · rw [hp] at hlen; rw [hk, h8] at hlen; simp [primeBLS] at hlen
    · rw [hp]; decide +kernel
  · rcases hp with hp | hp | hp
    · exact Or.inl (hp.trans primeHex_eq)
    · exact Or.inr hp
    · rw [hp] at hlen; rw [hk, h32] at hlen; simp [primeGL] at hlen

/-- a circuit over BLS12-381: `3 w2 * w1 = w2 + 5 w1`, terms out of order, one template and one use -/
def exFile (prime : List Byte) (k : Nat) : R1csFile :=
  ⟨⟨k, prime, 3, 1, 1, 0, 3, 1, true⟩, [([(2, 3)], [(1, 1)], [(2, 1), (1, 5)])], [0, 1, 2], [⟨[67, 77], [4]⟩], [⟨0, [1, 2 ^ 40]⟩]⟩

/-- its sections, out of order and with an unknown one -/
def exSecs (e : Eng) (f : R1csFile) : List (Nat × List Byte) :=
  [(5, encUses f.uses), (77, [1, 2, 3]), (2, encCons e f.constraints), (1, encHeader f.header), (4, encDecls e f.gates), (3, encMap f.wireMapping)]

theorem exFile_ok (prime : List Byte) (k p : Nat) (hk : k = 8 ∨ k = 32) (hl : prime.length = k) (hp : prime = primeHex ∨ prime = primeBLS ∨ prime = primeGL)
    (h5 : 5 < p) (hpk : p ≤ 256 ^ k) : FileOk ⟨p, k⟩ (exFile prime k) where
  k := hk
  p := hpk
  fieldSize := rfl
  primeLen := hl
  prime := hp
  nums := by simp [exFile]
  nCons := by simp [exFile]
  cons := by
    intro c hc
    simp only [exFile, List.mem_singleton] at hc
    subst hc
    simp only [ConOk, LCOk, List.mem_cons, List.not_mem_nil, or_false]
    refine ⟨⟨by simp, ?_⟩, ⟨by simp, ?_⟩, ⟨by simp, ?_⟩⟩
    · rintro t rfl; exact ⟨by norm_num, by dsimp only; omega⟩
    · rintro t rfl; exact ⟨by norm_num, by dsimp only; omega⟩
    · rintro t (rfl | rfl)
      · exact ⟨by norm_num, by dsimp only; omega⟩
      · exact ⟨by norm_num, by dsimp only; omega⟩
  map := by simp [exFile]
  gates := by
    refine ⟨by simp [exFile], fun d hd => ?_⟩
    simp only [exFile, List.mem_singleton] at hd
    subst hd
    refine ⟨by simp, by simp, fun v hv => ?_⟩
    rw [List.mem_singleton.mp hv]; dsimp only; omega
  uses := by
    refine ⟨by simp [exFile], fun u hu => ?_⟩
    simp only [exFile, List.mem_singleton] at hu
    subst hu
    exact ⟨by simp, by simp, by simp⟩

/-- **A file for another field is accepted**: the parser for BN254 reads a BLS12-381 circuit. -/
theorem foreign_prime_accepted : ∃ file f, fromReader ⟨rBN, 32⟩ file = some f ∧ f.header.prime = primeBLS ∧ primeBLS ≠ le 32 rBN := by
  refine ⟨encFile (exSecs ⟨rBN, 32⟩ (exFile primeBLS 32)), parsed (exFile primeBLS 32) true, ?_, rfl, by decide +kernel⟩
  have ok := exFile_ok primeBLS 32 rBN (Or.inr rfl) rfl (Or.inr (Or.inl rfl)) (by norm_num [rBN]) (by norm_num [rBN])
  refine (fromReader_order ⟨rBN, 32⟩ _ ok (exSecs ⟨rBN, 32⟩ (exFile primeBLS 32)) _ (List.Perm.refl _) (by simp [exSecs]) (by simp [exSecs]) ?_
    (by simp [exSecs]) (by simp [exSecs]) (by simp [exSecs]) (by simp [exSecs]) (by simp [exSecs])).1
  decide +kernel

/-- the hypotheses of `fromReader_order` on a Goldilocks circuit -/
example : fromReader ⟨0xFFFFFFFF00000001, 8⟩ (encFile (exSecs ⟨0xFFFFFFFF00000001, 8⟩ (exFile primeGL 8))) = some (parsed (exFile primeGL 8) true) ∧
    (parsed (exFile primeGL 8) true).constraints = [([(2, 3)], [(1, 1)], [(1, 5), (2, 1)])] := by
  refine ⟨?_, by simp [parsed, exFile, sortedCon, sorted, sortLC, List.mergeSort, List.MergeSort.Internal.splitInTwo]⟩
  have ok := exFile_ok primeGL 8 0xFFFFFFFF00000001 (Or.inl rfl) rfl (Or.inr (Or.inr rfl)) (by norm_num) (by norm_num)
  refine (fromReader_order _ _ ok _ _ (List.Perm.refl _) (by simp [exSecs]) (by simp [exSecs]) ?_
    (by simp [exSecs]) (by simp [exSecs]) (by simp [exSecs]) (by simp [exSecs]) (by simp [exSecs])).1
  decide +kernel

end Verif.Io
