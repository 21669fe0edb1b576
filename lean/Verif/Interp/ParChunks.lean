import Verif.Interp.ParProps

/-!
# The result of `calculate_exps_parallel`, chunk by chunk

`calculate_exps_parallel` (starky/src/stark_gen.rs L786-965) without any condition on the program: what a chunk starts with, and which cells of the
result come from which chunk.
-/
namespace Verif.Interp

set_option linter.unusedSectionVars false

variable {E B : Type} [DecidableEq E] (K : Alg E B)
variable {s : Info} {ex : Exec} {code : List (Instr E)} {n next : Nat}

/-- The contents of a chunk of `cur` rows from row `i` against the cleared context: every row of the chunk, and the `next` rows after it, are the rows
`i + ρ` (cyclically) of the section. -/
structure ChunkOk (ex : Exec) (n next i cur : Nat) (g t : Ctx E B) : Prop where
  cells : ∀ x ∈ ex.inp ++ ex.out, ∀ ρ k, ρ < cur + next → k < ex.width x →
    (t.mem x)[ρ * ex.width x + k]? = (g.mem x)[(i + ρ) % n * ex.width x + k]?
  len : ∀ x ∈ ex.inp ++ ex.out, (t.mem x).length = (cur + next) * ex.width x
  scal : ∀ x, x = .evals ∨ x = .publics ∨ x = .challenge → t.mem x = g.mem x
  rest : ∀ x, x ∉ ex.inp ++ ex.out → x ≠ .evals → x ≠ .publics → x ≠ .challenge → t.mem x = []
  nbits : t.nbits = g.nbits
  nbitsExt : t.nbitsExt = g.nbitsExt

/-- a section that is neither an input nor an output is empty in a chunk (up to the three tables that are copied) -/
theorem chunk_rest {zi : Nat → Nat → Option E} {c : Ctx E B} {i cur : Nat} (hc : i + cur ≤ n) (hnx : (i + cur) % n + next ≤ n)
    (hlen : ∀ x ∈ ex.inp, (c.mem x).length = n * ex.width x) {t : Ctx E B} (h : chunkCtx K ex zi c i cur n next = some t) (x : Sec)
    (hx : x ∉ ex.inp ++ ex.out) : t.mem x = (freshCtx zi c i).mem x := by
  obtain ⟨t1, h1, -, h2, -⟩ := inputs_spec (ex := ex) c i cur n next hc hnx ex.inp (freshCtx zi c i) hlen
  simp only [List.mem_append, not_or] at hx
  unfold chunkCtx at h
  rw [h1, Option.bind_some] at h
  obtain ⟨t2, h3, rfl⟩ := Option.map_eq_some_iff.mp h
  have h4 := (outputs_spec (ex := ex) K cur next ex.out t2).1 x
  rw [h4, if_neg (fun hh => hx.2 hh.1), ← h2 x hx.1]
  split at h3
  · obtain ⟨a, -, h3⟩ := Option.bind_eq_some_iff.mp h3
    obtain ⟨b, -, rfl⟩ := Option.map_eq_some_iff.mp h3
    rfl
  · obtain rfl := Option.some.inj h3
    rfl

theorem chunk_view (hex : ExecOk ex) (zi : Nat → Nat → Option E) (c : Ctx E B) (i cur : Nat) (hc : i + cur ≤ n)
    (hnx : (i + cur) % n + next ≤ n) (hpos : 0 < cur) (hzi : ∀ off j, zi off j = c.Zi (off + j))
    (hlen : ∀ x ∈ ex.inp, (c.mem x).length = n * ex.width x)
    (hbase : ex.inBase = true → c.xXi.length = n * 3 ∧ c.xWXi.length = n * 3) :
    ∃ t, chunkCtx K ex zi c i cur n next = some t ∧ ChunkOk ex n next i cur (cleared K ex n c) t := by
  obtain ⟨t, h1, h2, h3, h4⟩ := chunk_spec (s := ⟨[], [], [], [], fun _ => 0, 0, 0⟩) (code := []) (next := next) K hex zi c i cur hc hnx hpos hzi hlen hbase 0
  have hS := h4 { cleared K ex n c with mem := Function.update (cleared K ex n c).mem .tmp [] } ?_ ?_ ?_ ?_ (by simp) rfl rfl rfl
  · have hio : ∀ x ∈ ex.inp ++ ex.out, x ≠ .tmp := by
      intro x h
      rcases List.mem_append.mp h with h | h
      · exact (hex.inMem x h).1
      · exact (hex.outMem x h).1
    refine ⟨t, h1, ?_, ?_, ?_, ?_, h2, h3⟩
    · intro x hx ρ k hρ hk
      have := hS.ahead x hx ρ k hρ hk (fun ins hi => by cases hi)
      simpa [Function.update_of_ne (hio x hx)] using this
    · intro x hx
      have := hS.len x hx
      simpa [Function.update_of_ne (hio x hx)] using this
    · obtain ⟨a, b, d⟩ := hS.scal
      simp only [ne_eq, reduceCtorEq, not_false_eq_true, Function.update_of_ne] at a b d
      rintro x (rfl | rfl | rfl)
      · exact a
      · exact b
      · exact d
    · intro x hx e1 e2 e3
      rw [chunk_rest K hc hnx hlen h1 x hx]
      simp [freshCtx, e1, e2, e3]
  all_goals
    have hio : ∀ x ∈ ex.inp ++ ex.out, x ≠ .tmp := by
      intro x h
      rcases List.mem_append.mp h with h | h
      · exact (hex.inMem x h).1
      · exact (hex.outMem x h).1
  · intro x hx
    simp [Function.update_of_ne (hio x hx)]
  · intro x hx R k _ _
    simp [Function.update_of_ne (hio x hx)]
  · intro x hx R k _ _
    simp [Function.update_of_ne (hio x hx)]
  · intro x hx ht
    simp [Function.update_of_ne ht, cleared, hx]

/-- everything but the sections -/
def SameRest (a b : Ctx E B) : Prop := a.nbits = b.nbits ∧ a.nbitsExt = b.nbitsExt ∧ a.xXi = b.xXi ∧ a.xWXi = b.xWXi ∧ a.Zi = b.Zi

theorem SameRest.trans {a b c : Ctx E B} (h : SameRest a b) (h' : SameRest b c) : SameRest a c :=
  ⟨h.1.trans h'.1, h.2.1.trans h'.2.1, h.2.2.1.trans h'.2.2.1, h.2.2.2.1.trans h'.2.2.2.1, h.2.2.2.2.trans h'.2.2.2.2⟩

theorem writeBack_rest {start : Nat} {t : Ctx E B} : ∀ (outs : List Sec) (c c' : Ctx E B), outs.foldlM (writeBack1 ex next start t) c = some c' → SameRest c' c
  | [], c, c', h => by
    simp at h
    subst h
    exact ⟨rfl, rfl, rfl, rfl, rfl⟩
  | y :: outs, c, c', h => by
    simp only [List.foldlM_cons, Option.bind_eq_bind] at h
    obtain ⟨c1, h1, h2⟩ := Option.bind_eq_some_iff.mp h
    refine (writeBack_rest outs c1 c' h2).trans ?_
    unfold writeBack1 at h1
    split at h1
    · obtain ⟨l, -, rfl⟩ := Option.map_eq_some_iff.mp h1
      exact ⟨rfl, rfl, rfl, rfl, rfl⟩
    · cases h1

/-- the cells of the result -/
theorem calcParN_chunks (zi : Nat → Nat → Option E) (c : Ctx E B) (tmpUsed npt : Nat)
    (hn : n = modOf c.nbits c.nbitsExt ex.dom) (hnext : next = nextOf c.nbits c.nbitsExt ex.dom)
    (hlen : ∀ x ∈ ex.out, (c.mem x).length = n * ex.width x) (hnpt : 0 < npt) (T : Nat → Ctx E B)
    (hT : ∀ q, q * npt < n → (∃ t, chunkCtx K ex zi c (q * npt) (min npt (n - q * npt)) n next = some t ∧
        calculateExps K s code tmpUsed ex.dom (min npt (n - q * npt)) t = some (T q)) ∧
      ∀ x ∈ ex.out, ((T q).mem x).length = (min npt (n - q * npt) + next) * ex.width x) :
    ∃ c', calcParN K s ex zi code tmpUsed npt c = some c' ∧ SameRest c' c ∧ (∀ x, x ∉ ex.out → c'.mem x = c.mem x) ∧
      ∀ x ∈ ex.out, (c'.mem x).length = n * ex.width x ∧ ∀ q ρ k, q * npt + ρ < n → ρ < npt → k < ex.width x →
        (c'.mem x)[(q * npt + ρ) * ex.width x + k]? = ((T q).mem x)[ρ * ex.width x + k]? := by
  have hQ : ∀ q, q < (n + npt - 1) / npt → q * npt < n := by
    intro q hq
    have h1 := Nat.div_mul_le_self (n + npt - 1) npt
    have h2 : (q + 1) * npt ≤ (n + npt - 1) / npt * npt := Nat.mul_le_mul_right _ hq
    rw [Nat.add_mul, Nat.one_mul] at h2
    omega
  have hmap := mapM_some (fun q => (chunkCtx K ex zi c (q * npt) (min npt (n - q * npt)) n next).bind fun t =>
        (calculateExps K s code tmpUsed ex.dom (min npt (n - q * npt)) t).map fun t => (q * npt, t))
    (fun q => (q * npt, T q)) (List.range ((n + npt - 1) / npt)) fun q hq => by
      obtain ⟨⟨t, h1, h2⟩, -⟩ := hT q (hQ q (List.mem_range.mp hq))
      rw [h1, Option.bind_some, h2]
      rfl
  have hwb : ∀ m, m ≤ (n + npt - 1) / npt → ∃ c', ((List.range m).map fun q => (q * npt, T q)).foldlM
      (fun c p => ex.out.foldlM (writeBack1 ex next p.1 p.2) c) c = some c' ∧ SameRest c' c ∧
      (∀ x, x ∉ ex.out → c'.mem x = c.mem x) ∧
      ∀ x ∈ ex.out, (c'.mem x).length = n * ex.width x ∧ ∀ q ρ k, q < m → q * npt + ρ < n → ρ < npt → k < ex.width x →
        (c'.mem x)[(q * npt + ρ) * ex.width x + k]? = ((T q).mem x)[ρ * ex.width x + k]? := by
    intro m
    induction m with
    | zero => intro _; exact ⟨c, by simp, ⟨rfl, rfl, rfl, rfl, rfl⟩, fun _ _ => rfl, fun x hx => ⟨hlen x hx, by simp⟩⟩
    | succ m ih =>
      intro hm
      obtain ⟨c1, h1, hr, h2, h3⟩ := ih (by omega)
      have hq := hQ m (by omega)
      obtain ⟨-, hTl⟩ := hT m hq
      obtain ⟨c2, h4, h5, h6⟩ := writeBack_spec (ex := ex) (next := next) (n := n) (start := m * npt) (cur := min npt (n - m * npt))
        (by omega) (T m) ex.out c1 fun x hx => ⟨(h3 x hx).1, hTl x hx⟩
      refine ⟨c2, ?_, (writeBack_rest _ _ _ h4).trans hr, fun x hx => (h5 x hx).trans (h2 x hx), fun x hx => ⟨(h6 x hx).1, ?_⟩⟩
      · rw [List.range_succ, List.map_append, List.foldlM_append, h1]
        simp [h4]
      · intro q ρ k hqm hR hρ hk
        rw [(h6 x hx).2]
        by_cases e : q = m
        · subst e
          have e1 : q * npt * ex.width x ≤ (q * npt + ρ) * ex.width x + k := by
            rw [Nat.add_mul (q * npt)]; omega
          have e2 : (q * npt + ρ) * ex.width x + k < (q * npt + min npt (n - q * npt)) * ex.width x :=
            cell_lt (by omega) hk
          rw [if_pos ⟨e1, e2⟩]
          congr 1
          rw [Nat.add_mul (q * npt)]
          omega
        · have hqq : (q + 1) * npt ≤ m * npt := Nat.mul_le_mul_right _ (by omega)
          rw [Nat.add_mul, Nat.one_mul] at hqq
          have := cell_lt (show q * npt + ρ < m * npt by omega) hk
          rw [if_neg (by omega)]
          exact (h3 x hx).2 q ρ k (by omega) hR hρ hk
  obtain ⟨c', h1, hr, h2, h3⟩ := hwb _ le_rfl
  refine ⟨c', ?_, hr, h2, fun x hx => ⟨(h3 x hx).1, fun q ρ k hR hρ hk => (h3 x hx).2 q ρ k ?_ hR hρ hk⟩⟩
  · unfold calcParN
    simp only [← hn, ← hnext]
    rw [hmap, Option.bind_some]
    exact h1
  · rw [Nat.lt_iff_add_one_le, Nat.le_div_iff_mul_le hnpt, Nat.add_mul, Nat.one_mul]
    omega

end Verif.Interp
