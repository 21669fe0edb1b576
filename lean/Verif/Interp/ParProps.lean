import Verif.Interp.ParLemmas
import Verif.Stark.Model
import Mathlib.Tactic.Linarith
import Mathlib.Tactic.Ring

/-! # C42: parallel evaluation of a segment equals the sequential one, for every chunk size -/

set_option linter.unusedSectionVars false
set_option linter.unusedDecidableInType false

namespace Verif.Interp
open Spec

variable {E B : Type} [DecidableEq E] (K : Alg E B)
variable {s : Info} {ex : Exec} {code : List (Instr E)} {n next : Nat}

/-! ### What a row leaves unchanged -/

/-- unchanged between two contexts, but for the cells of the program in the rows satisfying `P` -/
structure Keep (s : Info) (ex : Exec) (code : List (Instr E)) (P : Nat → Prop) (g g' : Ctx E B) : Prop where
  len : ∀ t, (g'.mem t).length = (g.mem t).length
  other : ∀ t, t ∉ ex.out → t ≠ .tmp → g'.mem t = g.mem t
  cells : ∀ t R k, t ≠ .tmp → k < ex.width t → (¬ P R ∨ Clean s ex code t k) →
    (g'.mem t)[R * ex.width t + k]? = (g.mem t)[R * ex.width t + k]?
  rest : g'.xXi = g.xXi ∧ g'.xWXi = g.xWXi ∧ g'.Zi = g.Zi ∧ g'.nbits = g.nbits ∧ g'.nbitsExt = g.nbitsExt

theorem Keep.refl (P : Nat → Prop) (g : Ctx E B) : Keep s ex code P g g :=
  ⟨fun _ => rfl, fun _ _ _ => rfl, fun _ _ _ _ _ _ => rfl, rfl, rfl, rfl, rfl, rfl⟩

theorem Keep.trans {P Q : Nat → Prop} {g g' g'' : Ctx E B} (h : Keep s ex code P g g') (h' : Keep s ex code Q g' g'') :
    Keep s ex code (fun r => P r ∨ Q r) g g'' := by
  refine ⟨fun t => (h'.len t).trans (h.len t), fun t h1 h2 => (h'.other t h1 h2).trans (h.other t h1 h2), ?_, ?_⟩
  · intro t R k h1 h2 h3
    rw [h'.cells t R k h1 h2 (h3.imp_left fun hh hq => hh (.inr hq)), h.cells t R k h1 h2 (h3.imp_left fun hh hq => hh (.inl hq))]
  · exact ⟨h'.rest.1.trans h.rest.1, h'.rest.2.1.trans h.rest.2.1, h'.rest.2.2.1.trans h.rest.2.2.1,
      h'.rest.2.2.2.1.trans h.rest.2.2.2.1, h'.rest.2.2.2.2.trans h.rest.2.2.2.2⟩

theorem Keep.weaken {P Q : Nat → Prop} {g g' : Ctx E B} (h : Keep s ex code P g g') (hpq : ∀ r, P r → Q r) :
    Keep s ex code Q g g' :=
  { h with cells := fun t R k h1 h2 h3 => h.cells t R k h1 h2 (h3.imp_left fun hh hp => hh (hpq _ hp)) }

theorem store_keep {i : Nat} {c c' : Ctx E B} {ins : Instr E} (hins : ins ∈ code) {v : E} (hd : DestOk s ex ins.dest)
    (h : store K s ex.dom n next c i ins.dest v = some c') : Keep s ex code (· = i) c c' := by
  rcases store_cases K hd h with ⟨ht, hl, rfl⟩ | ⟨ht, col, m, hc, hout, ⟨hw, hp⟩, hm, rfl⟩
  · refine ⟨fun t => ?_, fun t _ h2 => by simp [Function.update_of_ne h2], fun t R k h1 _ _ => by simp [Function.update_of_ne h1],
      rfl, rfl, rfl, rfl, rfl⟩
    by_cases h' : t = .tmp
    · subst h'; simp
    · simp [Function.update_of_ne h']
  · obtain ⟨-, hne, hlen, hget⟩ := writeCol_get K hm
    refine ⟨fun t => ?_, fun t h1 _ => hne t fun hh => h1 (hh ▸ hout), fun t R k _ h2 h3 => ?_, rfl, rfl, rfl, rfl, rfl⟩
    · by_cases h' : t = col.sec
      · subst h'; exact hlen
      · simp [hne t h']
    · by_cases h' : t = col.sec
      · subst h'
        show (m col.sec)[_]? = _
        rw [hget, ← hw]
        rw [← hw] at h2
        simp only [inrange_iff h2 hp]
        rw [if_neg]
        rintro ⟨rfl, h4⟩
        rcases h3 with h3 | h3
        · exact h3 rfl
        · exact h3 ins hins col hc rfl h4
      · simp [hne t h']

theorem CodeOk.dest {all : List (Instr E)} : ∀ {rest : List (Instr E)} {defd : List Nat}, CodeOk s ex all defd rest →
    ∀ ins ∈ rest, DestOk s ex ins.dest
  | [], _, _, _, h => by simp at h
  | i :: rest, _, ⟨_, hd, hr⟩, ins, h => by
    rcases List.mem_cons.mp h with rfl | h
    · exact hd
    · exact CodeOk.dest hr ins h

theorem run_keep {i : Nat} : ∀ {rest : List (Instr E)} {c c' : Ctx E B}, (∀ x ∈ rest, x ∈ code) →
    (∀ x ∈ rest, DestOk s ex x.dest) → run K s ex.dom n next rest c i = some c' → Keep s ex code (· = i) c c'
  | [], c, c', _, _, h => by
    simp [run] at h
    subst h
    exact .refl _ _
  | ins :: rest, c, c', hs, hd, h => by
    simp only [run, List.foldlM_cons, Option.bind_eq_bind] at h
    obtain ⟨c1, h1, h⟩ := Option.bind_eq_some_iff.mp h
    unfold stepI at h1
    simp only [Option.bind_eq_bind] at h1
    obtain ⟨vs, hvs, h1⟩ := Option.bind_eq_some_iff.mp h1
    obtain ⟨v, hv, h1⟩ := Option.bind_eq_some_iff.mp h1
    have k1 := store_keep K (hs ins (by simp)) (hd ins (by simp)) h1
    have k2 := run_keep (fun x hx => hs x (by simp [hx])) (fun x hx => hd x (by simp [hx])) h
    exact (k1.trans k2).weaken fun r hr => by tauto

theorem trace_keep (hd : ∀ x ∈ code, DestOk s ex x.dest) (G : Nat → Ctx E B)
    (hG : ∀ i < n, run K s ex.dom n next code (G i) i = some (G (i + 1))) (i : Nat) :
    ∀ k, i + k ≤ n → Keep s ex code (fun r => i ≤ r ∧ r < i + k) (G i) (G (i + k))
  | 0, _ => (Keep.refl _ _).weaken fun _ h => h
  | k + 1, h => by
    have h1 := trace_keep hd G hG i k (by omega)
    have h2 := run_keep K (code := code) (fun x hx => hx) hd (hG (i + k) (by omega))
    rw [← Nat.add_assoc]
    exact (h1.trans h2).weaken fun r hr => by omega

/-- The intermediate states of a sequential evaluation -/
theorem foldlM_trace {α : Type} (f : α → Nat → Option α) (a b : α) : ∀ (n : Nat), (List.range n).foldlM f a = some b →
    ∃ G : Nat → α, G 0 = a ∧ G n = b ∧ ∀ i < n, f (G i) i = some (G (i + 1))
  | 0, h => by
    simp at h
    exact ⟨fun _ => a, rfl, h, by simp⟩
  | n + 1, h => by
    rw [List.range_succ, List.foldlM_append] at h
    simp only [Option.bind_eq_bind, List.foldlM_cons, List.foldlM_nil, Option.pure_def] at h
    obtain ⟨c, hc, h⟩ := Option.bind_eq_some_iff.mp h
    obtain ⟨G, h0, hn, hG⟩ := foldlM_trace f a c n hc
    refine ⟨fun i => if i ≤ n then G i else b, by simp [h0], by simp, fun i hi => ?_⟩
    by_cases h' : i < n
    · simp [show i ≤ n by omega, show i + 1 ≤ n by omega, hG i h']
    · obtain rfl : i = n := by omega
      simp only [Option.bind_fun_some] at h
      simp [hn, h]

/-! ### Slices -/

theorem mapM_some {α β : Type} (f : α → Option β) (g : α → β) : ∀ (l : List α), (∀ a ∈ l, f a = some (g a)) →
    l.mapM f = some (l.map g)
  | [], _ => by simp
  | a :: l, h => by
    simp [h a (by simp), mapM_some f g l fun b hb => h b (by simp [hb])]

theorem mapM_get {α : Type} (l : List α) (base len : Nat) (h : base + len ≤ l.length) :
    (List.range len).mapM (fun j => l[base + j]?) = some ((l.drop base).take len) := by
  have hr : ∀ (j : Nat), (∃ r, (List.range len).mapM (fun j => l[base + j]?) = some r) := by
    intro _
    suffices ∀ m, m ≤ len → ∃ r, (List.range m).mapM (fun j => l[base + j]?) = some r from this len le_rfl
    intro m
    induction m with
    | zero => intro _; exact ⟨[], by simp⟩
    | succ m ih =>
      intro hm
      obtain ⟨r, hr⟩ := ih (by omega)
      refine ⟨r ++ [l[base + m]'(by omega)], ?_⟩
      rw [List.range_succ, List.mapM_append]
      simp [hr, List.getElem?_eq_getElem (show base + m < l.length by omega)]
  obtain ⟨r, hr⟩ := hr 0
  rw [hr]
  have hf := mapM_forall₂ _ hr
  have hlen : r.length = len := by rw [← hf.length_eq]; simp
  congr 1
  apply List.ext_getElem?
  intro j
  by_cases hj : j < len
  · have := List.forall₂_iff_get.mp hf
    have h2 := this.2 j (by simpa using hj) (by omega)
    simp only [List.get_eq_getElem, List.getElem_range] at h2
    rw [List.getElem?_take_of_lt hj, List.getElem?_drop, h2, List.getElem?_eq_getElem]
  · rw [List.getElem?_eq_none (by omega), List.getElem?_eq_none (by simp; omega)]

/-- The rows of a chunk: present and as in the source. -/
theorem slice_spec {α : Type} (l : List α) (w i cur n next : Nat) (hl : l.length = n * w) (hc : i + cur ≤ n)
    (hnx : (i + cur) % n + next ≤ n) :
    ∃ r, sliceRows l w i cur n next = some r ∧ r.length = (cur + next) * w ∧
      (∀ j, j < cur * w → r[j]? = l[i * w + j]?) ∧
      ∀ ρ k, ρ < cur + next → k < w → r[ρ * w + k]? = l[(i + ρ) % n * w + k]? := by
  have h1 : i * w + cur * w ≤ l.length := by
    rw [hl, ← Nat.add_mul]
    exact Nat.mul_le_mul_right _ hc
  have h2 : (i + cur) % n * w + next * w ≤ l.length := by
    rw [hl, ← Nat.add_mul]
    exact Nat.mul_le_mul_right _ hnx
  unfold sliceRows
  rw [mapM_get l _ _ h1, mapM_get l _ _ h2]
  have hlen1 : ((l.drop (i * w)).take (cur * w)).length = cur * w := by simp; omega
  refine ⟨_, rfl, ?_, ?_, ?_⟩
  · simp only [List.length_append, hlen1]
    simp only [List.length_take, List.length_drop]
    rw [Nat.add_mul]
    omega
  · intro j hj
    rw [List.getElem?_append_left (by omega), List.getElem?_take_of_lt hj, List.getElem?_drop]
  · intro ρ k hρ hk
    by_cases hlt : ρ < cur
    · have := cell_lt hlt hk
      rw [List.getElem?_append_left (by omega), List.getElem?_take_of_lt this, List.getElem?_drop,
        Nat.mod_eq_of_lt (show i + ρ < n by omega)]
      congr 1
      rw [Nat.add_mul]
      omega
    · obtain ⟨t, rfl⟩ : ∃ t, ρ = cur + t := ⟨ρ - cur, by omega⟩
      have ht : t < next := by omega
      have := cell_lt ht hk
      have e1 : (cur + t) * w + k - cur * w = t * w + k := by rw [Nat.add_mul]; omega
      rw [List.getElem?_append_right (by rw [hlen1, Nat.add_mul]; omega), hlen1, e1, List.getElem?_take_of_lt this, List.getElem?_drop]
      have e2 : (i + (cur + t)) % n = (i + cur) % n + t := by
        rw [← Nat.add_assoc, ← Nat.mod_add_mod, Nat.mod_eq_of_lt (show (i + cur) % n + t < n by omega)]
      rw [e2, Nat.add_mul]
      congr 1
      omega

/-! ### The context of a chunk -/

/-- The context in which the sections that are only outputs have been cleared. -/
def cleared (ex : Exec) (n : Nat) (c : Ctx E B) : Ctx E B :=
  { c with mem := fun t => if t ∈ ex.out ∧ t ∉ ex.inp then List.replicate (n * ex.width t) K.zero else c.mem t }

theorem inputs_spec (c : Ctx E B) (i cur n next : Nat) (hc : i + cur ≤ n) (hnx : (i + cur) % n + next ≤ n) :
    ∀ (ins : List Sec) (t : Ctx E B), (∀ x ∈ ins, (c.mem x).length = n * ex.width x) →
    ∃ t', ins.foldlM (addInput ex c i cur n next) t = some t' ∧
      (∀ x ∈ ins, sliceRows (c.mem x) (ex.width x) i cur n next = some (t'.mem x)) ∧
      (∀ x, x ∉ ins → t'.mem x = t.mem x) ∧
      t'.xXi = t.xXi ∧ t'.xWXi = t.xWXi ∧ t'.Zi = t.Zi ∧ t'.nbits = t.nbits ∧ t'.nbitsExt = t.nbitsExt
  | [], t, _ => ⟨t, by simp, by simp, by simp, rfl, rfl, rfl, rfl, rfl⟩
  | x :: ins, t, h => by
    obtain ⟨r, hr, -⟩ := slice_spec (c.mem x) (ex.width x) i cur n next (h x (by simp)) hc hnx
    obtain ⟨t', h1, h2, h3, h4⟩ := inputs_spec c i cur n next hc hnx ins (t.put x r) fun y hy => h y (by simp [hy])
    refine ⟨t', ?_, ?_, ?_, h4⟩
    · simp [addInput, hr, h1]
    · intro y hy
      by_cases hyi : y ∈ ins
      · exact h2 y hyi
      · rcases List.mem_cons.mp hy with rfl | hh
        · rw [h3 y hyi, hr]
          simp [Ctx.put]
        · exact absurd hh hyi
    · intro y hy
      simp only [List.mem_cons, not_or] at hy
      rw [h3 y hy.2]
      simp [Ctx.put, hy.1]

theorem outputs_spec (cur next : Nat) : ∀ (outs : List Sec) (t : Ctx E B),
    let t' := outs.foldl (addOutput K ex cur next) t
    (∀ x, t'.mem x = if x ∈ outs ∧ t.mem x = [] then List.replicate (ex.width x * (cur + next)) K.zero else t.mem x) ∧
      t'.xXi = t.xXi ∧ t'.xWXi = t.xWXi ∧ t'.Zi = t.Zi ∧ t'.nbits = t.nbits ∧ t'.nbitsExt = t.nbitsExt
  | [], t => by simp
  | y :: outs, t => by
    have ih := outputs_spec cur next outs (addOutput K ex cur next t y)
    simp only [List.foldl_cons]
    have hrest : (addOutput K ex cur next t y).xXi = t.xXi ∧ (addOutput K ex cur next t y).xWXi = t.xWXi ∧
        (addOutput K ex cur next t y).Zi = t.Zi ∧ (addOutput K ex cur next t y).nbits = t.nbits ∧
        (addOutput K ex cur next t y).nbitsExt = t.nbitsExt := by
      unfold addOutput
      split <;> simp [Ctx.put]
    obtain ⟨h1, h2⟩ := ih
    refine ⟨fun x => ?_, by rw [h2.1, hrest.1], by rw [h2.2.1, hrest.2.1], by rw [h2.2.2.1, hrest.2.2.1],
      by rw [h2.2.2.2.1, hrest.2.2.2.1], by rw [h2.2.2.2.2, hrest.2.2.2.2]⟩
    rw [h1 x]
    have hm : (addOutput K ex cur next t y).mem x =
        if x = y ∧ t.mem x = [] then List.replicate (ex.width x * (cur + next)) K.zero else t.mem x := by
      unfold addOutput
      by_cases hy : t.mem y = []
      · rw [if_pos hy]
        by_cases hxy : x = y
        · subst hxy; simp [Ctx.put, hy]
        · simp [Ctx.put, hxy]
      · rw [if_neg hy]
        by_cases hxy : x = y
        · subst hxy; simp [hy]
        · simp [hxy]
    rw [hm]
    by_cases hxy : x = y
    · subst hxy
      by_cases he : t.mem x = []
      · simp [he]
      · simp [he]
    · by_cases he : t.mem x = []
      · simp [he, hxy]
      · simp [he, hxy]

/-- The chunk context simulates the cleared context, when the sections have full length. -/
theorem chunk_spec (hex : ExecOk ex) (zi : Nat → Nat → Option E) (c : Ctx E B) (i cur : Nat) (hc : i + cur ≤ n)
    (hnx : (i + cur) % n + next ≤ n) (hpos : 0 < cur) (hzi : ∀ off j, zi off j = c.Zi (off + j))
    (hlen : ∀ x ∈ ex.inp, (c.mem x).length = n * ex.width x)
    (hbase : ex.inBase = true → c.xXi.length = n * 3 ∧ c.xWXi.length = n * 3) (tmpUsed : Nat) :
    ∃ t, chunkCtx K ex zi c i cur n next = some t ∧ t.nbits = c.nbits ∧ t.nbitsExt = c.nbitsExt ∧
      ∀ g : Ctx E B, (∀ x ∈ ex.inp ++ ex.out, (g.mem x).length = ((cleared K ex n c).mem x).length) →
        (∀ x ∈ ex.inp ++ ex.out, ∀ R k, i ≤ R → k < ex.width x →
          (g.mem x)[R * ex.width x + k]? = ((cleared K ex n c).mem x)[R * ex.width x + k]?) →
        (∀ x ∈ ex.inp ++ ex.out, ∀ R k, k < ex.width x → Clean s ex code x k →
          (g.mem x)[R * ex.width x + k]? = ((cleared K ex n c).mem x)[R * ex.width x + k]?) →
        (∀ x, x ∉ ex.out → x ≠ .tmp → g.mem x = c.mem x) → (g.mem .tmp).length = tmpUsed →
        g.xXi = c.xXi → g.xWXi = c.xWXi → g.Zi = c.Zi →
        Sim s ex code n next i cur g { t with mem := Function.update t.mem .tmp (List.replicate tmpUsed K.zero) } [] := by
  obtain ⟨t1, h1, h2, h3, h4⟩ := inputs_spec (ex := ex) c i cur n next hc hnx ex.inp
    (freshCtx zi c i) hlen
  obtain ⟨t2, ht2, hm2, hz2, hn2, hne2, hb2⟩ : ∃ t2 : Ctx E B, (if ex.inBase then
      (sliceRows c.xXi 3 i cur n next).bind fun a => (sliceRows c.xWXi 3 i cur n next).map fun b => { t1 with xXi := a, xWXi := b }
      else some t1) = some t2 ∧ t2.mem = t1.mem ∧ t2.Zi = t1.Zi ∧ t2.nbits = t1.nbits ∧ t2.nbitsExt = t1.nbitsExt ∧
      (ex.inBase = true → ∀ j, j < cur * 3 → t2.xXi[j]? = c.xXi[i * 3 + j]? ∧ t2.xWXi[j]? = c.xWXi[i * 3 + j]?) := by
    cases hb : ex.inBase
    · exact ⟨t1, by simp, rfl, rfl, rfl, rfl, by simp⟩
    · obtain ⟨a, ha, -, ha', -⟩ := slice_spec c.xXi 3 i cur n next (hbase hb).1 hc hnx
      obtain ⟨b, hb', -, hb'', -⟩ := slice_spec c.xWXi 3 i cur n next (hbase hb).2 hc hnx
      exact ⟨{ t1 with xXi := a, xWXi := b }, by simp [ha, hb'], rfl, rfl, rfl, rfl, fun _ j hj => ⟨ha' j hj, hb'' j hj⟩⟩
  obtain ⟨hm3, hx3, hw3, hz3, hn3, hne3⟩ := outputs_spec K (ex := ex) cur next ex.out t2
  refine ⟨ex.out.foldl (addOutput K ex cur next) t2, ?_, ?_, ?_, ?_⟩
  · unfold chunkCtx
    rw [h1, Option.bind_some, ht2]
    rfl
  · rw [hn3, hn2, h4.2.2.2.1]; rfl
  · rw [hne3, hne2, h4.2.2.2.2]; rfl
  intro g hgl hgr hgc hgo hgt hgx hgw hgz
  have hmemin : ∀ x ∈ ex.inp, sliceRows (c.mem x) (ex.width x) i cur n next =
      some ((ex.out.foldl (addOutput K ex cur next) t2).mem x) := by
    intro x hx
    rw [hm3 x, hm2]
    obtain ⟨r, hr, hrl, -⟩ := slice_spec (c.mem x) (ex.width x) i cur n next (hlen x hx) hc hnx
    have hh := h2 x hx
    rw [hh] at hr
    simp only [Option.some.injEq] at hr
    split
    · rename_i he
      rw [hh, he.2]
      rw [hr] at he
      rw [he.2] at hrl
      simp only [List.length_nil] at hrl
      rw [show ex.width x * (cur + next) = 0 by rw [Nat.mul_comm]; omega]
      rfl
    · exact hh
  have hmemout : ∀ x ∈ ex.out, x ∉ ex.inp → (ex.out.foldl (addOutput K ex cur next) t2).mem x =
      List.replicate (ex.width x * (cur + next)) K.zero := by
    intro x hx hni
    rw [hm3 x, hm2, h3 x hni, if_pos]
    refine ⟨hx, ?_⟩
    obtain ⟨n1, n2, n3, n4⟩ := hex.outMem x hx
    simp [freshCtx, n2, n3, n4]
  have hne : ∀ x ∈ ex.inp ++ ex.out, x ≠ .tmp := by
    intro x h
    rcases List.mem_append.mp h with h | h
    · exact (hex.inMem x h).1
    · exact (hex.outMem x h).1
  have hclr : ∀ x, x ∈ ex.out → x ∉ ex.inp → (cleared K ex n c).mem x = List.replicate (n * ex.width x) K.zero := by
    intro x h1 h2
    simp [cleared, h1, h2]
  have hclr' : ∀ x, x ∈ ex.inp → (cleared K ex n c).mem x = c.mem x := by
    intro x h2
    simp [cleared, h2]
  have hcell : ∀ x ∈ ex.inp ++ ex.out, ∀ ρ k, ρ < cur + next → k < ex.width x →
      ((ex.out.foldl (addOutput K ex cur next) t2).mem x)[ρ * ex.width x + k]? =
        ((cleared K ex n c).mem x)[(i + ρ) % n * ex.width x + k]? := by
    intro x hx ρ k hρ hk
    by_cases hi : x ∈ ex.inp
    · obtain ⟨r, hr, -, -, hrc⟩ := slice_spec (c.mem x) (ex.width x) i cur n next (hlen x hi) hc hnx
      rw [hmemin x hi] at hr
      simp only [Option.some.injEq] at hr
      rw [hr, hclr' x hi]
      exact hrc ρ k hρ hk
    · have ho : x ∈ ex.out := by
        rcases List.mem_append.mp hx with h | h
        · exact absurd h hi
        · exact h
      rw [hmemout x ho hi, hclr x ho hi]
      have e1 := cell_lt hρ hk
      have e2 := cell_lt (Nat.mod_lt (i + ρ) (show n > 0 by omega)) hk
      rw [List.getElem?_replicate_of_lt (by rw [Nat.mul_comm (ex.width x)]; exact e1), List.getElem?_replicate_of_lt e2]
  have hup : ∀ x ∈ ex.inp ++ ex.out, (Function.update (ex.out.foldl (addOutput K ex cur next) t2).mem .tmp
      (List.replicate tmpUsed K.zero)) x = (ex.out.foldl (addOutput K ex cur next) t2).mem x := by
    intro x hx
    rw [Function.update_of_ne (hne x hx)]
  refine ⟨?_, ?_, ?_, ?_, ?_, ?_, ?_, by simp⟩
  · intro x hx ρ k hρ hk
    simp only
    rw [hup x hx, hcell x hx ρ k (by omega) hk, hgr x hx (i + ρ) k (by omega) hk, Nat.mod_eq_of_lt (by omega)]
  · intro x hx ρ k hρ hk hcl
    simp only
    rw [hup x hx, hcell x hx ρ k (by omega) hk, hgc x hx _ k hk hcl]
  · intro x hx
    simp only
    rw [hup x hx]
    by_cases hi : x ∈ ex.inp
    · obtain ⟨r, hr, hrl, -⟩ := slice_spec (c.mem x) (ex.width x) i cur n next (hlen x hi) hc hnx
      rw [hmemin x hi] at hr
      simp only [Option.some.injEq] at hr
      rw [hr, hrl]
    · have ho : x ∈ ex.out := by
        rcases List.mem_append.mp hx with h | h
        · exact absurd h hi
        · exact h
      rw [hmemout x ho hi, List.length_replicate, Nat.mul_comm]
  · have hs : ∀ x, x = .evals ∨ x = .publics ∨ x = .challenge →
        (ex.out.foldl (addOutput K ex cur next) t2).mem x = g.mem x := by
      intro x hx
      have hni : x ∉ ex.inp := by
        intro h
        have := hex.inMem x h
        rcases hx with rfl | rfl | rfl <;> simp at this
      have hno : x ∉ ex.out := by
        intro h
        have := hex.outMem x h
        rcases hx with rfl | rfl | rfl <;> simp at this
      rw [hm3 x, if_neg (fun h => hno h.1), hm2, h3 x hni, hgo x hno (by rcases hx with rfl | rfl | rfl <;> simp)]
      simp [freshCtx, hx]
    simp only [Function.update_of_ne (show (Sec.evals : Sec) ≠ .tmp by decide),
      Function.update_of_ne (show (Sec.publics : Sec) ≠ .tmp by decide), Function.update_of_ne (show (Sec.challenge : Sec) ≠ .tmp by decide)]
    exact ⟨hs _ (by simp), hs _ (by simp), hs _ (by simp)⟩
  · intro hb j hj
    simp only
    rw [hx3, hw3, hgx, hgw]
    exact hb2 hb j hj
  · intro ρ
    simp only
    rw [hz3, hz2, h4.2.2.1, hgz]
    exact hzi i ρ
  · simp [hgt]

/-! ### Writing back -/

theorem splice_get {α : Type} {l v l' : List α} {a : Nat} (h : splice l a v = some l') :
    l'.length = l.length ∧ ∀ j, l'[j]? = if a ≤ j ∧ j < a + v.length then v[j - a]? else l[j]? := by
  unfold splice at h
  split at h
  · rename_i hl
    simp only [Option.some.injEq] at h
    subst h
    refine ⟨by simp; omega, fun j => ?_⟩
    have h1 : (l.take a).length = a := by simp; omega
    by_cases hj : j < a
    · rw [if_neg (by omega), List.append_assoc, List.getElem?_append_left (by omega), List.getElem?_take_of_lt hj]
    · by_cases hj2 : j < a + v.length
      · rw [if_pos ⟨by omega, hj2⟩, List.append_assoc, List.getElem?_append_right (by omega), h1,
          List.getElem?_append_left (by omega)]
      · rw [if_neg (by omega), List.getElem?_append_right (by simp; omega), List.getElem?_drop]
        congr 1
        simp
        omega
  · simp at h

theorem put_mem (c : Ctx E B) (x y : Sec) (l : List E) : (c.put x l).mem y = if y = x then l else c.mem y := rfl

/-- writing back the output sections of one chunk -/
theorem writeBack_spec {start cur : Nat} (hc : start + cur ≤ n) (t : Ctx E B) : ∀ (outs : List Sec) (c : Ctx E B),
    (∀ x ∈ outs, (c.mem x).length = n * ex.width x ∧ (t.mem x).length = (cur + next) * ex.width x) →
    ∃ c', outs.foldlM (writeBack1 ex next start t) c = some c' ∧
      (∀ x, x ∉ outs → c'.mem x = c.mem x) ∧
      ∀ x ∈ outs, (c'.mem x).length = n * ex.width x ∧ ∀ j, (c'.mem x)[j]? =
        if start * ex.width x ≤ j ∧ j < (start + cur) * ex.width x then (t.mem x)[j - start * ex.width x]? else (c.mem x)[j]?
  | [], c, _ => ⟨c, by simp, by simp, by simp⟩
  | y :: outs, c, h => by
    obtain ⟨hl, hlt⟩ := h y (by simp)
    have e1 : (t.mem y).length - ex.width y * next = cur * ex.width y := by
      rw [hlt, Nat.add_mul, Nat.mul_comm next]; omega
    have htake : ((t.mem y).take (cur * ex.width y)).length = cur * ex.width y := by
      rw [List.length_take, hlt, Nat.add_mul]; omega
    have hfit : start * ex.width y + ((t.mem y).take (cur * ex.width y)).length ≤ (c.mem y).length := by
      rw [htake, hl, ← Nat.add_mul]
      exact Nat.mul_le_mul_right _ hc
    obtain ⟨l', hl'⟩ : ∃ l', splice (c.mem y) (start * ex.width y) ((t.mem y).take (cur * ex.width y)) = some l' := by
      unfold splice
      rw [if_pos hfit]
      exact ⟨_, rfl⟩
    obtain ⟨hlen', hget'⟩ := splice_get hl'
    rw [htake] at hget'
    have hget'' : ∀ j, l'[j]? = if start * ex.width y ≤ j ∧ j < (start + cur) * ex.width y then (t.mem y)[j - start * ex.width y]?
        else (c.mem y)[j]? := by
      intro j
      rw [hget' j, Nat.add_mul]
      by_cases hcond : start * ex.width y ≤ j ∧ j < start * ex.width y + cur * ex.width y
      · rw [if_pos hcond, if_pos hcond, List.getElem?_take_of_lt (by omega)]
      · rw [if_neg hcond, if_neg hcond]
    have hstep : writeBack1 ex next start t c y = some (c.put y l') := by
      unfold writeBack1
      rw [if_pos (by rw [hlt, Nat.add_mul, Nat.mul_comm]; omega), e1, hl']
      rfl
    obtain ⟨c', h1, h2, h3⟩ := writeBack_spec hc t outs (c.put y l') (by
      intro x hx
      refine ⟨?_, (h x (by simp [hx])).2⟩
      rw [put_mem]
      by_cases hxy : x = y
      · subst hxy; simp [hlen', hl]
      · simp [hxy, (h x (by simp [hx])).1])
    refine ⟨c', by simp [hstep, h1], ?_, ?_⟩
    · intro x hx
      simp only [List.mem_cons, not_or] at hx
      rw [h2 x hx.2, put_mem, if_neg hx.1]
    · intro x hx
      by_cases hxo : x ∈ outs
      · refine ⟨(h3 x hxo).1, fun j => ?_⟩
        rw [(h3 x hxo).2 j]
        split
        · rfl
        · rename_i hcond
          rw [put_mem]
          by_cases hxy : x = y
          · subst hxy
            rw [if_pos rfl, hget'' j, if_neg hcond]
          · rw [if_neg hxy]
      · rcases List.mem_cons.mp hx with rfl | hh
        · rw [h2 x hxo, put_mem, if_pos rfl]
          exact ⟨by rw [hlen', hl], hget''⟩
        · exact absurd hh hxo

/-- **C42**, general form: for every chunk size `npt` for which no chunk but the last is followed by fewer than `next` rows,
evaluating a segment by chunks gives, in every section, what evaluating it row by row over the whole domain gives from
the context in which the sections that are outputs and not inputs have been cleared. -/
theorem calcParN_spec (hex : ExecOk ex) (zi : Nat → Nat → Option E) (c cs : Ctx E B) (tmpUsed npt : Nat)
    (hn : n = modOf c.nbits c.nbitsExt ex.dom) (hnext : next = nextOf c.nbits c.nbitsExt ex.dom)
    (hlen : ∀ x ∈ ex.inp ++ ex.out, (c.mem x).length = n * ex.width x)
    (hbase : ex.inBase = true → c.xXi.length = n * 3 ∧ c.xWXi.length = n * 3)
    (hzi : ∀ off j, zi off j = c.Zi (off + j))
    (hok : CodeOk s ex code [] code)
    (hnpt : 0 < npt) (hnn : next ≤ n) (hlast : ∀ q, (q + 1) * npt < n → (q + 1) * npt + next ≤ n)
    (hseq : (List.range n).foldlM (run K s ex.dom n next code)
      { cleared K ex n c with mem := Function.update (cleared K ex n c).mem .tmp (List.replicate tmpUsed K.zero) } = some cs) :
    ∃ c', calcParN K s ex zi code tmpUsed npt c = some c' ∧ ∀ x, x ≠ .tmp → c'.mem x = cs.mem x := by
  have hn0 : 0 < n := by
    rw [hn]
    unfold modOf
    split <;> exact Nat.two_pow_pos _
  obtain ⟨G, hG0, hGn, hG⟩ := foldlM_trace _ _ _ _ hseq
  have hdest := CodeOk.dest hok
  have hkeep : ∀ i, i ≤ n → Keep s ex code (fun r => r < i) (G 0) (G i) := fun i hi => by
    have := trace_keep K hdest G hG 0 i (by omega)
    rw [Nat.zero_add] at this
    exact this.weaken fun r hr => by omega
  have hkeep2 : ∀ i, i ≤ n → Keep s ex code (fun r => i ≤ r) (G i) (G n) := fun i hi => by
    have := trace_keep K hdest G hG i (n - i) (by omega)
    rw [show i + (n - i) = n by omega] at this
    exact this.weaken fun r hr => by omega
  have hio : ∀ x ∈ ex.inp ++ ex.out, x ≠ .tmp := by
    intro x h
    rcases List.mem_append.mp h with h | h
    · exact (hex.inMem x h).1
    · exact (hex.outMem x h).1
  have hG0m : ∀ x, x ≠ .tmp → (G 0).mem x = (cleared K ex n c).mem x := by
    intro x hx
    rw [hG0]
    simp [Function.update_of_ne hx]
  have hclen : ∀ x ∈ ex.inp ++ ex.out, ((cleared K ex n c).mem x).length = n * ex.width x := by
    intro x hx
    unfold cleared
    simp only
    split
    · simp
    · exact hlen x hx
  -- one chunk
  have hchunk : ∀ q, q * npt < n → ∃ t t', chunkCtx K ex zi c (q * npt) (min npt (n - q * npt)) n next = some t ∧
      calculateExps K s code tmpUsed ex.dom (min npt (n - q * npt)) t = some t' ∧
      (∀ x ∈ ex.out, (t'.mem x).length = (min npt (n - q * npt) + next) * ex.width x) ∧
      ∀ x ∈ ex.out, ∀ ρ k, ρ < min npt (n - q * npt) → k < ex.width x →
        (t'.mem x)[ρ * ex.width x + k]? = (cs.mem x)[(q * npt + ρ) * ex.width x + k]? := by
    intro q hq
    generalize hcur : min npt (n - q * npt) = cur
    generalize hst : q * npt = start at *
    have hcur0 : 0 < cur := by omega
    have hsc : start + cur ≤ n := by omega
    have hnx : (start + cur) % n + next ≤ n := by
      by_cases he : start + cur = n
      · rw [he, Nat.mod_self]; omega
      · have hl := hlast q (by rw [Nat.add_mul, Nat.one_mul, hst]; omega)
        rw [Nat.add_mul, Nat.one_mul, hst] at hl
        rw [Nat.mod_eq_of_lt (by omega)]
        omega
    have hcc : (start = 0 ∧ cur = n) ∨ cur + next ≤ n := by
      by_cases h0 : npt < n
      · have := hlast 0 (by omega)
        omega
      · refine .inl ?_
        have hq0 : q = 0 := by
          by_contra hne
          have : 1 * npt ≤ q * npt := Nat.mul_le_mul_right _ (by omega)
          omega
        subst hq0
        omega
    obtain ⟨t, ht, htn, htne, hsim⟩ := chunk_spec (s := s) (code := code) (next := next) K hex zi c start cur hsc hnx hcur0 hzi
      (fun x hx => hlen x (List.mem_append.mpr (.inl hx))) hbase tmpUsed
    have hk := hkeep start (by omega)
    have hsim0 := hsim (G start) (fun x hx => by rw [hk.len x, hG0m x (hio x hx)])
      (fun x hx R k hR hkk => by rw [hk.cells x R k (hio x hx) hkk (.inl (by omega)), hG0m x (hio x hx)])
      (fun x hx R k hkk hcl => by rw [hk.cells x R k (hio x hx) hkk (.inr hcl), hG0m x (hio x hx)])
      (fun x hx hxt => by
        rw [hk.other x hx hxt, hG0m x hxt]
        simp [cleared, hx])
      (by rw [hk.len .tmp, hG0]; simp)
      (by rw [hk.rest.1, hG0]; rfl) (by rw [hk.rest.2.1, hG0]; rfl) (by rw [hk.rest.2.2.1, hG0]; rfl)
    obtain ⟨t', ht', hsim'⟩ := rows_sim K hex hsc hcc hok G hG hsim0 cur le_rfl
    refine ⟨t, t', ht, ?_, ?_, ?_⟩
    · have em : modOf t.nbits t.nbitsExt ex.dom = n := by rw [htn, htne, ← hn]
      have ex' : nextOf t.nbits t.nbitsExt ex.dom = next := by rw [htn, htne, ← hnext]
      refine calculateExps_spec K hcur0 ?_ ?_
      · rw [em]; omega
      · rw [em, ex']; exact ht'
    · intro x hx
      exact hsim'.len x (List.mem_append.mpr (.inr hx))
    · intro x hx ρ k hρ hkk
      have hxo : x ∈ ex.inp ++ ex.out := List.mem_append.mpr (.inr hx)
      rw [hsim'.rows x hxo ρ k hρ hkk, ← hGn]
      exact ((hkeep2 (start + cur) hsc).cells x _ k (hio x hxo) hkk (.inl (by omega))).symm
  -- all chunks
  have hQ : ∀ q, q < (n + npt - 1) / npt → q * npt < n := by
    intro q hq
    have h1 := Nat.div_mul_le_self (n + npt - 1) npt
    have h2 : (q + 1) * npt ≤ (n + npt - 1) / npt * npt := Nat.mul_le_mul_right _ hq
    rw [Nat.add_mul, Nat.one_mul] at h2
    omega
  let T : Nat → Ctx E B := fun q => if h : q * npt < n then (hchunk q h).choose_spec.choose else c
  have hT : ∀ q, q * npt < n → (chunkCtx K ex zi c (q * npt) (min npt (n - q * npt)) n next).bind (fun t =>
        (calculateExps K s code tmpUsed ex.dom (min npt (n - q * npt)) t).map fun t => (q * npt, t)) = some (q * npt, T q) ∧
      (∀ x ∈ ex.out, ((T q).mem x).length = (min npt (n - q * npt) + next) * ex.width x) ∧
      ∀ x ∈ ex.out, ∀ ρ k, ρ < min npt (n - q * npt) → k < ex.width x →
        ((T q).mem x)[ρ * ex.width x + k]? = (cs.mem x)[(q * npt + ρ) * ex.width x + k]? := by
    intro q hq
    have hTq : T q = (hchunk q hq).choose_spec.choose := by simp only [T, dif_pos hq]
    obtain ⟨h1, h2, h3, h4⟩ := (hchunk q hq).choose_spec.choose_spec
    rw [hTq]
    exact ⟨Option.bind_eq_some_iff.mpr ⟨_, h1, Option.map_eq_some_iff.mpr ⟨_, h2, rfl⟩⟩, h3, h4⟩
  have hmap := mapM_some (fun q => (chunkCtx K ex zi c (q * npt) (min npt (n - q * npt)) n next).bind fun t =>
        (calculateExps K s code tmpUsed ex.dom (min npt (n - q * npt)) t).map fun t => (q * npt, t))
    (fun q => (q * npt, T q)) (List.range ((n + npt - 1) / npt)) fun q hq => (hT q (hQ q (List.mem_range.mp hq))).1
  have hwb : ∀ m, m ≤ (n + npt - 1) / npt → ∃ c', ((List.range m).map fun q => (q * npt, T q)).foldlM
      (fun c p => ex.out.foldlM (writeBack1 ex next p.1 p.2) c) c = some c' ∧
      (∀ x, x ∉ ex.out → c'.mem x = c.mem x) ∧
      ∀ x ∈ ex.out, (c'.mem x).length = n * ex.width x ∧ ∀ R k, R < m * npt → R < n → k < ex.width x →
        (c'.mem x)[R * ex.width x + k]? = (cs.mem x)[R * ex.width x + k]? := by
    intro m
    induction m with
    | zero => intro _; exact ⟨c, by simp, fun _ _ => rfl, fun x hx => ⟨hlen x (by simp [hx]), by simp⟩⟩
    | succ m ih =>
      intro hm
      obtain ⟨c1, h1, h2, h3⟩ := ih (by omega)
      have hq := hQ m (by omega)
      obtain ⟨-, hTl, hTc⟩ := hT m hq
      obtain ⟨c2, h4, h5, h6⟩ := writeBack_spec (ex := ex) (next := next) (n := n) (start := m * npt) (cur := min npt (n - m * npt))
        (by omega) (T m) ex.out c1 fun x hx => ⟨(h3 x hx).1, hTl x hx⟩
      refine ⟨c2, ?_, fun x hx => (h5 x hx).trans (h2 x hx), fun x hx => ⟨(h6 x hx).1, ?_⟩⟩
      · rw [List.range_succ, List.map_append, List.foldlM_append, h1]
        simp [h4]
      · intro R k hR hRn hk
        rw [(h6 x hx).2]
        rw [Nat.add_mul, Nat.one_mul] at hR
        by_cases hcond : m * npt ≤ R
        · obtain ⟨ρ, rfl⟩ : ∃ ρ, R = m * npt + ρ := ⟨R - m * npt, by omega⟩
          have e1 : m * npt * ex.width x ≤ (m * npt + ρ) * ex.width x + k := by
            rw [Nat.add_mul (m * npt)]; omega
          have e2 : (m * npt + ρ) * ex.width x + k < (m * npt + min npt (n - m * npt)) * ex.width x :=
            cell_lt (by omega) hk
          rw [if_pos ⟨e1, e2⟩, ← hTc x hx ρ k (by omega) hk]
          congr 1
          rw [Nat.add_mul (m * npt)]
          omega
        · have := cell_lt (show R < m * npt by omega) hk
          rw [if_neg (by omega)]
          exact (h3 x hx).2 R k (by omega) hRn hk
  obtain ⟨c', h1, h2, h3⟩ := hwb _ le_rfl
  refine ⟨c', ?_, fun x hx => ?_⟩
  · unfold calcParN
    simp only [← hn, ← hnext]
    rw [hmap, Option.bind_some]
    exact h1
  · by_cases hxo : x ∈ ex.out
    · have hxio : x ∈ ex.inp ++ ex.out := List.mem_append.mpr (.inr hxo)
      have hcsl : (cs.mem x).length = n * ex.width x := by
        rw [← hGn, (hkeep n le_rfl).len x, hG0m x hx, hclen x hxio]
      have hall : n ≤ (n + npt - 1) / npt * npt := by
        have := Nat.div_add_mod (n + npt - 1) npt
        have h5 := Nat.mod_lt (n + npt - 1) hnpt
        rw [Nat.mul_comm] at this
        omega
      apply List.ext_getElem?
      intro j
      by_cases hj : j < n * ex.width x
      · have hw : 0 < ex.width x := by
          rcases Nat.eq_zero_or_pos (ex.width x) with h0 | h0
          · rw [h0] at hj; omega
          · exact h0
        have hR : j / ex.width x < n := by
          rw [Nat.div_lt_iff_lt_mul hw]; exact hj
        have := (h3 x hxo).2 (j / ex.width x) (j % ex.width x) (by omega) hR (Nat.mod_lt _ hw)
        rw [Nat.mul_comm, Nat.div_add_mod] at this
        exact this
      · rw [List.getElem?_eq_none (by rw [(h3 x hxo).1]; omega), List.getElem?_eq_none (by omega)]
    · rw [h2 x hxo, ← hGn, (hkeep n le_rfl).other x hxo hx, hG0m x hx]
      simp [cleared, hxo]

/-! ### The steps of the prover -/

theorem execOk (s : Info) (st : Step) : ExecOk (execInfo s st) := by
  cases st <;> exact ⟨by simp [execInfo], by simp [execInfo]⟩

/-- With at most 2048 workers and at most 2048 look-ahead rows, a chunk that is not the last is followed by enough rows. -/
theorem perThread_ok {k w next : Nat} (hw1 : 1 ≤ w) (hw : w ≤ 2048) (hx : next ≤ 2048) (q : Nat)
    (h : (q + 1) * perThread (2 ^ k) w < 2 ^ k) : (q + 1) * perThread (2 ^ k) w + next ≤ 2 ^ k := by
  have pow2 : ∀ e, 11 ≤ e → (q + 1) * 2 ^ e < 2 ^ k → (q + 1) * 2 ^ e + next ≤ 2 ^ k := by
    intro e he hh
    have h1 : 1 * 2 ^ e ≤ (q + 1) * 2 ^ e := Nat.mul_le_mul_right _ (by omega)
    have h2 : (2 : Nat) ^ e < 2 ^ k := by omega
    have hek : e < k := (Nat.pow_lt_pow_iff_right (by omega)).mp h2
    obtain ⟨m, rfl⟩ : ∃ m, k = e + m := ⟨k - e, by omega⟩
    rw [Nat.pow_add, Nat.mul_comm (2 ^ e)] at hh ⊢
    have h3 : q + 1 < 2 ^ m := Nat.lt_of_mul_lt_mul_right hh
    have h4 : (q + 2) * 2 ^ e ≤ 2 ^ m * 2 ^ e := Nat.mul_le_mul_right _ h3
    have h5 : (2 : Nat) ^ 11 ≤ 2 ^ e := Nat.pow_le_pow_right (by omega) he
    have h6 : (q + 2) * 2 ^ e = (q + 1) * 2 ^ e + 2 ^ e := by ring
    norm_num at h5
    omega
  unfold perThread at h ⊢
  simp only [] at h ⊢
  split at h <;> split at h
  · rename_i h1 h2; omega
  · rename_i h1 h2
    simp only [if_pos h1, if_neg h2]
    exact pow2 18 (by omega) h
  · rename_i h1 h2
    simp only [if_neg h1, if_pos h2]
    exact pow2 12 (by omega) h
  · rename_i h1 h2
    simp only [if_neg h1, if_neg h2] at h ⊢
    have hN : 0 < 2 ^ k := Nat.two_pow_pos k
    generalize 2 ^ k = N at *
    generalize hp : (N - 1) / w = p at *
    have h3 : w * p ≤ N - 1 := by rw [← hp]; exact Nat.mul_div_le _ _
    have h4 : N - 1 < w * (p + 1) := by rw [← hp]; exact Nat.lt_mul_div_succ _ (by omega)
    have h5 : q + 1 < w := by
      by_contra hh
      have : w * (p + 1) ≤ (q + 1) * (p + 1) := Nat.mul_le_mul_right _ (by omega)
      omega
    have h6 : (q + 2) * p ≤ w * p := Nat.mul_le_mul_right _ h5
    have h7 : (q + 2) * p = (q + 1) * p + p := by ring
    have h8 : (q + 1) * (p + 1) = (q + 1) * p + (q + 1) := by ring
    norm_num at h2
    omega

/-- **C42**: for every step of the prover and any number of workers up to 2048, the parallel evaluation of a segment ends with
exactly the sections that `calculate_exps` over the whole domain produces (from the context in which the sections that
are only outputs are cleared). -/
theorem calcPar_spec (zi : Nat → Nat → Option E) (st : Step) (c cs : Ctx E B) (tmpUsed workers : Nat)
    (hw1 : 1 ≤ workers) (hw : workers ≤ 2048) (hn : n = modOf c.nbits c.nbitsExt (execInfo s st).dom)
    (hnext : next = nextOf c.nbits c.nbitsExt (execInfo s st).dom) (hx : next ≤ 2048) (hnn : next ≤ n)
    (hlen : ∀ x ∈ (execInfo s st).inp ++ (execInfo s st).out, (c.mem x).length = n * (execInfo s st).width x)
    (hbase : (execInfo s st).inBase = true → c.xXi.length = n * 3 ∧ c.xWXi.length = n * 3)
    (hzi : ∀ off j, zi off j = c.Zi (off + j))
    (hok : CodeOk s (execInfo s st) code [] code)
    (hseq : (List.range n).foldlM (run K s (execInfo s st).dom n next code)
      { cleared K (execInfo s st) n c with
        mem := Function.update (cleared K (execInfo s st) n c).mem .tmp (List.replicate tmpUsed K.zero) } = some cs) :
    calculateExps K s code tmpUsed (execInfo s st).dom n (cleared K (execInfo s st) n c) = some cs ∧
    ∃ c', calcPar K s zi code tmpUsed workers st c = some c' ∧ ∀ x, x ≠ .tmp → c'.mem x = cs.mem x := by
  have hpow : ∃ k, n = 2 ^ k := by
    rw [hn]
    unfold modOf
    split <;> exact ⟨_, rfl⟩
  obtain ⟨k, hk⟩ := hpow
  constructor
  · refine calculateExps_spec K (by rw [hk]; exact Nat.two_pow_pos k) (le_of_eq hn) ?_
    rw [hn, hnext] at hseq
    rw [hn]
    exact hseq
  · unfold calcPar
    simp only [← hn]
    refine calcParN_spec K (execOk s st) zi c cs tmpUsed _ hn hnext hlen hbase hzi hok ?_ hnn ?_ hseq
    · unfold perThread
      simp only []
      have : 0 < (n - 1) / workers + 1 := Nat.succ_pos _
      split
      · exact Nat.two_pow_pos _
      · split
        · exact Nat.two_pow_pos _
        · exact this
    · intro q hq
      rw [hk] at hq ⊢
      exact perThread_ok hw1 hw hx q hq

/-- specification: the domain and the protocol round in which a section is filled before it can be read (`0`: constants and the
identity polynomial; the columns of round 3 that are computed one after the other are visible within round 3) -/
def filled : Sec → Option (Dom × Nat)
  | .const_n => some (.n, 0) | .x_n => some (.n, 2) | .cm1_n => some (.n, 1) | .cm2_n => some (.n, 2) | .cm3_n => some (.n, 3)
  | .const_2ns => some (.ns2, 0) | .cm1_2ns => some (.ns2, 1) | .cm2_2ns => some (.ns2, 2) | .cm3_2ns => some (.ns2, 3)
  | .cm4_2ns => some (.ns2, 5)
  | _ => none

/-- the domain and the last round a step may read -/
def sees : Step → Dom × Nat
  | .step2prev => (.n, 1) | .step3prev => (.n, 3) | .step3 => (.n, 3) | .step4 => (.ns2, 4) | .step5 => (.ns2, 5)

/-- **C42**: every step copies into its chunks all the sections of its domain that are filled when it runs (the identity
polynomial from round 3 on, in step 4 on the extended domain, and the two opening denominators in step 5), and keeps the results
of the columns it writes. -/
theorem execInfo_sections (s : Info) (st : Step) : (execInfo s st).dom = (sees st).1 ∧
    (∀ x d r, filled x = some (d, r) → d = (sees st).1 → r ≤ (sees st).2 → x ∈ (execInfo s st).inp) ∧
    (st = .step4 → .x_2ns ∈ (execInfo s st).inp ∧ .q_2ns ∈ (execInfo s st).out) ∧
    (st = .step5 → (execInfo s st).inBase = true ∧ .f_2ns ∈ (execInfo s st).out) ∧
    (st = .step2prev → .cm2_n ∈ (execInfo s st).out ∧ .cm3_n ∈ (execInfo s st).out ∧ .tmpexp_n ∈ (execInfo s st).out) ∧
    (st = .step3prev ∨ st = .step3 → .cm3_n ∈ (execInfo s st).out ∧ .tmpexp_n ∈ (execInfo s st).out) := by
  cases st <;> refine ⟨rfl, ?_, by simp [execInfo], by simp [execInfo], by simp [execInfo], by simp [execInfo]⟩ <;>
  · intro x d r h1 h2 h3
    cases x <;> simp_all [filled, sees, execInfo] <;> omega

/-- **C42**: the number of workers does not matter. -/
theorem calcPar_workers (zi : Nat → Nat → Option E) (st : Step) (c cs c1 c2 : Ctx E B) (tmpUsed w1 w2 : Nat)
    (h1 : 1 ≤ w1) (h1' : w1 ≤ 2048) (h2 : 1 ≤ w2) (h2' : w2 ≤ 2048)
    (hn : n = modOf c.nbits c.nbitsExt (execInfo s st).dom)
    (hnext : next = nextOf c.nbits c.nbitsExt (execInfo s st).dom) (hx : next ≤ 2048) (hnn : next ≤ n)
    (hlen : ∀ x ∈ (execInfo s st).inp ++ (execInfo s st).out, (c.mem x).length = n * (execInfo s st).width x)
    (hbase : (execInfo s st).inBase = true → c.xXi.length = n * 3 ∧ c.xWXi.length = n * 3)
    (hzi : ∀ off j, zi off j = c.Zi (off + j))
    (hok : CodeOk s (execInfo s st) code [] code)
    (hseq : (List.range n).foldlM (run K s (execInfo s st).dom n next code)
      { cleared K (execInfo s st) n c with
        mem := Function.update (cleared K (execInfo s st) n c).mem .tmp (List.replicate tmpUsed K.zero) } = some cs)
    (hr1 : calcPar K s zi code tmpUsed w1 st c = some c1) (hr2 : calcPar K s zi code tmpUsed w2 st c = some c2) :
    ∀ x, x ≠ .tmp → c1.mem x = c2.mem x := by
  obtain ⟨-, d1, e1, f1⟩ := calcPar_spec K zi st c cs tmpUsed w1 h1 h1' hn hnext hx hnn hlen hbase hzi hok hseq
  obtain ⟨-, d2, e2, f2⟩ := calcPar_spec K zi st c cs tmpUsed w2 h2 h2' hn hnext hx hnn hlen hbase hzi hok hseq
  rw [hr1] at e1
  rw [hr2] at e2
  simp only [Option.some.injEq] at e1 e2
  subst e1 e2
  intro x hx
  rw [f1 x hx, f2 x hx]

/-- The table of inverses of the vanishing polynomial satisfies the hypothesis on `zi`. -/
theorem zhInv_offset {A : Type} [Field A] (mg : Nat → A) (shift : A) (nb eb off j : Nat) :
    Stark.zhInv mg shift nb eb off j = Stark.zhInv mg shift nb eb 0 (off + j) := by
  simp [Stark.zhInv, Nat.add_comm]

/-! ### When a chunk is followed by fewer than `next` rows -/

theorem mapM_none {α β : Type} (f : α → Option β) : ∀ (l : List α) (a : α), a ∈ l → f a = none → l.mapM f = none
  | b :: l, a, h, hf => by
    rcases List.mem_cons.mp h with rfl | h
    · simp [hf]
    · have := mapM_none f l a h hf
      cases hb : f b <;> simp [hb, this]

/-- If a chunk that is not the last is followed by fewer than `next` rows, the copy of the look-ahead rows runs past the
end of the buffer and `calculate_exps_parallel` panics. -/
theorem calcParN_panics (zi : Nat → Nat → Option E) (c : Ctx E B) (tmpUsed npt q : Nat) (x : Sec) (rest : List Sec)
    (hn : n = modOf c.nbits c.nbitsExt ex.dom) (hnext : next = nextOf c.nbits c.nbitsExt ex.dom)
    (hin : ex.inp = x :: rest) (hw : 0 < ex.width x) (hlen : (c.mem x).length = n * ex.width x)
    (hnpt : 0 < npt) (hq : (q + 1) * npt < n) (hbad : n < (q + 1) * npt + next) :
    calcParN K s ex zi code tmpUsed npt c = none := by
  unfold calcParN
  simp only [← hn, ← hnext]
  rw [mapM_none _ _ q, Option.bind_none]
  · rw [List.mem_range]
    have : q + 1 ≤ (n + npt - 1) / npt := by
      rw [Nat.le_div_iff_mul_le hnpt]; omega
    exact this
  · have h1 : (q + 1) * npt = q * npt + npt := by ring
    have hs : sliceRows (c.mem x) (ex.width x) (q * npt) (min npt (n - q * npt)) n next = none := by
      unfold sliceRows
      rw [mapM_none (fun j => (c.mem x)[(q * npt + min npt (n - q * npt)) % n * ex.width x + j]?) _
        ((n - (q * npt + npt)) * ex.width x)]
      · cases List.mapM (fun j => (c.mem x)[q * npt * ex.width x + j]?) (List.range (min npt (n - q * npt) * ex.width x)) <;> rfl
      · rw [List.mem_range]
        exact Nat.mul_lt_mul_of_pos_right (by omega) hw
      · rw [show min npt (n - q * npt) = npt by omega, Nat.mod_eq_of_lt (by omega), ← Nat.add_mul]
        rw [List.getElem?_eq_none]
        rw [hlen]
        exact Nat.mul_le_mul_right _ (by omega)
    unfold chunkCtx
    rw [hin, List.foldlM_cons]
    simp [addInput, hs]

/-- With 4095 workers, `2^24` rows and 8 look-ahead rows, the last chunk has 4 rows and the evaluation panics: the bound on
the number of workers in `calcPar_spec` is needed. -/
theorem calcPar_many_workers (zi : Nat → Nat → Option E) (c : Ctx E B) (tmpUsed : Nat) (hnb : c.nbits = 21)
    (hne : c.nbitsExt = 24) (hw : 0 < s.sectionsN .cm1_2ns) (hlen : (c.mem .cm1_2ns).length = 2 ^ 24 * s.sectionsN .cm1_2ns) :
    calcPar K s zi code tmpUsed 4095 .step4 c = none := by
  unfold calcPar
  simp only []
  have hp : perThread (modOf c.nbits c.nbitsExt (execInfo s .step4).dom) 4095 = 4098 := by
    rw [hnb, hne]
    show perThread (2 ^ 24) 4095 = 4098
    decide +kernel
  rw [hp]
  refine calcParN_panics K zi c tmpUsed 4098 4093 .cm1_2ns _ rfl rfl rfl hw ?_ (by omega) ?_ ?_
  · rw [hlen, hne]; rfl
  · rw [hne]; show (4093 + 1) * 4098 < 2 ^ 24; decide +kernel
  · rw [hne, hnb]; show 2 ^ 24 < (4093 + 1) * 4098 + 2 ^ (24 - 21); decide +kernel

/-! ### Non-vacuity -/

/-- `cm0` in `cm1_n`, `cm1` in `cm3_n` -/
def infoP : Info where
  cmN := [0, 1]
  cm2ns := []
  tmpexpN := [2]
  varPolMap := [⟨.cm1_n, 0, 1⟩, ⟨.cm3_n, 0, 3⟩, ⟨.tmpexp_n, 0, 1⟩]
  sectionsN t := match t with | .cm1_n => 1 | .cm3_n => 3 | .tmpexp_n => 1 | _ => 0
  nConstants := 0
  qDim := 3

def ctxP : Ctx (Nat × Nat × Nat × Nat) Nat where
  nbits := 2
  nbitsExt := 3
  mem
    | .cm1_n => [(1, 0, 0, 1), (2, 0, 0, 1), (3, 0, 0, 1), (4, 0, 0, 1)]
    | .cm3_n => List.replicate 12 (0, 0, 0, 1)
    | .tmpexp_n => List.replicate 4 (0, 0, 0, 1)
    | .challenge => [(2, 3, 4, 3)]
    | .x_n => List.replicate 4 (0, 0, 0, 1)
    | _ => []
  xXi := []
  xWXi := []
  Zi _ := some (1, 0, 0, 1)

/-- `tmp0 = cm0' * challenge0; tmpExp0 = cm0 + cm0'; cm1 = tmp0` -/
def codeP : List (Instr (Nat × Nat × Nat × Nat)) :=
  [⟨.mul, { ty := .tmp }, [{ ty := .cm, id := 0, prime := true }, { ty := .challenge }]⟩,
   ⟨.add, { ty := .tmpExp }, [{ ty := .cm, id := 0 }, { ty := .cm, id := 0, prime := true }]⟩,
   ⟨.copy, { ty := .cm, id := 1 }, [{ ty := .tmp }]⟩]

/-- the program conditions hold -/
example : CodeOk infoP (execInfo infoP .step3prev) codeP [] codeP := by
  simp [CodeOk, codeP, SrcOk, DestOk, execInfo, nodeCol, infoP, polCol, ColOk, setWidth]

/-- the sequential evaluation succeeds -/
example : ((List.range 4).foldlM (run algEx infoP .n 4 1 codeP)
      { ctxP with mem := Function.update ctxP.mem .tmp [(0, 0, 0, 1)] }).map (fun c => c.mem .tmpexp_n) =
    some [(3, 0, 0, 1), (5, 0, 0, 1), (7, 0, 0, 1), (5, 0, 0, 1)] := by rfl

/-- and so does the parallel one with chunks of 3 rows -/
example : (calcParN algEx infoP (execInfo infoP .step3prev) (fun _ _ => some (1, 0, 0, 1)) codeP 1 3 ctxP).map
      (fun c => c.mem .tmpexp_n) = some [(3, 0, 0, 1), (5, 0, 0, 1), (7, 0, 0, 1), (5, 0, 0, 1)] := by rfl

end Verif.Interp
