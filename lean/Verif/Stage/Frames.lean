import Verif.Stage.Cover
import Verif.Stage.FullModel

/-!
# What the steps of the prover leave unchanged
-/
namespace Verif.Stage
open Verif.GL (F)
open Verif.Ext3 (F3G K ofF)
open Verif.Interp (Sec Info algF3 SameRest execInfo writeBack_rest)
open Verif.Interp.Spec (polCol)
open Verif.Map (secN)

/-- only sections in `D` differ -/
structure Kept (D : List Sec) (c c' : Ctx) : Prop where
  rest : SameRest c' c
  mem : ∀ x, x ∉ D → c'.mem x = c.mem x

theorem Kept.refl (D : List Sec) (c : Ctx) : Kept D c c := ⟨⟨rfl, rfl, rfl, rfl, rfl⟩, fun _ _ => rfl⟩

theorem Kept.trans {D : List Sec} {a b c : Ctx} (h : Kept D a b) (h' : Kept D b c) : Kept D a c :=
  ⟨h'.rest.trans h.rest, fun x hx => (h'.mem x hx).trans (h.mem x hx)⟩

theorem Kept.mono {D D' : List Sec} {a b : Ctx} (h : Kept D a b) (hD : ∀ x ∈ D, x ∈ D') : Kept D' a b := ⟨h.rest, fun x hx => h.mem x fun hh => hx (hD x hh)⟩

theorem kept_put (c : Ctx) (x : Sec) (l : List F3G) : Kept [x] c (c.put x l) :=
  ⟨⟨rfl, rfl, rfl, rfl, rfl⟩, fun y hy => if_neg fun h => hy (by simp [h])⟩

theorem writeBack_kept {ex : Interp.Exec} {next start : Nat} {t : Ctx} : ∀ (outs : List Sec) (c c' : Ctx), outs.foldlM (Interp.writeBack1 ex next start t) c = some c' → Kept outs c c'
  | [], c, c', h => by
    simp at h
    subst h
    exact Kept.refl _ _
  | y :: outs, c, c', h => by
    simp only [List.foldlM_cons, Option.bind_eq_bind] at h
    obtain ⟨c1, h1, h2⟩ := Option.bind_eq_some_iff.mp h
    refine Kept.trans (b := c1) ?_ ((writeBack_kept outs c1 c' h2).mono fun x hx => by simp [hx])
    unfold Interp.writeBack1 at h1
    split at h1
    · obtain ⟨l, -, rfl⟩ := Option.map_eq_some_iff.mp h1
      exact (kept_put _ _ _).mono fun x hx => by simp at hx; simp [hx]
    · cases h1

theorem foldlM_kept {α : Type} {D : List Sec} {f : Ctx → α → Option Ctx} (h : ∀ c x c', f c x = some c' → Kept D c c') : ∀ (l : List α) (c c' : Ctx), l.foldlM f c = some c' → Kept D c c'
  | [], c, c', hh => by
    simp at hh
    subst hh
    exact Kept.refl _ _
  | x :: l, c, c', hh => by
    simp only [List.foldlM_cons, Option.bind_eq_bind] at hh
    obtain ⟨c1, h1, h2⟩ := Option.bind_eq_some_iff.mp hh
    exact (h _ _ _ h1).trans (foldlM_kept h l c1 c' h2)

/-- `calculate_exps_parallel` writes its output sections -/
theorem calcPar_kept {s : Info} {zi : Nat → Nat → Option F3G} {code : List (Interp.Instr F3G)} {tu w : Nat} {st : Interp.Step} {c c' : Ctx}
    (h : Interp.calcPar algF3 s zi code tu w st c = some c') : Kept (execInfo s st).out c c' := by
  unfold Interp.calcPar Interp.calcParN at h
  obtain ⟨ts, -, h⟩ := Option.bind_eq_some_iff.mp h
  exact foldlM_kept (fun c x c' hh => writeBack_kept _ _ _ hh) ts c c' h

/-- the sections of the committed columns on the trace domain -/
def CmSecs (s : Info) : Prop := ∀ (k id : Nat) (p : Interp.PolType), s.cmN[k]? = some id → s.varPolMap[id]? = some p → p.section_ ∈ [Sec.cm1_n, .cm2_n, .cm3_n, .cm4_n]

theorem setPol_kept {s : Info} {c c' : Ctx} {k id : Nat} {pol : List F3G} (hs : CmSecs s) (hk : s.cmN[k]? = some id) (h : setPol s c id pol = some c') :
    Kept [.cm1_n, .cm2_n, .cm3_n, .cm4_n] c c' := by
  unfold setPol at h
  obtain ⟨p, hp, h⟩ := Option.bind_eq_some_iff.mp h
  split_ifs at h
  obtain ⟨l, -, rfl⟩ := Option.map_eq_some_iff.mp h
  exact (kept_put _ _ _).mono fun x hx => by
    rw [List.mem_singleton] at hx
    subst hx
    exact hs k id p hk hp

theorem setPols_kept {s : Info} (hs : CmSecs s) {f : Ctx × Nat → Grand.PCtx → Option (Ctx × Nat)} (hf : f = lookupStep s e2p ∨ f = productStep s e2p) :
    ∀ (l : List Grand.PCtx) (c c' : Ctx × Nat), l.foldlM f c = some c' → Kept [.cm1_n, .cm2_n, .cm3_n, .cm4_n] c.1 c'.1
  | [], c, c', h => by
    simp at h
    subst h
    exact Kept.refl _ _
  | x :: l, c, c', h => by
    simp only [List.foldlM_cons, Option.bind_eq_bind] at h
    obtain ⟨c1, h1, h2⟩ := Option.bind_eq_some_iff.mp h
    refine Kept.trans (b := c1.1) ?_ (setPols_kept hs hf l c1 c' h2)
    rcases hf with rfl | rfl
    · unfold lookupStep at h1
      obtain ⟨f, -, h1⟩ := Option.bind_eq_some_iff.mp h1
      obtain ⟨t, -, h1⟩ := Option.bind_eq_some_iff.mp h1
      obtain ⟨g, -, h1⟩ := Option.bind_eq_some_iff.mp h1
      obtain ⟨a, h3, h1⟩ := Option.bind_eq_some_iff.mp h1
      obtain ⟨b, h4, rfl⟩ := Option.map_eq_some_iff.mp h1
      obtain ⟨i, i1, i2⟩ := Option.bind_eq_some_iff.mp h3
      obtain ⟨j, j1, j2⟩ := Option.bind_eq_some_iff.mp h4
      exact (setPol_kept hs i1 i2).trans (setPol_kept hs j1 j2)
    · unfold productStep at h1
      obtain ⟨f, -, h1⟩ := Option.bind_eq_some_iff.mp h1
      obtain ⟨t, -, h1⟩ := Option.bind_eq_some_iff.mp h1
      obtain ⟨g, -, h1⟩ := Option.bind_eq_some_iff.mp h1
      obtain ⟨b, h4, rfl⟩ := Option.map_eq_some_iff.mp h1
      obtain ⟨j, j1, j2⟩ := Option.bind_eq_some_iff.mp h4
      exact setPol_kept hs j1 j2

theorem setCell_some {l l' : List F3G} {k : Nat} {v : F3G} (h : Interp.setCell l k v = some l') : l' = l.set k v := by
  unfold Interp.setCell at h
  split_ifs at h
  exact (Option.some.inj h).symm

theorem setChallenges_some {c c' : Ctx} {k : Nat} {a b : F3G} (h : setChallenges c k a b = some c') : c' = c.put .challenge (((c.mem .challenge).set k a).set (k + 1) b) := by
  unfold setChallenges at h
  obtain ⟨l, h1, h⟩ := Option.bind_eq_some_iff.mp h
  obtain ⟨l', h2, rfl⟩ := Option.map_eq_some_iff.mp h
  rw [setCell_some h2, setCell_some h1]

/-- the sections of the trace domain the rounds write -/
abbrev nSecs : List Sec := [.cm1_n, .cm2_n, .cm3_n, .cm4_n, .tmpexp_n]

theorem out_nSecs {s : Info} {st : Interp.Step} (h : st = .step2prev ∨ st = .step3prev ∨ st = .step3) : ∀ x ∈ (execInfo s st).out, x ∈ nSecs := by
  rcases h with rfl | rfl | rfl <;> simp [execInfo, nSecs]

theorem round2_kept {S : Setup} (hs : CmSecs S.info) {u dv : F3G} {c : Ctx} {cn : Ctx × Nat} (h : round2 S u dv c = some cn) :
    Kept nSecs (c.put .challenge (((c.mem .challenge).set 0 u).set 1 dv)) cn.1 := by
  unfold round2 at h
  obtain ⟨c1, h1, h⟩ := Option.bind_eq_some_iff.mp h
  obtain ⟨c2, h2, h⟩ := Option.bind_eq_some_iff.mp h
  rw [← setChallenges_some h1]
  exact ((calcPar_kept h2).mono (out_nSecs (.inl rfl))).trans ((setPols_kept hs (.inl rfl) _ _ _ h).mono (by simp [nSecs]))

theorem round3_kept {S : Setup} (hs : CmSecs S.info) {u dv : F3G} {c : Ctx × Nat} {c' : Ctx} (h : round3 S u dv c = some c') :
    Kept nSecs (c.1.put .challenge (((c.1.mem .challenge).set 2 u).set 3 dv)) c' := by
  unfold round3 at h
  obtain ⟨c1, h1, h⟩ := Option.bind_eq_some_iff.mp h
  obtain ⟨c2, h2, h⟩ := Option.bind_eq_some_iff.mp h
  obtain ⟨c3, h3, h⟩ := Option.bind_eq_some_iff.mp h
  rw [← setChallenges_some h1]
  exact (((calcPar_kept h2).mono (out_nSecs (.inr (.inl rfl)))).trans ((setPols_kept hs (.inr rfl) _ _ _ h3).mono (by simp [nSecs]))).trans
    ((calcPar_kept h).mono (out_nSecs (.inr (.inr rfl))))

theorem cmSecs_of {E : Type} {i : Map.In E} {o : Map.Out} {pols : List Interp.PolType} (h : Map.Raw i o pols) (nConst : Nat) : CmSecs (o.info nConst) := by
  intro k id p hk hp
  have hn := h.nodeCm nConst k
  have hn : ((o.info nConst).cmN[k]?).bind (polCol (o.info nConst)) = _ := hn
  obtain ⟨c, hc⟩ := h.cmLen k id hk
  rw [hk, Option.bind_some, hc, Option.map_some] at hn
  unfold polCol at hn
  rw [hp, Option.bind_some] at hn
  split_ifs at hn
  have := congrArg Interp.Spec.Col.sec (Option.some.inj hn)
  dsimp only at this
  rw [this]
  unfold secN
  split <;> simp

end Verif.Stage
