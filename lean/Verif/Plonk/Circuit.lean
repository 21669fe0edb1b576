import Mathlib.Algebra.BigOperators.Group.List.Basic
import Mathlib.Algebra.Ring.Basic
import Mathlib.Data.ZMod.Basic
import Mathlib.Tactic.Ring

/-! # From an R1CS to a bellman constraint system (C59): `CircomCircuit` of `algebraic/src/circom_circuit.rs`

The constraint system is bellman's: input variable 0 is the constant one, `alloc_input`/`alloc` append a variable, a linear combination is a list of
terms, `enforce(a, b, c)` adds the constraint `a·b = c`. `K` is the scalar field. A panic (index out of range) is `none`. -/

namespace Verif.Plonk.Circuit

variable {K : Type}

/-- circom_circuit.rs L27-31 `Constraint`: three lists of (wire, coefficient). -/
structure Con (K : Type) where
  a : List (Nat × K)
  b : List (Nat × K)
  c : List (Nat × K)

/-- circom_circuit.rs L48-65 `R1CS`, `CircomCircuit` (custom gates are not used here). -/
structure Circ (K : Type) where
  numInputs : Nat
  numAux : Nat
  constraints : List (Con K)
  witness : Option (List K)
  wireMapping : Option (List Nat)
  auxOffset : Nat

/-- bellman `Index` -/
inductive Var where
  | input (i : Nat) | aux (i : Nat)
deriving DecidableEq

/-- a bellman constraint system: values of the allocated variables and the enforced constraints -/
structure CS (K : Type) where
  inputs : List K
  aux : List K
  enforced : List (List (K × Var) × List (K × Var) × List (K × Var))

/-- circom_circuit.rs L96-104, L112-121: the value given to wire `i`. -/
def value (w : List K) (m : Option (List Nat)) (i : Nat) : Option K :=
  match m with
  | none => w[i]?
  | some m => (m[i]?).bind (w[·]?)

/-- circom_circuit.rs L91-107: input variables `1 .. num_inputs`. -/
def allocInputs (ci : Circ K) (w : List K) : Option (List K) := (List.range (ci.numInputs - 1)).mapM fun i => value w ci.wireMapping (i + 1)

/-- circom_circuit.rs L108-125: auxiliary variables. -/
def allocAux (ci : Circ K) (w : List K) : Option (List K) := (List.range ci.numAux).mapM fun i => value w ci.wireMapping (i + ci.numInputs)

/-- circom_circuit.rs L127-133 `make_index` -/
def makeIndex (ci : Circ K) (i : Nat) : Var := if i < ci.numInputs then .input i else .aux (i - ci.numInputs + ci.auxOffset)

/-- circom_circuit.rs L134-141 `make_lc` (the fold appends the terms in order) -/
def makeLc (ci : Circ K) (lc : List (Nat × K)) : List (K × Var) := lc.foldl (fun acc t => acc ++ [(t.2, makeIndex ci t.1)]) []

/-- circom_circuit.rs L142-153: constraints `0 · LC = 0` are left out. -/
def enforceAll (ci : Circ K) : List (List (K × Var) × List (K × Var) × List (K × Var)) :=
  ci.constraints.filterMap fun c => if !((c.a.isEmpty || c.b.isEmpty) && c.c.isEmpty) then some (makeLc ci c.a, makeLc ci c.b, makeLc ci c.c) else none

/-- circom_circuit.rs L88-156 `synthesize` with a witness, into a system that already has its constant one and `aux_offset` auxiliary variables. -/
def synthesize (ci : Circ K) (w : List K) (cs : CS K) : Option (CS K) := do
  let ins ← allocInputs ci w
  let aux ← allocAux ci w
  return ⟨cs.inputs ++ ins, cs.aux ++ aux, cs.enforced ++ enforceAll ci⟩

/-- circom_circuit.rs L67-76 `get_public_inputs`: outer `none` is a panic. -/
def getPublicInputs (ci : Circ K) : Option (Option (List K)) :=
  match ci.witness with
  | none => some none
  | some w =>
    match ci.wireMapping with
    | none => if 1 ≤ ci.numInputs ∧ ci.numInputs ≤ w.length then some (some ((w.take ci.numInputs).drop 1)) else none
    | some m => if 1 ≤ ci.numInputs ∧ ci.numInputs ≤ m.length then (((m.take ci.numInputs).drop 1).mapM (w[·]?)).map some else none

/-! ## Specification -/

section
variable [CommRing K]

/-- the value of a linear combination of wires -/
def lcVal (x : Nat → K) (lc : List (Nat × K)) : K := (lc.map fun t => t.2 * x t.1).sum

/-- an R1CS constraint holds for the wire values `x` -/
def Con.Holds (x : Nat → K) (c : Con K) : Prop := lcVal x c.a * lcVal x c.b = lcVal x c.c

/-- the value of a bellman linear combination -/
def blcVal (v : Var → K) (lc : List (K × Var)) : K := (lc.map fun t => t.1 * v t.2).sum

/-- all constraints of the system hold for the values `v` of its variables -/
def Satisfied (v : Var → K) (cs : List (List (K × Var) × List (K × Var) × List (K × Var))) : Prop :=
  ∀ e ∈ cs, blcVal v e.1 * blcVal v e.2.1 = blcVal v e.2.2

/-! ## Proofs -/

omit [CommRing K] in
theorem makeLc_eq (ci : Circ K) (lc : List (Nat × K)) : makeLc ci lc = lc.map fun t => (t.2, makeIndex ci t.1) := by
  have h : ∀ (l : List (Nat × K)) (acc : List (K × Var)), l.foldl (fun acc t => acc ++ [(t.2, makeIndex ci t.1)]) acc = acc ++ l.map fun t => (t.2, makeIndex ci t.1) := by
    intro l
    induction l with
    | nil => simp
    | cons t l ih => intro acc; rw [List.foldl_cons, ih, List.map_cons, List.append_assoc]; rfl
  rw [makeLc, h, List.nil_append]

theorem blcVal_makeLc (ci : Circ K) (v : Var → K) (lc : List (Nat × K)) : blcVal v (makeLc ci lc) = lcVal (fun i => v (makeIndex ci i)) lc := by
  rw [makeLc_eq, blcVal, lcVal, List.map_map]
  rfl

/-- **C59 (constraints).** For all values of the variables of the constraint system - not only those of a witness - the enforced constraints hold iff the
R1CS holds for the wires they stand for. -/
theorem enforceAll_iff (ci : Circ K) (v : Var → K) : Satisfied v (enforceAll ci) ↔ ∀ c ∈ ci.constraints, c.Holds fun i => v (makeIndex ci i) := by
  unfold Satisfied enforceAll
  constructor
  · intro h c hc
    by_cases hs : ((c.a.isEmpty || c.b.isEmpty) && c.c.isEmpty) = true
    · rw [Bool.and_eq_true, Bool.or_eq_true, List.isEmpty_iff, List.isEmpty_iff, List.isEmpty_iff] at hs
      unfold Con.Holds
      rcases hs with ⟨ha | hb, hc⟩
      · rw [ha, hc]; simp [lcVal]
      · rw [hb, hc]; simp [lcVal]
    · have := h (makeLc ci c.a, makeLc ci c.b, makeLc ci c.c) (List.mem_filterMap.mpr ⟨c, hc, by rw [if_pos (by rw [Bool.not_eq_true] at hs; rw [hs]; rfl)]⟩)
      rw [blcVal_makeLc, blcVal_makeLc, blcVal_makeLc] at this
      exact this
  · intro h e he
    obtain ⟨c, hc, hs⟩ := List.mem_filterMap.mp he
    split at hs
    · obtain rfl := Option.some.inj hs
      rw [blcVal_makeLc, blcVal_makeLc, blcVal_makeLc]
      exact h c hc
    · exact absurd hs (by simp)

/-- values of the variables of a constraint system -/
def CS.val (cs : CS K) : Var → K
  | .input i => cs.inputs.getD i 0
  | .aux i => cs.aux.getD i 0

theorem mapM_range {α : Type} (n : Nat) (f : Nat → Option α) (l : List α) : (List.range n).mapM f = some l ↔ l.length = n ∧ ∀ i < n, f i = l[i]? := by
  induction n generalizing l with
  | zero =>
    rw [List.range_zero, List.mapM_nil]
    constructor
    · intro h; rw [← Option.some.inj h]; exact ⟨rfl, fun i hi => absurd hi (by omega)⟩
    · rintro ⟨h, -⟩; rw [List.length_eq_zero_iff.mp h]; rfl
  | succ n ih =>
    rw [List.range_succ, List.mapM_append]
    constructor
    · intro h
      obtain ⟨l1, h1, h⟩ := Option.bind_eq_some_iff.mp h
      obtain ⟨l2, h2, h⟩ := Option.bind_eq_some_iff.mp h
      obtain ⟨x, h3, h2⟩ := Option.bind_eq_some_iff.mp h2
      obtain rfl := Option.some.inj h2
      obtain rfl := Option.some.inj h
      obtain ⟨e1, e2⟩ := (ih l1).mp h1
      refine ⟨by simp [e1], fun i hi => ?_⟩
      by_cases hin : i < n
      · rw [e2 i hin, List.getElem?_append_left (by omega)]
      · obtain rfl : i = n := by omega
        rw [List.getElem?_append_right (by omega), e1, Nat.sub_self]
        exact h3
    · rintro ⟨hl, h⟩
      have hlast : l = l.take n ++ [l[n]'(by omega)] := by
        rw [List.take_append_getElem, List.take_of_length_le (by omega)]
      have h1 : (List.range n).mapM f = some (l.take n) := (ih _).mpr ⟨by rw [List.length_take]; omega, fun i hi => by
        rw [h i (by omega), List.getElem?_take_of_lt hi]⟩
      refine Option.bind_eq_some_iff.mpr ⟨l.take n, h1, Option.bind_eq_some_iff.mpr ⟨[l[n]'(by omega)], ?_, ?_⟩⟩
      · rw [List.mapM_cons, h n (by omega), List.getElem?_eq_getElem (by omega)]; rfl
      · exact congrArg some hlast.symm

/-- **C59 (witness).** After `synthesize` into a fresh system the variables carry the values of the wires; hence the enforced constraints hold iff the
(mapped) witness satisfies the R1CS. -/
theorem synthesize_iff (ci : Circ K) (w : List K) (cs cs' : CS K) (h0 : cs.inputs = [1]) (ha : cs.aux.length = ci.auxOffset) (he : cs.enforced = [])
    (hn : 1 ≤ ci.numInputs) (hs : synthesize ci w cs = some cs') (hone : value w ci.wireMapping 0 = some 1)
    (hidx : ∀ c ∈ ci.constraints, ∀ t ∈ c.a ++ c.b ++ c.c, t.1 < ci.numInputs + ci.numAux) :
    (∀ i < ci.numInputs + ci.numAux, value w ci.wireMapping i = some (cs'.val (makeIndex ci i))) ∧
    (Satisfied cs'.val cs'.enforced ↔ ∀ c ∈ ci.constraints, c.Holds fun i => (value w ci.wireMapping i).getD 0) := by
  unfold synthesize at hs
  obtain ⟨ins, h1, hs⟩ := Option.bind_eq_some_iff.mp hs
  obtain ⟨aux, h2, hs⟩ := Option.bind_eq_some_iff.mp hs
  obtain rfl := Option.some.inj hs
  obtain ⟨l1, h1⟩ := (mapM_range _ _ _).mp h1
  obtain ⟨l2, h2⟩ := (mapM_range _ _ _).mp h2
  have hv : ∀ i < ci.numInputs + ci.numAux, value w ci.wireMapping i = some (CS.val ⟨cs.inputs ++ ins, cs.aux ++ aux, cs.enforced ++ enforceAll ci⟩ (makeIndex ci i)) := by
    intro i hi
    unfold makeIndex
    split
    · rename_i hlt
      rw [CS.val, h0]
      dsimp only
      cases i with
      | zero => rw [hone]; rfl
      | succ i =>
        rw [h1 i (by omega), List.cons_append, List.nil_append, List.getD_cons_succ, List.getElem?_eq_getElem (by omega), List.getD_eq_getElem?_getD,
          List.getElem?_eq_getElem (by omega)]
        rfl
    · rename_i hge
      rw [CS.val]
      dsimp only
      have := h2 (i - ci.numInputs) (by omega)
      rw [show i - ci.numInputs + ci.numInputs = i by omega] at this
      rw [this, List.getD_eq_getElem?_getD, List.getElem?_append_right (by omega), show i - ci.numInputs + ci.auxOffset - cs.aux.length = i - ci.numInputs by omega,
        List.getElem?_eq_getElem (by omega)]
      rfl
  refine ⟨hv, ?_⟩
  generalize CS.val ⟨cs.inputs ++ ins, cs.aux ++ aux, cs.enforced ++ enforceAll ci⟩ = v at hv ⊢
  rw [he, List.nil_append, enforceAll_iff]
  have hlc : ∀ lc : List (Nat × K), (∀ t ∈ lc, t.1 < ci.numInputs + ci.numAux) →
      lcVal (fun i => v (makeIndex ci i)) lc = lcVal (fun i => (value w ci.wireMapping i).getD 0) lc := by
    intro lc hlc
    unfold lcVal
    refine congrArg List.sum (List.map_congr_left fun t ht => ?_)
    dsimp only
    rw [hv t.1 (hlc t ht)]
    rfl
  refine forall_congr' fun c => forall_congr' fun hc => ?_
  have hc' := hidx c hc
  unfold Con.Holds
  rw [hlc c.a (fun t ht => hc' t (by simp [ht])), hlc c.b (fun t ht => hc' t (by simp [ht])), hlc c.c (fun t ht => hc' t (by simp [ht]))]

/-- **C59 (public inputs).** The reported public inputs are the values of the input variables other than the constant one. -/
theorem publicInputs_eq (ci : Circ K) (w : List K) (cs cs' : CS K) (hw : ci.witness = some w) (h0 : cs.inputs = [1]) (hn : 1 ≤ ci.numInputs)
    (hs : synthesize ci w cs = some cs') (hone : (value w ci.wireMapping 0).isSome) : getPublicInputs ci = some (some (cs'.inputs.drop 1)) := by
  unfold synthesize at hs
  obtain ⟨ins, h1, hs⟩ := Option.bind_eq_some_iff.mp hs
  obtain ⟨aux, h2, hs⟩ := Option.bind_eq_some_iff.mp hs
  obtain rfl := Option.some.inj hs
  obtain ⟨l1, h1⟩ := (mapM_range _ _ _).mp h1
  rw [h0]
  show _ = some (some ins)
  unfold getPublicInputs
  rw [hw]
  dsimp only
  cases hm : ci.wireMapping with
  | none =>
    rw [hm] at h1 hone
    dsimp only [value] at h1 hone ⊢
    have hlen : ci.numInputs ≤ w.length := by
      by_contra hc
      by_cases h1n : ci.numInputs = 1
      · have : w[0]? = none := List.getElem?_eq_none (by omega)
        rw [this] at hone; exact absurd hone (by simp)
      · have := h1 (ci.numInputs - 2) (by omega)
        rw [List.getElem?_eq_none (by omega), List.getElem?_eq_getElem (by omega)] at this
        exact absurd this (by simp)
    rw [if_pos ⟨hn, hlen⟩]
    congr 2
    refine List.ext_getElem? fun i => ?_
    rw [List.getElem?_drop]
    by_cases hi : i < ci.numInputs - 1
    · rw [List.getElem?_take_of_lt (by omega), Nat.add_comm, h1 i hi]
    · rw [List.getElem?_eq_none (by rw [List.length_take]; omega), List.getElem?_eq_none (by omega)]
  | some m =>
    rw [hm] at h1 hone
    dsimp only [value] at h1 hone ⊢
    have hlen : ci.numInputs ≤ m.length := by
      by_contra hc
      by_cases h1n : ci.numInputs = 1
      · have : m[0]? = none := List.getElem?_eq_none (by omega)
        rw [this] at hone; exact absurd hone (by simp)
      · have := h1 (ci.numInputs - 2) (by omega)
        rw [List.getElem?_eq_none (by omega), List.getElem?_eq_getElem (by omega)] at this
        exact absurd this (by simp)
    rw [if_pos ⟨hn, hlen⟩]
    have key : ((m.take ci.numInputs).drop 1).mapM (w[·]?) = some ins := by
      have e : (m.take ci.numInputs).drop 1 = (List.range (ci.numInputs - 1)).map fun i => m.getD (i + 1) 0 := by
        refine List.ext_getElem (by simp; omega) fun i h2 h3 => ?_
        simp only [List.length_map, List.length_range] at h3
        simp only [List.getElem_drop, List.getElem_take, List.getElem_map, List.getElem_range, List.getD_eq_getElem?_getD]
        rw [List.getElem?_eq_getElem (by omega)]
        simp [Nat.add_comm]
      rw [e, List.mapM_map]
      refine (mapM_range _ _ _).mpr ⟨l1, fun i hi => ?_⟩
      have := h1 i hi
      rw [List.getElem?_eq_getElem (by omega), Option.bind_some] at this
      rw [← this]
      simp [List.getD_eq_getElem?_getD, List.getElem?_eq_getElem (by omega : i + 1 < m.length)]
    rw [key]
    rfl

/-- `x · x = y` with public `y`, reordered witness `[1, 9, 3]` -/
example : ∃ cs', synthesize (K := ℤ) ⟨2, 1, [⟨[(2, 1)], [(2, 1)], [(1, 1)]⟩, ⟨[], [(1, 5)], []⟩], some [1, 3, 9], some [0, 2, 1], 0⟩ [1, 3, 9] ⟨[1], [], []⟩ = some cs' ∧
    cs'.inputs = [1, 9] ∧ cs'.aux = [3] ∧ cs'.enforced.length = 1 ∧ Satisfied cs'.val cs'.enforced := by
  refine ⟨_, rfl, rfl, rfl, rfl, ?_⟩
  refine ((synthesize_iff (K := ℤ) ⟨2, 1, [⟨[(2, 1)], [(2, 1)], [(1, 1)]⟩, ⟨[], [(1, 5)], []⟩], some [1, 3, 9], some [0, 2, 1], 0⟩ [1, 3, 9] ⟨[1], [], []⟩ _ rfl rfl rfl (by decide) rfl rfl ?_).2).mpr ?_
  · decide
  · intro c hc
    simp only [List.mem_cons, List.not_mem_nil, or_false] at hc
    rcases hc with rfl | rfl <;> simp [Con.Holds, lcVal, value]

end

end Verif.Plonk.Circuit
