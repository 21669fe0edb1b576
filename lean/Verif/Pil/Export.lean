import Mathlib.Data.List.Forall2
import Mathlib.Data.List.Range
import Mathlib.Algebra.Ring.Int.Defs

/-!
# C133: the export of an analyzed PIL program, recursion/src/pilcom/export.rs and recursion/src/pilcom/expression_counter.rs

The analyzed program (crate powdr) is a list of declarations in source order; names are resolved to what they declare.  Source locations, the table
`references` and the sizes (`nCommitments`, `nIm`, `nConstants`: powdr's) are not modelled.
-/
namespace Verif.Pil.Export

/-- `PolynomialType` (crate powdr) -/
inductive PType
  | committed | constant | intermediate
  deriving DecidableEq

/-- `AlgebraicBinaryOperator` (crate powdr) -/
inductive BOp
  | add | sub | mul | pow
  deriving DecidableEq

/-- `AlgebraicExpression` (crate powdr) -/
inductive Expr (K : Type)
  | ref (t : PType) (id : Nat) (next : Bool)
  | pub (name : String)
  | chal (id : Nat)
  | num (v : K)
  | bin (op : BOp) (l r : Expr K)
  | neg (e : Expr K)

/-- the fields of `starky::types::Expression` that are set, starky/src/types.rs, but for `values`, which are the children in `J`; a number is kept as
itself instead of its decimal text -/
structure Head (K : Type) where
  op : String
  deg : Nat
  id : Option Nat := none
  next : Option Bool := none
  value : Option K := none
  idQ : Option Nat := none

/-- `starky::types::Expression` with zero, one or two `values` -/
inductive J (K : Type)
  | leaf (h : Head K)
  | un (h : Head K) (a : J K)
  | bin (h : Head K) (a b : J K)

/-- the fields of an expression -/
def J.head {K : Type} : J K → Head K
  | .leaf h => h
  | .un h _ => h
  | .bin h _ _ => h

/-- `expr.idQ = Some(q); expr.deg = 1`, export.rs L256-257 -/
def J.setQ {K : Type} (q : Nat) : J K → J K
  | .leaf h => .leaf { h with idQ := some q, deg := 1 }
  | .un h a => .un { h with idQ := some q, deg := 1 } a
  | .bin h a b => .bin { h with idQ := some q, deg := 1 } a b

/-- `IdentityKind` (crate powdr) -/
inductive Kind
  | polynomial | plookup | permutation | connect
  deriving DecidableEq

/-- `SelectedExpressions` (crate powdr) -/
structure Sel (K : Type) where
  selector : Option (Expr K)
  expressions : List (Expr K)

/-- `PublicDeclaration` (crate powdr): its number, the column it is of, the element if that is an array, and the row -/
structure PubDecl where
  id : Nat
  name : String
  ptype : PType
  polId : Nat
  arrayIndex : Option Nat
  index : Nat

/-- a `StatementIdentifier` with what it stands for -/
inductive Item (K : Type)
  | other
  | inter (id : Nat) (length : Option Nat) (vals : List (Expr K))
  | pub (d : PubDecl)
  | identity (kind : Kind) (left right : Sel K)

/-- `starky::types::Public`, without `id`, its position -/
structure Public where
  polType : String
  polId : Nat
  idx : Nat
  id : Nat
  name : String

/-- the part of `starky::types::PIL` that is modelled -/
structure PIL (K : Type) where
  expressions : List (J K) := []
  nQ : Nat := 0
  publics : List Public := []
  pol : List Nat := []
  plookup : List (Option Nat × List Nat × Option Nat × List Nat) := []
  perm : List (Option Nat × List Nat × Option Nat × List Nat) := []
  conn : List (List Nat × List Nat) := []

variable {K : Type}

/-- expression_counter.rs L64-68 -/
def selCount (s : Sel K) : Nat := (if s.selector.isSome then 1 else 0) + s.expressions.length

/-- expression_counter.rs L42-62 -/
def itemCount : Item K → Nat
  | .other => 0
  | .inter _ len _ => len.getD 1
  | .pub _ => 0
  | .identity _ l r => selCount l + selCount r

/-- `ids.insert(k, v)` -/
def ins (m : Nat → Option Nat) (k v : Nat) : Nat → Option Nat := fun k' => if k' = k then some v else m k'

/-- one item of expression_counter.rs L12-33: the counter and the map; an array of intermediates has consecutive numbers (`array_elements`, powdr) -/
def idsStep (s : Nat × (Nat → Option Nat)) (it : Item K) : Nat × (Nat → Option Nat) :=
  (s.1 + itemCount it, match it with
    | .inter id len _ => (List.range (len.getD 1)).foldl (fun m i => ins m (id + i) (s.1 + i)) s.2
    | _ => s.2)

/-- `compute_intermediate_expression_ids`, expression_counter.rs L9-35 -/
def computeIds (items : List (Item K)) : Nat → Option Nat := (items.foldl idsStep (0, fun _ => none)).2

/-- the declaration of a public by its name: `public_declarations[name]` -/
def pubDecls (items : List (Item K)) : List PubDecl := items.filterMap fun | .pub d => some d | _ => none

/-- export.rs L168-174 -/
def typeStr : PType → String
  | .committed => "cm"
  | .constant => "const"
  | .intermediate => "exp"

/-- export.rs L176-183; `none` is a panic -/
def typeName (s : String) : Option String :=
  if s = "cm" then some "cmP" else if s = "const" then some "constP" else if s = "exp" then some "imP" else none

/-- `polynomial_reference_to_json`, export.rs L352-370 -/
def refJson (ids : Nat → Option Nat) (t : PType) (id : Nat) (next : Bool) : Option (Nat × J K) :=
  (if t = .intermediate then ids id else some id).map fun i => (1, .leaf { id := some i, op := typeStr t, deg := 1, next := some next })

/-- export.rs L312-324: the operator and the degree; `none` is the failed assertion of L317-321 -/
def opJson (op : BOp) (dl dr : Nat) : Option (String × Nat) :=
  match op with
  | .add => some ("add", max dl dr)
  | .sub => some ("sub", max dl dr)
  | .mul => some ("mul", dl + dr)
  | .pow => if dl + dr = 0 then some ("pow", dl + dr) else none

/-- `expression_to_json`, export.rs L277-350: the degree and the expression; `pid` are the numbers of the publics; `none` is a panic -/
def toJson (ids : Nat → Option Nat) (pid : String → Option Nat) : Expr K → Option (Nat × J K)
  | .ref t id next => refJson ids t id next
  | .pub name => (pid name).map fun i => (0, .leaf { op := "public", deg := 0, id := some i })
  | .chal id => some (0, .leaf { op := "challenge", deg := 0, id := some id })
  | .num v => some (0, .leaf { op := "number", deg := 0, value := some v })
  | .bin op l r => do
    let (dl, jl) ← toJson ids pid l
    let (dr, jr) ← toJson ids pid r
    let (s, d) ← opJson op dl dr
    some (d, .bin { op := s, deg := d } jl jr)
  | .neg e => do
    let (d, j) ← toJson ids pid e
    some (d, .un { op := "neg", deg := d } j)

/-- `extract_expression`, export.rs L252-262 -/
def extract (ids : Nat → Option Nat) (pid : String → Option Nat) (p : PIL K) (mx : Nat) (e : Expr K) : Option (PIL K × Nat) := do
  let (d, j) ← toJson ids pid e
  if mx < d then some ({ p with expressions := p.expressions ++ [j.setQ p.nQ], nQ := p.nQ + 1 }, p.expressions.length)
  else some ({ p with expressions := p.expressions ++ [j] }, p.expressions.length)

/-- `extract_expression_opt`, export.rs L264-270 -/
def extractOpt (ids : Nat → Option Nat) (pid : String → Option Nat) (p : PIL K) (mx : Nat) : Option (Expr K) → Option (PIL K × Option Nat)
  | none => some (p, none)
  | some e => (extract ids pid p mx e).map fun x => (x.1, some x.2)

/-- `extract_expression_vec`, export.rs L272-274 -/
def extractVec (ids : Nat → Option Nat) (pid : String → Option Nat) (p : PIL K) (mx : Nat) : List (Expr K) → Option (PIL K × List Nat)
  | [] => some (p, [])
  | e :: es => do
    let (p, i) ← extract ids pid p mx e
    let (p, is) ← extractVec ids pid p mx es
    some (p, i :: is)

/-- the loop over the elements of an array of intermediates, export.rs L55-61, from element `k` on; `none` includes the failed assertion -/
def exportInter (ids : Nat → Option Nat) (pid : String → Option Nat) (p : PIL K) (k : Nat) : List (Expr K) → Option (PIL K)
  | [] => some p
  | e :: es => do
    let (p, i) ← extract ids pid p 1 e
    if ids k = some i then exportInter ids pid p (k + 1) es else none

/-- one item of `export`, export.rs L51-138 -/
def exportItem (ids : Nat → Option Nat) (pid : String → Option Nat) (p : PIL K) : Item K → Option (PIL K)
  | .other => some p
  | .inter id len vals => exportInter ids pid p id (vals.take (len.getD 1))
  | .pub d => do
    let (_, j) ← refJson (K := K) ids d.ptype (d.polId + d.arrayIndex.getD 0) false
    let t ← typeName j.head.op
    let i ← j.head.id
    some { p with publics := p.publics ++ [⟨t, i, d.index, p.publics.length, d.name⟩] }
  | .identity kind l r => do
    let (p, left) ← extractVec ids pid p 1 l.expressions
    let (p, selL) ← extractOpt ids pid p (if kind = .polynomial then 2 else 1) l.selector
    let (p, right) ← extractVec ids pid p 1 r.expressions
    let (p, selR) ← extractOpt ids pid p 1 r.selector
    match kind with
    | .polynomial => selL.map fun e => { p with pol := p.pol ++ [e] }
    | .plookup => some { p with plookup := p.plookup ++ [(selL, left, selR, right)] }
    | .permutation => some { p with perm := p.perm ++ [(selL, left, selR, right)] }
    | .connect => some { p with conn := p.conn ++ [(left, right)] }

/-- `export`, export.rs L43-155 -/
def export_ (items : List (Item K)) : Option (PIL K) :=
  items.foldlM (exportItem (computeIds items) fun name => ((pubDecls items).find? fun d => d.name = name).map (·.id)) {}

/-! ### Specification -/

section Spec

/-- what the columns, publics and challenges are; `pw` is the power, the same on both sides -/
structure Env (K : Type) where
  cm : Nat → Nat → K
  const : Nat → Nat → K
  chal : Nat → K
  pw : K → K → K

/-- the value of an expression of the source in row `row`, given the publics by name and the intermediate columns -/
def evalE [Ring K] (v : Env K) (pub : String → K) (im : Nat → Nat → K) (row : Nat) : Expr K → K
  | .ref .committed id next => v.cm id (if next then row + 1 else row)
  | .ref .constant id next => v.const id (if next then row + 1 else row)
  | .ref .intermediate id next => im id (if next then row + 1 else row)
  | .pub name => pub name
  | .chal id => v.chal id
  | .num x => x
  | .bin .add l r => evalE v pub im row l + evalE v pub im row r
  | .bin .sub l r => evalE v pub im row l - evalE v pub im row r
  | .bin .mul l r => evalE v pub im row l * evalE v pub im row r
  | .bin .pow l r => v.pw (evalE v pub im row l) (evalE v pub im row r)
  | .neg e => - evalE v pub im row e

/-- the value of an exported expression, given the publics by number and the values of all expressions -/
def evalJ [Ring K] (v : Env K) (pub : Nat → K) (ex : Nat → Nat → K) (row : Nat) : J K → Option K
  | .leaf h =>
    let col (f : Nat → Nat → K) : Option K := do
      let i ← h.id
      let n ← h.next
      some (f i (if n then row + 1 else row))
    if h.op = "cm" then col v.cm else if h.op = "const" then col v.const else if h.op = "exp" then col ex
    else if h.op = "public" then h.id.map pub else if h.op = "challenge" then h.id.map v.chal else if h.op = "number" then h.value else none
  | .un h a => if h.op = "neg" then (evalJ v pub ex row a).map (- ·) else none
  | .bin h a b => do
    let x ← evalJ v pub ex row a
    let y ← evalJ v pub ex row b
    if h.op = "add" then some (x + y) else if h.op = "sub" then some (x - y) else if h.op = "mul" then some (x * y)
    else if h.op = "pow" then some (v.pw x y) else none

/-- the degree of an expression in the columns -/
def degree : Expr K → Nat
  | .ref _ _ _ => 1
  | .pub _ => 0
  | .chal _ => 0
  | .num _ => 0
  | .bin .add l r => max (degree l) (degree r)
  | .bin .sub l r => max (degree l) (degree r)
  | .bin .mul l r => degree l + degree r
  | .bin .pow _ _ => 0
  | .neg e => degree e

/-- the expressions of an item, in the order of export, with the largest degree allowed and, for an intermediate column, its number -/
def itemExprs : Item K → List (Option Nat × Nat × Expr K)
  | .other => []
  | .inter id _ vals => vals.zipIdx.map fun x => (some (id + x.2), 1, x.1)
  | .pub _ => []
  | .identity kind l r => l.expressions.map (fun e => (none, 1, e)) ++ l.selector.toList.map (fun e => (none, if kind = .polynomial then 2 else 1, e)) ++
      r.expressions.map (fun e => (none, 1, e)) ++ r.selector.toList.map (fun e => (none, 1, e))

/-- the expressions of the program -/
def allExprs (items : List (Item K)) : List (Option Nat × Nat × Expr K) := items.flatMap itemExprs

/-- the intermediate columns are what they are defined to be -/
def SrcOk [Ring K] (v : Env K) (pub : String → K) (im : Nat → Nat → K) (items : List (Item K)) : Prop :=
  ∀ id len vals, Item.inter id len vals ∈ items → ∀ i e, vals[i]? = some e → ∀ row, im (id + i) row = evalE v pub im row e

/-- the values of the exported expressions are what they say -/
def OutOk [Ring K] (v : Env K) (pub : Nat → K) (ex : Nat → Nat → K) (p : PIL K) : Prop :=
  ∀ n j, p.expressions[n]? = some j → ∀ row, evalJ v pub ex row j = some (ex n row)

/-- an exported column of a public -/
def pubCol (v : Env K) (ex : Nat → Nat → K) (p : Public) : Option (Nat → K) :=
  if p.polType = "cmP" then some (v.cm p.polId) else if p.polType = "constP" then some (v.const p.polId) else if p.polType = "imP" then some (ex p.polId) else none

/-- the exported number `n` stands for the source expression `e` -/
def Den [Ring K] (v : Env K) (pubS : String → K) (im ex : Nat → Nat → K) (n : Nat) (e : Expr K) : Prop := ∀ row, ex n row = evalE v pubS im row e

/-- the identities of the export are those of the source, kind by kind and in order, if a number `n` stands for an expression `e` when `D n e` -/
structure SameBy (D : Nat → Expr K → Prop) (items : List (Item K)) (p : PIL K) : Prop where
  pol : List.Forall₂ D p.pol (items.filterMap fun | .identity .polynomial l _ => l.selector | _ => none)
  plookup : List.Forall₂ (fun n (m : Sel K × Sel K) => Option.Rel D n.1 m.1.selector ∧ List.Forall₂ D n.2.1 m.1.expressions ∧
    Option.Rel D n.2.2.1 m.2.selector ∧ List.Forall₂ D n.2.2.2 m.2.expressions) p.plookup (items.filterMap fun | .identity .plookup l r => some (l, r) | _ => none)
  perm : List.Forall₂ (fun n (m : Sel K × Sel K) => Option.Rel D n.1 m.1.selector ∧ List.Forall₂ D n.2.1 m.1.expressions ∧
    Option.Rel D n.2.2.1 m.2.selector ∧ List.Forall₂ D n.2.2.2 m.2.expressions) p.perm (items.filterMap fun | .identity .permutation l r => some (l, r) | _ => none)
  conn : List.Forall₂ (fun n (m : Sel K × Sel K) => List.Forall₂ D n.1 m.1.expressions ∧ List.Forall₂ D n.2 m.2.expressions) p.conn
    (items.filterMap fun | .identity .connect l r => some (l, r) | _ => none)

/-- the exported program says the same as the source: its identities are about expressions with the same values, its publics are the same rows of the same
columns -/
structure Same [Ring K] (v : Env K) (pubS : String → K) (im ex : Nat → Nat → K) (items : List (Item K)) (p : PIL K) : Prop where
  ids : SameBy (Den v pubS im ex) items p
  publics : List.Forall₂ (fun q (d : PubDecl) => q.name = d.name ∧ q.idx = d.index ∧ ∃ c, pubCol v ex q = some c ∧
    ∀ row, c row = evalE v pubS im row (.ref d.ptype (d.polId + d.arrayIndex.getD 0) false)) p.publics (pubDecls items)

/-- an expression only mentions what is declared, and no power of a column -/
def Closed (items : List (Item K)) : Expr K → Prop
  | .ref .intermediate k _ => ∃ x ∈ allExprs items, x.1 = some k
  | .ref _ _ _ => True
  | .pub name => ∃ d ∈ pubDecls items, d.name = name
  | .chal _ => True
  | .num _ => True
  | .bin .pow l r => Closed items l ∧ Closed items r ∧ degree l = 0 ∧ degree r = 0
  | .bin _ l r => Closed items l ∧ Closed items r
  | .neg e => Closed items e

/-- what powdr guarantees of an analyzed program -/
structure Wf (items : List (Item K)) : Prop where
  /-- an array has as many definitions as elements -/
  len : ∀ id len vals, Item.inter id len vals ∈ items → vals.length = len.getD 1
  /-- the numbers of the intermediate columns differ -/
  nodup : ((allExprs items).filterMap (·.1)).Nodup
  /-- the publics are numbered in source order -/
  pubs : ∀ i (d : PubDecl), (pubDecls items)[i]? = some d → d.id = i
  closed : ∀ x ∈ allExprs items, Closed items x.2.2
  pubCols : ∀ d ∈ pubDecls items, d.ptype = .intermediate → ∃ x ∈ allExprs items, x.1 = some (d.polId + d.arrayIndex.getD 0)
  /-- a polynomial identity is kept as the selector of its left side -/
  pol : ∀ l r, Item.identity .polynomial l r ∈ items → l.selector.isSome

end Spec

/-! ### Proofs -/

theorem refJson_cases {ids : Nat → Option Nat} {t : PType} {id : Nat} {next : Bool} {d : Nat} {j : J K} (h : refJson ids t id next = some (d, j)) :
    d = 1 ∧ ∃ i, j = .leaf { id := some i, op := typeStr t, deg := 1, next := some next } ∧ (t = .intermediate → ids id = some i) ∧ (t ≠ .intermediate → i = id) := by
  unfold refJson at h
  obtain ⟨i, h1, h2⟩ := Option.map_eq_some_iff.mp h
  cases h2
  refine ⟨rfl, i, rfl, fun ht => ?_, fun ht => ?_⟩
  · rwa [if_pos ht] at h1
  · rw [if_neg ht] at h1
    exact (Option.some.inj h1).symm

/-- the degree computed -/
theorem toJson_degree {ids : Nat → Option Nat} {pid : String → Option Nat} (e : Expr K) : ∀ {d j}, toJson ids pid e = some (d, j) →
    d = degree e ∧ j.head.idQ = none := by
  induction e with
  | ref t id next =>
    intro d j h
    obtain ⟨rfl, i, rfl, -, -⟩ := refJson_cases h
    exact ⟨rfl, rfl⟩
  | pub name =>
    intro d j h
    obtain ⟨i, -, h⟩ := Option.map_eq_some_iff.mp h
    cases h
    exact ⟨rfl, rfl⟩
  | chal id => intro d j h; cases h; exact ⟨rfl, rfl⟩
  | num v => intro d j h; cases h; exact ⟨rfl, rfl⟩
  | neg e ih =>
    intro d j h
    rw [toJson] at h
    obtain ⟨⟨d1, j1⟩, h1, h⟩ := Option.bind_eq_some_iff.mp h
    cases h
    exact ⟨(ih h1).1, rfl⟩
  | bin op l r ihl ihr =>
    intro d j h
    rw [toJson] at h
    obtain ⟨⟨dl, jl⟩, h1, h⟩ := Option.bind_eq_some_iff.mp h
    obtain ⟨⟨dr, jr⟩, h2, h⟩ := Option.bind_eq_some_iff.mp h
    obtain ⟨⟨s, d0⟩, h3, h⟩ := Option.bind_eq_some_iff.mp h
    cases h
    have e1 := (ihl h1).1
    have e2 := (ihr h2).1
    refine ⟨?_, rfl⟩
    cases op <;> simp only [opJson, Option.some.injEq, Prod.mk.injEq] at h3
    · rw [degree, ← e1, ← e2, h3.2]
    · rw [degree, ← e1, ← e2, h3.2]
    · rw [degree, ← e1, ← e2, h3.2]
    · split at h3
      · rename_i h0
        rw [degree, ← (Prod.mk.inj (Option.some.inj h3)).2, h0]
      · cases h3

theorem evalJ_setQ [Ring K] {v : Env K} {pub : Nat → K} {ex : Nat → Nat → K} {row q : Nat} (j : J K) : evalJ v pub ex row (j.setQ q) = evalJ v pub ex row j := by
  cases j <;> rfl

/-- an exported expression has the value of its source -/
theorem toJson_eval [Ring K] {ids : Nat → Option Nat} {pid : String → Option Nat} {v : Env K} {pubS : String → K} {pubJ : Nat → K} {im ex : Nat → Nat → K}
    (hi : ∀ k n, ids k = some n → ex n = im k) (hp : ∀ s n, pid s = some n → pubJ n = pubS s) (row : Nat) (e : Expr K) : ∀ {d j},
    toJson ids pid e = some (d, j) → evalJ v pubJ ex row j = some (evalE v pubS im row e) := by
  induction e with
  | ref t id next =>
    intro d j h
    obtain ⟨-, i, rfl, h1, h2⟩ := refJson_cases h
    cases t with
    | committed => rw [h2 (by decide)]; rfl
    | constant => rw [h2 (by decide)]; rfl
    | intermediate =>
      rw [evalE, ← hi id i (h1 rfl)]
      rfl
  | pub name =>
    intro d j h
    obtain ⟨i, h1, h⟩ := Option.map_eq_some_iff.mp h
    cases h
    rw [evalE, ← hp name i h1]
    rfl
  | chal id => intro d j h; cases h; rfl
  | num v => intro d j h; cases h; rfl
  | neg e ih =>
    intro d j h
    rw [toJson] at h
    obtain ⟨⟨d1, j1⟩, h1, h⟩ := Option.bind_eq_some_iff.mp h
    cases h
    rw [evalJ, if_pos rfl, ih h1]
    rfl
  | bin op l r ihl ihr =>
    intro d j h
    rw [toJson] at h
    obtain ⟨⟨dl, jl⟩, h1, h⟩ := Option.bind_eq_some_iff.mp h
    obtain ⟨⟨dr, jr⟩, h2, h⟩ := Option.bind_eq_some_iff.mp h
    obtain ⟨⟨s, d0⟩, h3, h⟩ := Option.bind_eq_some_iff.mp h
    cases h
    rw [evalJ, ihl h1, ihr h2]
    cases op <;> simp only [opJson, Option.some.injEq, Prod.mk.injEq] at h3
    · rw [← h3.1]; rfl
    · rw [← h3.1]; rfl
    · rw [← h3.1]; rfl
    · split at h3
      · rw [← (Prod.mk.inj (Option.some.inj h3)).1]; rfl
      · cases h3

/-- nothing panics on a closed expression -/
theorem toJson_some {items : List (Item K)} {ids : Nat → Option Nat} {pid : String → Option Nat} (hi : ∀ k, (∃ x ∈ allExprs items, x.1 = some k) → (ids k).isSome)
    (hp : ∀ s, (∃ d ∈ pubDecls items, d.name = s) → (pid s).isSome) (e : Expr K) (h : Closed items e) : ∃ d j, toJson ids pid e = some (d, j) := by
  induction e with
  | ref t id next =>
    cases t with
    | committed => exact ⟨_, _, rfl⟩
    | constant => exact ⟨_, _, rfl⟩
    | intermediate =>
      obtain ⟨i, hi⟩ := Option.isSome_iff_exists.mp (hi id h)
      rw [toJson, refJson, if_pos rfl, hi]
      exact ⟨_, _, rfl⟩
  | pub name =>
    obtain ⟨i, hi⟩ := Option.isSome_iff_exists.mp (hp name h)
    rw [toJson, hi]
    exact ⟨_, _, rfl⟩
  | chal id => exact ⟨_, _, rfl⟩
  | num v => exact ⟨_, _, rfl⟩
  | neg e ih =>
    obtain ⟨d, j, h⟩ := ih h
    rw [toJson, h]
    exact ⟨_, _, rfl⟩
  | bin op l r ihl ihr =>
    have hl : Closed items l := by cases op <;> exact h.1
    have hr : Closed items r := by
      cases op
      · exact h.2
      · exact h.2
      · exact h.2
      · exact h.2.1
    obtain ⟨dl, jl, h1⟩ := ihl hl
    obtain ⟨dr, jr, h2⟩ := ihr hr
    have : ∃ s d, opJson op dl dr = some (s, d) := by
      cases op
      · exact ⟨_, _, rfl⟩
      · exact ⟨_, _, rfl⟩
      · exact ⟨_, _, rfl⟩
      · refine ⟨_, _, if_pos ?_⟩
        rw [(toJson_degree l h1).1, (toJson_degree r h2).1, h.2.2.1, h.2.2.2]
    obtain ⟨s, d, h3⟩ := this
    rw [toJson, h1, h2]
    show ∃ d j, ((opJson op dl dr).bind _) = _
    rw [h3]
    exact ⟨_, _, rfl⟩

/-- how an exported expression comes from its source -/
def Rel1 (ids : Nat → Option Nat) (pid : String → Option Nat) (j : J K) (x : Option Nat × Nat × Expr K) : Prop :=
  ∃ d j0, toJson ids pid x.2.2 = some (d, j0) ∧ ((∃ q, j = j0.setQ q ∧ x.2.1 < d) ∨ (j = j0 ∧ ¬ x.2.1 < d))

/-- what is known of the state after the expressions `T` -/
structure Inv (ids : Nat → Option Nat) (pid : String → Option Nat) (p : PIL K) (T : List (Option Nat × Nat × Expr K)) : Prop where
  rel : List.Forall₂ (Rel1 ids pid) p.expressions T
  q : p.expressions.filterMap (fun j => j.head.idQ) = List.range p.nQ
  num : ∀ i (q : Public), p.publics[i]? = some q → q.id = i

/-- nothing but the expressions changed -/
def Frame (p p' : PIL K) : Prop := p'.publics = p.publics ∧ p'.pol = p.pol ∧ p'.plookup = p.plookup ∧ p'.perm = p.perm ∧ p'.conn = p.conn

theorem Frame.trans {p p' p'' : PIL K} (h : Frame p p') (h' : Frame p' p'') : Frame p p'' := by
  obtain ⟨a, b, c, d, e⟩ := h
  obtain ⟨a', b', c', d', e'⟩ := h'
  exact ⟨a'.trans a, b'.trans b, c'.trans c, d'.trans d, e'.trans e⟩

/-- expression number `n` comes from `e` -/
def At (T : List (Option Nat × Nat × Expr K)) (n : Nat) (e : Expr K) : Prop := ∃ x, T[n]? = some x ∧ x.2.2 = e

theorem At.mono {T : List (Option Nat × Nat × Expr K)} {n : Nat} {e : Expr K} (h : At T n e) (U : List (Option Nat × Nat × Expr K)) : At (T ++ U) n e := by
  obtain ⟨x, h1, h2⟩ := h
  refine ⟨x, ?_, h2⟩
  rw [List.getElem?_append_left (List.getElem?_eq_some_iff.mp h1).1, h1]

theorem at_last (T : List (Option Nat × Nat × Expr K)) (x : Option Nat × Nat × Expr K) : At (T ++ [x]) T.length x.2.2 := ⟨x, by simp, rfl⟩

section Run
variable {ids : Nat → Option Nat} {pid : String → Option Nat}

theorem setQ_idQ (q : Nat) (j : J K) : (j.setQ q).head.idQ = some q := by cases j <;> rfl

theorem extract_ok {p : PIL K} {T : List (Option Nat × Nat × Expr K)} (hI : Inv ids pid p T) (o : Option Nat) (mx : Nat) {e : Expr K}
    (he : ∃ d j, toJson ids pid e = some (d, j)) : ∃ p', extract ids pid p mx e = some (p', T.length) ∧ Inv ids pid p' (T ++ [(o, mx, e)]) ∧ Frame p p' := by
  obtain ⟨d, j, h⟩ := he
  have hl : p.expressions.length = T.length := hI.rel.length_eq
  unfold extract
  rw [h]
  show ∃ p', (if mx < d then _ else _) = _ ∧ _
  by_cases hd : mx < d
  · rw [if_pos hd, hl]
    refine ⟨_, rfl, ⟨?_, ?_, hI.num⟩, rfl, rfl, rfl, rfl, rfl⟩
    · exact List.rel_append hI.rel (List.Forall₂.cons ⟨d, j, h, Or.inl ⟨_, rfl, hd⟩⟩ List.Forall₂.nil)
    · show (p.expressions ++ [j.setQ p.nQ]).filterMap _ = List.range (p.nQ + 1)
      rw [List.filterMap_append, hI.q, List.range_succ]
      simp [setQ_idQ]
  · rw [if_neg hd, hl]
    refine ⟨_, rfl, ⟨?_, ?_, hI.num⟩, rfl, rfl, rfl, rfl, rfl⟩
    · exact List.rel_append hI.rel (List.Forall₂.cons ⟨d, j, h, Or.inr ⟨rfl, hd⟩⟩ List.Forall₂.nil)
    · show (p.expressions ++ [j]).filterMap _ = List.range p.nQ
      rw [List.filterMap_append, hI.q]
      simp [(toJson_degree e h).2]

theorem extractOpt_ok {p : PIL K} {T : List (Option Nat × Nat × Expr K)} (hI : Inv ids pid p T) (mx : Nat) {o : Option (Expr K)}
    (he : ∀ e ∈ o, ∃ d j, toJson ids pid e = some (d, j)) : ∃ p' i, extractOpt ids pid p mx o = some (p', i) ∧
      Inv ids pid p' (T ++ o.toList.map fun e => (none, mx, e)) ∧ Frame p p' ∧ Option.Rel (At (T ++ o.toList.map fun e => (none, mx, e))) i o := by
  cases o with
  | none => exact ⟨p, none, rfl, by simpa using hI, ⟨rfl, rfl, rfl, rfl, rfl⟩, Option.Rel.none⟩
  | some e =>
    obtain ⟨p', h1, h2, h3⟩ := extract_ok hI none mx (he e rfl)
    refine ⟨p', some T.length, ?_, h2, h3, Option.Rel.some (at_last T (none, mx, e))⟩
    rw [extractOpt, h1]
    rfl

theorem extractVec_ok (mx : Nat) : ∀ (es : List (Expr K)) {p : PIL K} {T : List (Option Nat × Nat × Expr K)}, Inv ids pid p T →
    (∀ e ∈ es, ∃ d j, toJson ids pid e = some (d, j)) → ∃ p' is, extractVec ids pid p mx es = some (p', is) ∧
      Inv ids pid p' (T ++ es.map fun e => (none, mx, e)) ∧ Frame p p' ∧ List.Forall₂ (At (T ++ es.map fun e => (none, mx, e))) is es
  | [], p, T, hI, _ => ⟨p, [], rfl, by simpa using hI, ⟨rfl, rfl, rfl, rfl, rfl⟩, List.Forall₂.nil⟩
  | e :: es, p, T, hI, he => by
    obtain ⟨p1, h1, h2, h3⟩ := extract_ok hI none mx (he e List.mem_cons_self)
    obtain ⟨p2, is, g1, g2, g3, g4⟩ := extractVec_ok mx es h2 fun e' h' => he e' (List.mem_cons_of_mem _ h')
    rw [List.append_assoc] at g2 g4
    refine ⟨p2, T.length :: is, ?_, g2, h3.trans g3, List.Forall₂.cons ?_ g4⟩
    · rw [extractVec, h1]
      show (extractVec ids pid p1 mx es).bind _ = _
      rw [g1]
      rfl
    · have := (at_last T (none, mx, e)).mono (es.map fun e => (none, mx, e))
      rwa [List.append_assoc] at this

theorem exportInter_ok : ∀ (vals : List (Expr K)) {p : PIL K} {T : List (Option Nat × Nat × Expr K)} (id s : Nat), Inv ids pid p T →
    (∀ e ∈ vals, ∃ d j, toJson ids pid e = some (d, j)) → (∀ i < vals.length, ids (id + (s + i)) = some (T.length + i)) →
    ∃ p', exportInter ids pid p (id + s) vals = some p' ∧ Inv ids pid p' (T ++ (vals.zipIdx s).map fun x => (some (id + x.2), 1, x.1)) ∧ Frame p p'
  | [], p, T, id, s, hI, _, _ => ⟨p, rfl, by simpa using hI, rfl, rfl, rfl, rfl, rfl⟩
  | e :: es, p, T, id, s, hI, he, hids => by
    obtain ⟨p1, h1, h2, h3⟩ := extract_ok hI (some (id + s)) 1 (he e List.mem_cons_self)
    obtain ⟨p2, g1, g2, g3⟩ := exportInter_ok es id (s + 1) h2 (fun e' h' => he e' (List.mem_cons_of_mem _ h')) (fun i hi => by
      have := hids (i + 1) (by simpa using hi)
      rw [List.length_append, List.length_singleton, show s + 1 + i = s + (i + 1) by omega, this]
      congr 1
      omega)
    rw [List.append_assoc] at g2
    refine ⟨p2, ?_, g2, h3.trans g3⟩
    rw [exportInter, h1]
    show (if ids (id + s) = some T.length then _ else _) = _
    have := hids 0 (by simp)
    rw [Nat.add_zero, Nat.add_zero] at this
    rw [if_pos this]
    exact g1

theorem forall₂_snoc {α β : Type} {R S : α → β → Prop} (hRS : ∀ a b, R a b → S a b) {l : List α} {m : List β} (h : List.Forall₂ R l m) {a : α} {b : β} (hab : S a b) :
    List.Forall₂ S (l ++ [a]) (m ++ [b]) := List.rel_append (h.imp hRS) (List.Forall₂.cons hab List.Forall₂.nil)

theorem optRel_mono {D D' : Nat → Expr K → Prop} (h : ∀ n e, D n e → D' n e) {a : Option Nat} {b : Option (Expr K)} (hr : Option.Rel D a b) : Option.Rel D' a b := by
  cases hr with
  | none => exact Option.Rel.none
  | some h' => exact Option.Rel.some (h _ _ h')

theorem SameBy.mono {D D' : Nat → Expr K → Prop} (h : ∀ n e, D n e → D' n e) {items : List (Item K)} {p : PIL K} (hs : SameBy D items p) : SameBy D' items p where
  pol := hs.pol.imp h
  plookup := hs.plookup.imp fun _ _ ⟨a, b, c, d⟩ => ⟨optRel_mono h a, b.imp h, optRel_mono h c, d.imp h⟩
  perm := hs.perm.imp fun _ _ ⟨a, b, c, d⟩ => ⟨optRel_mono h a, b.imp h, optRel_mono h c, d.imp h⟩
  conn := hs.conn.imp fun _ _ ⟨a, b⟩ => ⟨a.imp h, b.imp h⟩

/-- the publics exported so far -/
def PubsAt (ids : Nat → Option Nat) (p : PIL K) (ds : List PubDecl) : Prop :=
  List.Forall₂ (fun q (d : PubDecl) => q.name = d.name ∧ q.idx = d.index ∧ ∃ i, (d.ptype = .intermediate → ids (d.polId + d.arrayIndex.getD 0) = some i) ∧
    (d.ptype ≠ .intermediate → i = d.polId + d.arrayIndex.getD 0) ∧ q.polId = i ∧ typeName (typeStr d.ptype) = some q.polType) p.publics ds

/-- one item -/
theorem item_ok {p : PIL K} {dn : List (Item K)} {it : Item K} (hI : Inv ids pid p (allExprs dn)) (hS : SameBy (At (allExprs dn)) dn p)
    (hP : PubsAt ids p (pubDecls dn)) (hjs : ∀ x ∈ itemExprs it, ∃ d j, toJson ids pid x.2.2 = some (d, j))
    (hlen : ∀ id len vals, it = .inter id len vals → vals.length = len.getD 1 ∧ ∀ i < vals.length, ids (id + i) = some ((allExprs dn).length + i))
    (hpub : ∀ d, it = .pub d → d.ptype = .intermediate → (ids (d.polId + d.arrayIndex.getD 0)).isSome)
    (hpol : ∀ l r, it = .identity .polynomial l r → l.selector.isSome) :
    ∃ p', exportItem ids pid p it = some p' ∧ Inv ids pid p' (allExprs (dn ++ [it])) ∧ SameBy (At (allExprs (dn ++ [it]))) (dn ++ [it]) p' ∧
      PubsAt ids p' (pubDecls (dn ++ [it])) := by
  have hT : allExprs (dn ++ [it]) = allExprs dn ++ itemExprs it := by simp [allExprs]
  have hD : pubDecls (dn ++ [it]) = pubDecls dn ++ pubDecls [it] := by simp [pubDecls, List.filterMap_append]
  rw [hT, hD]
  have hm : ∀ n e, At (allExprs dn) n e → At (allExprs dn ++ itemExprs it) n e := fun _ _ h => h.mono _
  cases it with
  | other =>
    refine ⟨p, rfl, by simpa [itemExprs] using hI, ?_, by simpa [pubDecls] using hP⟩
    refine ⟨?_, ?_, ?_, ?_⟩
    · simpa [List.filterMap_append] using (hS.mono hm).pol
    · simpa [List.filterMap_append] using (hS.mono hm).plookup
    · simpa [List.filterMap_append] using (hS.mono hm).perm
    · simpa [List.filterMap_append] using (hS.mono hm).conn
  | inter id len vals =>
    obtain ⟨h1, h2⟩ := hlen id len vals rfl
    obtain ⟨p', g1, g2, f1, f2, f3, f4, f5⟩ := exportInter_ok vals id 0 hI (fun e he => by
      obtain ⟨i, hi, rfl⟩ := List.getElem_of_mem he
      exact hjs (some (id + i), 1, vals[i]) (List.mem_map.mpr ⟨(vals[i], i), by
        rw [List.mem_zipIdx_iff_getElem?]; exact List.getElem?_eq_getElem hi, rfl⟩)) (fun i hi => by rw [Nat.zero_add]; exact h2 i hi)
    refine ⟨p', ?_, g2, ⟨?_, ?_, ?_, ?_⟩, ?_⟩
    · rw [exportItem, ← h1, List.take_length]
      exact g1
    · rw [f2]; simpa [List.filterMap_append] using (hS.mono hm).pol
    · rw [f3]; simpa [List.filterMap_append] using (hS.mono hm).plookup
    · rw [f4]; simpa [List.filterMap_append] using (hS.mono hm).perm
    · rw [f5]; simpa [List.filterMap_append] using (hS.mono hm).conn
    · unfold PubsAt; rw [f1, show pubDecls dn ++ pubDecls [Item.inter id len vals] = pubDecls dn by simp [pubDecls]]; exact hP
  | pub d =>
    have : ∃ i, (if d.ptype = .intermediate then ids (d.polId + d.arrayIndex.getD 0) else some (d.polId + d.arrayIndex.getD 0)) = some i := by
      by_cases h : d.ptype = .intermediate
      · rw [if_pos h]
        exact Option.isSome_iff_exists.mp (hpub d rfl h)
      · rw [if_neg h]
        exact ⟨_, rfl⟩
    obtain ⟨i, hi⟩ := this
    have ht : ∃ t, typeName (typeStr d.ptype) = some t := by
      cases d.ptype
      · exact ⟨_, rfl⟩
      · exact ⟨_, rfl⟩
      · exact ⟨_, rfl⟩
    obtain ⟨t, ht⟩ := ht
    refine ⟨{ p with publics := p.publics ++ [⟨t, i, d.index, p.publics.length, d.name⟩] }, ?_, ?_, ?_, ?_⟩
    · rw [exportItem, refJson, hi]
      show (typeName (typeStr d.ptype)).bind _ = _
      rw [ht]
      rfl
    · rw [itemExprs, List.append_nil]
      refine ⟨hI.rel, hI.q, fun n q hq => ?_⟩
      rcases Nat.lt_or_ge n p.publics.length with hn | hn
      · exact hI.num n q (by rw [← hq]; exact (List.getElem?_append_left hn).symm)
      · have h1 : (p.publics ++ [(⟨t, i, d.index, p.publics.length, d.name⟩ : Public)])[n]? = some q := hq
        rw [List.getElem?_append_right hn] at h1
        have h2 := (List.getElem?_eq_some_iff.mp h1).1
        rw [List.length_singleton] at h2
        rw [List.mem_singleton.mp (List.mem_of_getElem? h1)]
        show p.publics.length = n
        omega
    · refine ⟨?_, ?_, ?_, ?_⟩
      · simpa [List.filterMap_append] using (hS.mono hm).pol
      · simpa [List.filterMap_append] using (hS.mono hm).plookup
      · simpa [List.filterMap_append] using (hS.mono hm).perm
      · simpa [List.filterMap_append] using (hS.mono hm).conn
    · refine forall₂_snoc (fun _ _ h => h) hP ⟨rfl, rfl, i, fun h => ?_, fun h => ?_, rfl, ht⟩
      · rwa [if_pos h] at hi
      · rw [if_neg h] at hi
        exact (Option.some.inj hi).symm
  | identity kind l r =>
    have hjs' : ∀ e, (e ∈ l.expressions ∨ e ∈ l.selector ∨ e ∈ r.expressions ∨ e ∈ r.selector) → ∃ d j, toJson ids pid e = some (d, j) := by
      intro e he
      have : ∃ o m, (o, m, e) ∈ itemExprs (.identity kind l r) := by
        simp only [itemExprs, List.mem_append, List.mem_map, Option.mem_toList]
        rcases he with h | h | h | h
        · exact ⟨none, 1, Or.inl (Or.inl (Or.inl ⟨e, h, rfl⟩))⟩
        · exact ⟨none, _, Or.inl (Or.inl (Or.inr ⟨e, h, rfl⟩))⟩
        · exact ⟨none, 1, Or.inl (Or.inr ⟨e, h, rfl⟩)⟩
        · exact ⟨none, 1, Or.inr ⟨e, h, rfl⟩⟩
      obtain ⟨o, m, h⟩ := this
      exact hjs _ h
    obtain ⟨p1, left, a1, a2, a3, a4⟩ := extractVec_ok 1 l.expressions hI fun e h => hjs' e (Or.inl h)
    obtain ⟨p2, selL, b1, b2, b3, b4⟩ := extractOpt_ok a2 (if kind = .polynomial then 2 else 1) (o := l.selector) fun e h => hjs' e (Or.inr (Or.inl h))
    obtain ⟨p3, right, c1, c2, c3, c4⟩ := extractVec_ok 1 r.expressions b2 fun e h => hjs' e (Or.inr (Or.inr (Or.inl h)))
    obtain ⟨p4, selR, d1, d2, d3, d4⟩ := extractOpt_ok c2 1 (o := r.selector) fun e h => hjs' e (Or.inr (Or.inr (Or.inr h)))
    have hT' : allExprs dn ++ itemExprs (.identity kind l r) = allExprs dn ++ l.expressions.map (fun e => (none, 1, e)) ++
        l.selector.toList.map (fun e => (none, if kind = .polynomial then 2 else 1, e)) ++ r.expressions.map (fun e => (none, 1, e)) ++
        r.selector.toList.map (fun e => (none, 1, e)) := by
      simp only [itemExprs, List.append_assoc]
    rw [hT'] at hm ⊢
    replace c4 := c4.imp fun n e h => At.mono h (r.selector.toList.map fun e => (none, 1, e))
    replace b4 := optRel_mono (fun n e h => At.mono (At.mono h (r.expressions.map fun e => (none, 1, e))) (r.selector.toList.map fun e => (none, 1, e))) b4
    replace a4 := a4.imp fun n e h => At.mono (At.mono (At.mono h (l.selector.toList.map fun e => (none, if kind = .polynomial then 2 else 1, e)))
      (r.expressions.map fun e => (none, 1, e))) (r.selector.toList.map fun e => (none, 1, e))
    obtain ⟨f1, f2, f3, f4, f5⟩ := ((a3.trans b3).trans c3).trans d3
    have hrun : ∀ q, (match kind with
        | .polynomial => selL.map fun e => { p4 with pol := p4.pol ++ [e] }
        | .plookup => some { p4 with plookup := p4.plookup ++ [(selL, left, selR, right)] }
        | .permutation => some { p4 with perm := p4.perm ++ [(selL, left, selR, right)] }
        | .connect => some { p4 with conn := p4.conn ++ [(left, right)] }) = some q → exportItem ids pid p (.identity kind l r) = some q := by
      intro q hq
      rw [exportItem, a1]
      show (extractOpt ids pid p1 _ l.selector).bind _ = _
      rw [b1]
      show (extractVec ids pid p2 1 r.expressions).bind _ = _
      rw [c1]
      show (extractOpt ids pid p3 1 r.selector).bind _ = _
      rw [d1]
      exact hq
    have hS' := hS.mono hm
    have hD2 : pubDecls dn ++ pubDecls [Item.identity kind l r] = pubDecls dn := by simp [pubDecls]
    cases kind with
    | polynomial =>
      obtain ⟨e, he⟩ := Option.isSome_iff_exists.mp (hpol l r rfl)
      rw [he] at b4
      cases b4 with
      | some hb =>
        rename_i n
        refine ⟨_, hrun _ rfl, ⟨d2.rel, d2.q, d2.num⟩, ⟨?_, ?_, ?_, ?_⟩, ?_⟩
        · show List.Forall₂ _ (p4.pol ++ [n]) _
          rw [f2, List.filterMap_append]
          simp only [List.filterMap_cons, List.filterMap_nil, he]
          rw [he] at hS'
          exact forall₂_snoc (fun _ _ h => h) hS'.pol hb
        · show List.Forall₂ _ p4.plookup _
          rw [f3]; simpa [List.filterMap_append] using hS'.plookup
        · show List.Forall₂ _ p4.perm _
          rw [f4]; simpa [List.filterMap_append] using hS'.perm
        · show List.Forall₂ _ p4.conn _
          rw [f5]; simpa [List.filterMap_append] using hS'.conn
        · show List.Forall₂ _ p4.publics _
          rw [f1, hD2]; exact hP
    | plookup =>
      refine ⟨_, hrun _ rfl, ⟨d2.rel, d2.q, d2.num⟩, ⟨?_, ?_, ?_, ?_⟩, ?_⟩
      · show List.Forall₂ _ p4.pol _
        rw [f2]; simpa [List.filterMap_append] using hS'.pol
      · show List.Forall₂ _ (p4.plookup ++ [_]) _
        rw [f3, List.filterMap_append]
        exact forall₂_snoc (fun _ _ h => h) hS'.plookup ⟨b4, a4, d4, c4⟩
      · show List.Forall₂ _ p4.perm _
        rw [f4]; simpa [List.filterMap_append] using hS'.perm
      · show List.Forall₂ _ p4.conn _
        rw [f5]; simpa [List.filterMap_append] using hS'.conn
      · show List.Forall₂ _ p4.publics _
        rw [f1, hD2]; exact hP
    | permutation =>
      refine ⟨_, hrun _ rfl, ⟨d2.rel, d2.q, d2.num⟩, ⟨?_, ?_, ?_, ?_⟩, ?_⟩
      · show List.Forall₂ _ p4.pol _
        rw [f2]; simpa [List.filterMap_append] using hS'.pol
      · show List.Forall₂ _ p4.plookup _
        rw [f3]; simpa [List.filterMap_append] using hS'.plookup
      · show List.Forall₂ _ (p4.perm ++ [_]) _
        rw [f4, List.filterMap_append]
        exact forall₂_snoc (fun _ _ h => h) hS'.perm ⟨b4, a4, d4, c4⟩
      · show List.Forall₂ _ p4.conn _
        rw [f5]; simpa [List.filterMap_append] using hS'.conn
      · show List.Forall₂ _ p4.publics _
        rw [f1, hD2]; exact hP
    | connect =>
      refine ⟨_, hrun _ rfl, ⟨d2.rel, d2.q, d2.num⟩, ⟨?_, ?_, ?_, ?_⟩, ?_⟩
      · show List.Forall₂ _ p4.pol _
        rw [f2]; simpa [List.filterMap_append] using hS'.pol
      · show List.Forall₂ _ p4.plookup _
        rw [f3]; simpa [List.filterMap_append] using hS'.plookup
      · show List.Forall₂ _ p4.perm _
        rw [f4]; simpa [List.filterMap_append] using hS'.perm
      · show List.Forall₂ _ (p4.conn ++ [_]) _
        rw [f5, List.filterMap_append]
        exact forall₂_snoc (fun _ _ h => h) hS'.conn ⟨a4, c4⟩
      · show List.Forall₂ _ p4.publics _
        rw [f1, hD2]; exact hP

end Run

/-! #### The numbers computed in advance -/

/-- the map and the counter after the expressions `T` -/
structure IdInv (s : Nat × (Nat → Option Nat)) (T : List (Option Nat × Nat × Expr K)) : Prop where
  c : s.1 = T.length
  ids : ∀ k n, s.2 k = some n ↔ ∃ x, T[n]? = some x ∧ x.1 = some k

theorem idInv_none {s : Nat × (Nat → Option Nat)} {T l : List (Option Nat × Nat × Expr K)} (h : IdInv s T) (hl : ∀ x ∈ l, x.1 = none) :
    IdInv (s.1 + l.length, s.2) (T ++ l) where
  c := by simp [h.c]
  ids k n := by
    rw [h.ids]
    constructor
    · rintro ⟨x, h1, h2⟩
      exact ⟨x, by rw [List.getElem?_append_left (List.getElem?_eq_some_iff.mp h1).1, h1], h2⟩
    · rintro ⟨x, h1, h2⟩
      by_cases hn : n < T.length
      · rw [List.getElem?_append_left hn] at h1
        exact ⟨x, h1, h2⟩
      · rw [List.getElem?_append_right (by omega)] at h1
        rw [hl x (List.mem_of_getElem? h1)] at h2
        cases h2

theorem idInv_one {c : Nat} {m : Nat → Option Nat} {T : List (Option Nat × Nat × Expr K)} (h : IdInv (c, m) T) {k : Nat} (hk : ∀ x ∈ T, x.1 ≠ some k) (y : Nat × Expr K) :
    IdInv (c + 1, ins m k c) (T ++ [(some k, y)]) where
  c := by have := h.c; simp at this; simp [this]
  ids k' n := by
    have hc : c = T.length := h.c
    show (if k' = k then some c else m k') = some n ↔ _
    by_cases hkk : k' = k
    · subst hkk
      rw [if_pos rfl]
      constructor
      · intro e
        cases e
        exact ⟨(some k', y), by rw [hc]; simp, rfl⟩
      · rintro ⟨x, h1, h2⟩
        by_cases hn : n < T.length
        · rw [List.getElem?_append_left hn] at h1
          exact absurd h2 (hk x (List.mem_of_getElem? h1))
        · have := (List.getElem?_eq_some_iff.mp h1).1
          rw [List.length_append, List.length_singleton] at this
          rw [hc, show T.length = n by omega]
    · rw [if_neg hkk, show m k' = some n ↔ _ from h.ids k' n]
      constructor
      · rintro ⟨x, h1, h2⟩
        exact ⟨x, by rw [List.getElem?_append_left (List.getElem?_eq_some_iff.mp h1).1, h1], h2⟩
      · rintro ⟨x, h1, h2⟩
        by_cases hn : n < T.length
        · rw [List.getElem?_append_left hn] at h1
          exact ⟨x, h1, h2⟩
        · rw [List.getElem?_append_right (by omega)] at h1
          have := List.mem_of_getElem? h1
          rw [List.mem_singleton.mp this] at h2
          exact absurd (Option.some.inj h2).symm hkk

theorem idInv_inter {c : Nat} {m : Nat → Option Nat} {T : List (Option Nat × Nat × Expr K)} (h : IdInv (c, m) T) (id : Nat) (vals : List (Expr K))
    (hnd : ((T ++ vals.zipIdx.map fun x : Expr K × Nat => (some (id + x.2), 1, x.1)).filterMap fun x : Option Nat × Nat × Expr K => x.1).Nodup) :
    IdInv (c + vals.length, (List.range vals.length).foldl (fun m i => ins m (id + i) (c + i)) m) (T ++ vals.zipIdx.map fun x => (some (id + x.2), 1, x.1)) := by
  induction vals using List.reverseRecOn with
  | nil => simpa using h
  | append_singleton vals e ih =>
    rw [List.zipIdx_append, List.map_append, ← List.append_assoc] at hnd ⊢
    rw [List.filterMap_append, List.nodup_append] at hnd
    obtain ⟨h1, -, h3⟩ := hnd
    rw [List.length_append, List.length_singleton, List.range_succ, List.foldl_append]
    have h0 := ih h1
    have := idInv_one h0 (k := id + vals.length) (fun x hx hxk => h3 _ (List.mem_filterMap.mpr ⟨x, hx, hxk⟩) (id + vals.length) (by simp) rfl) (1, e)
    simpa [Nat.add_assoc] using this

theorem computeIds_spec {items : List (Item K)} (hlen : ∀ id len vals, Item.inter id len vals ∈ items → vals.length = len.getD 1)
    (hnd : ((allExprs items).filterMap (·.1)).Nodup) : IdInv (items.foldl idsStep (0, fun _ => none)) (allExprs items) := by
  induction items using List.reverseRecOn with
  | nil => exact ⟨rfl, by simp [allExprs]⟩
  | append_singleton dn it ih =>
    have hT : allExprs (dn ++ [it]) = allExprs dn ++ itemExprs it := by simp [allExprs]
    rw [hT] at hnd ⊢
    have hnd' := hnd
    rw [List.filterMap_append, List.nodup_append] at hnd'
    have h0 := ih (fun id len vals h => hlen id len vals (List.mem_append_left _ h)) hnd'.1
    rw [List.foldl_append, List.foldl_cons, List.foldl_nil]
    generalize dn.foldl idsStep (0, fun _ => none) = s at h0 ⊢
    cases it with
    | other => simpa [idsStep, itemCount, itemExprs] using h0
    | pub d => simpa [idsStep, itemCount, itemExprs] using h0
    | inter id len vals =>
      have hl := hlen id len vals (by simp)
      have := idInv_inter (c := s.1) (m := s.2) h0 id vals hnd
      rw [hl] at this
      exact this
    | identity kind l r =>
      have := idInv_none (l := itemExprs (.identity kind l r)) h0 (by
        intro x hx
        simp only [itemExprs, List.mem_append, List.mem_map] at hx
        rcases hx with ((⟨e, -, rfl⟩ | ⟨e, -, rfl⟩) | ⟨e, -, rfl⟩) | ⟨e, -, rfl⟩ <;> rfl)
      have hc : (itemExprs (.identity kind l r)).length = itemCount (.identity kind l r) := by
        simp only [itemExprs, itemCount, selCount, List.length_append, List.length_map]
        cases l.selector <;> cases r.selector <;> simp <;> omega
      rw [hc] at this
      exact this

/-! #### The whole export -/

/-- what the run of `export` leaves -/
theorem export_run {items : List (Item K)} (hw : Wf items) : ∃ p, export_ items = some p ∧
    Inv (computeIds items) (fun name => ((pubDecls items).find? fun d => d.name = name).map (·.id)) p (allExprs items) ∧
    SameBy (At (allExprs items)) items p ∧ PubsAt (computeIds items) p (pubDecls items) := by
  have hid := (computeIds_spec hw.len hw.nodup).ids
  change ∀ k n, computeIds items k = some n ↔ _ at hid
  have hsome : ∀ k, (∃ x ∈ allExprs items, x.1 = some k) → (computeIds items k).isSome := by
    rintro k ⟨x, hx, hk⟩
    obtain ⟨n, hn, rfl⟩ := List.getElem_of_mem hx
    exact Option.isSome_iff_exists.mpr ⟨n, (hid k n).mpr ⟨_, List.getElem?_eq_getElem hn, hk⟩⟩
  have hpid : ∀ s, (∃ d ∈ pubDecls items, d.name = s) → (((pubDecls items).find? fun d => d.name = s).map (·.id)).isSome := by
    rintro s ⟨d, hd, hs⟩
    rw [Option.isSome_map, List.find?_isSome]
    exact ⟨d, hd, by simpa using hs⟩
  have hjs : ∀ x ∈ allExprs items, ∃ d j, toJson (computeIds items) (fun name => ((pubDecls items).find? fun d => d.name = name).map (·.id)) x.2.2 = some (d, j) :=
    fun x hx => toJson_some hsome hpid _ (hw.closed x hx)
  unfold export_
  generalize (fun name => ((pubDecls items).find? fun d => d.name = name).map (·.id)) = pid at hjs ⊢
  have main : ∀ dn, dn <+: items → ∃ p, dn.foldlM (exportItem (computeIds items) pid) {} = some p ∧ Inv (computeIds items) pid p (allExprs dn) ∧
      SameBy (At (allExprs dn)) dn p ∧ PubsAt (computeIds items) p (pubDecls dn) := by
    intro dn
    induction dn using List.reverseRecOn with
    | nil => exact fun _ => ⟨{}, rfl, ⟨List.Forall₂.nil, rfl, by intro i q h; simp at h⟩, ⟨List.Forall₂.nil, List.Forall₂.nil, List.Forall₂.nil, List.Forall₂.nil⟩, List.Forall₂.nil⟩
    | append_singleton dn it ih =>
      intro hpre
      obtain ⟨p, h1, h2, h3, h4⟩ := ih ((List.prefix_append _ _).trans hpre)
      obtain ⟨rest, hrest⟩ := hpre
      have hall : allExprs items = allExprs dn ++ (itemExprs it ++ allExprs rest) := by
        rw [← hrest]
        simp [allExprs]
      have hmem : it ∈ items := by rw [← hrest]; simp
      obtain ⟨p', g1, g2⟩ := item_ok h2 h3 h4 (it := it) (fun x hx => hjs x (by rw [hall]; simp [hx]))
        (fun id len vals e => by
          subst e
          have hl := hw.len id len vals hmem
          refine ⟨hl, fun i hi => (hid _ _).mpr ⟨(some (id + i), 1, vals[i]), ?_, rfl⟩⟩
          rw [hall, List.getElem?_append_right (by omega), Nat.add_sub_cancel_left, List.getElem?_append_left (by simpa [itemExprs] using hi)]
          simp [itemExprs, List.getElem?_zipIdx, List.getElem?_eq_getElem hi])
        (fun d e ht => hsome _ (hw.pubCols d (by subst e; exact List.mem_filterMap.mpr ⟨_, hmem, rfl⟩) ht))
        (fun l r e => hw.pol l r (by subst e; exact hmem))
      refine ⟨p', ?_, g2⟩
      rw [List.foldlM_append, h1, Option.bind_eq_bind, Option.bind_some, List.foldlM_cons, g1]
      rfl
  exact main items (List.prefix_refl _)

theorem forall₂_get {α β : Type} {R : α → β → Prop} {l : List α} {m : List β} (h : List.Forall₂ R l m) {n : Nat} {a : α} (ha : l[n]? = some a) :
    ∃ b, m[n]? = some b ∧ R a b := by
  induction h generalizing n with
  | nil => simp at ha
  | cons hab _ ih =>
    cases n with
    | zero =>
      rw [List.getElem?_cons_zero] at ha
      cases ha
      exact ⟨_, List.getElem?_cons_zero, hab⟩
    | succ n => exact ih ha

theorem forall₂_get' {α β : Type} {R : α → β → Prop} {l : List α} {m : List β} (h : List.Forall₂ R l m) {n : Nat} {b : β} (hb : m[n]? = some b) :
    ∃ a, l[n]? = some a ∧ R a b := forall₂_get h.flip hb

/-- **C133**: for every analyzed program: the export does not panic - in particular the number of every intermediate column is the one computed in advance -
and the exported program says the same as the source: for all columns, publics and challenges, every way to fill the intermediate columns of the source as
they are defined gives values of the exported expressions, and the reverse, for which the identities and publics of both mean the same -/
theorem export_same [Ring K] {items : List (Item K)} (hw : Wf items) : ∃ p, export_ items = some p ∧ (∀ i (q : Public), p.publics[i]? = some q → q.id = i) ∧
    ∀ (v : Env K) (pubS : String → K) (pubJ : Nat → K), (∀ i q, p.publics[i]? = some q → pubJ i = pubS q.name) →
      (∀ im, SrcOk v pubS im items → ∃ ex, OutOk v pubJ ex p ∧ Same v pubS im ex items p) ∧
      (∀ ex, OutOk v pubJ ex p → ∃ im, SrcOk v pubS im items ∧ Same v pubS im ex items p) := by
  obtain ⟨p, h1, h2, h3, h4⟩ := export_run hw
  have hid := (computeIds_spec hw.len hw.nodup).ids
  change ∀ k n, computeIds items k = some n ↔ _ at hid
  refine ⟨p, h1, h2.num, fun v pubS pubJ hpub => ?_⟩
  have hpid : ∀ s n, (((pubDecls items).find? fun d => d.name = s).map (·.id)) = some n → pubJ n = pubS s := by
    intro s n h
    obtain ⟨d, hd, rfl⟩ := Option.map_eq_some_iff.mp h
    have hs : d.name = s := by simpa using List.find?_some hd
    obtain ⟨i, hi, rfl⟩ := List.getElem_of_mem (List.mem_of_find?_eq_some hd)
    have hi' := List.getElem?_eq_getElem hi
    obtain ⟨q, hq, hqn, -⟩ := forall₂_get' h4 hi'
    rw [hw.pubs i _ hi', hpub i q hq, hqn, hs]
  have same : ∀ im ex, (∀ k n, computeIds items k = some n → ex n = im k) → (∀ n x, (allExprs items)[n]? = some x → ∀ row, ex n row = evalE v pubS im row x.2.2) →
      Same v pubS im ex items p := by
    intro im ex hc hx
    refine ⟨h3.mono ?_, h4.imp ?_⟩
    · rintro n e ⟨x, hx', rfl⟩ row
      exact hx n x hx' row
    · rintro q d ⟨e1, e2, i, e3, e4, e5, e6⟩
      refine ⟨e1, e2, ?_⟩
      unfold pubCol
      cases hd : d.ptype with
      | committed =>
        rw [hd] at e6
        have e7 : "cmP" = q.polType := Option.some.inj e6
        rw [e5, e4 (by rw [hd]; decide), ← e7]
        exact ⟨_, rfl, fun _ => rfl⟩
      | constant =>
        rw [hd] at e6
        have e7 : "constP" = q.polType := Option.some.inj e6
        rw [e5, e4 (by rw [hd]; decide), ← e7]
        exact ⟨_, rfl, fun _ => rfl⟩
      | intermediate =>
        rw [hd] at e6
        have e7 : "imP" = q.polType := Option.some.inj e6
        rw [e5, ← e7]
        exact ⟨_, rfl, fun row => congrFun (hc _ _ (e3 hd)) row⟩
  constructor
  · intro im him
    have key : ∃ ex : Nat → Nat → K, ∀ n x, (allExprs items)[n]? = some x → ∀ row, ex n row = evalE v pubS im row x.2.2 := by
      refine ⟨fun n row => match (allExprs items)[n]? with | some x => evalE v pubS im row x.2.2 | none => 0, fun n x hx row => ?_⟩
      dsimp only
      rw [hx]
    obtain ⟨ex, hx⟩ := key
    have hc : ∀ k n, computeIds items k = some n → ex n = im k := by
      intro k n hk
      obtain ⟨x, hx1, hx2⟩ := (hid k n).mp hk
      funext row
      rw [hx n x hx1 row]
      have hm := List.mem_of_getElem? hx1
      obtain ⟨it, hit, hxi⟩ := List.mem_flatMap.mp hm
      cases it with
      | other => simp [itemExprs] at hxi
      | pub d => simp [itemExprs] at hxi
      | identity kind l r =>
        simp only [itemExprs, List.mem_append, List.mem_map] at hxi
        rcases hxi with ((⟨e, -, rfl⟩ | ⟨e, -, rfl⟩) | ⟨e, -, rfl⟩) | ⟨e, -, rfl⟩ <;> cases hx2
      | inter id len vals =>
        obtain ⟨⟨e, i⟩, hei, rfl⟩ := List.mem_map.mp hxi
        have := him id len vals hit i e (List.mem_zipIdx_iff_getElem?.mp hei) row
        cases hx2
        exact this.symm
    refine ⟨ex, ?_, same im ex hc hx⟩
    intro n j hj row
    obtain ⟨x, hx1, d, j0, hj0, hor⟩ := forall₂_get h2.rel hj
    rw [hx n x hx1 row]
    rcases hor with ⟨q, rfl, -⟩ | ⟨rfl, -⟩
    · rw [evalJ_setQ]
      exact toJson_eval hc hpid row _ hj0
    · exact toJson_eval hc hpid row _ hj0
  · intro ex hex
    obtain ⟨im, hc⟩ : ∃ im : Nat → Nat → K, ∀ k n, computeIds items k = some n → ex n = im k := by
      refine ⟨fun k => match computeIds items k with | some n => ex n | none => fun _ => 0, fun k n hk => ?_⟩
      dsimp only
      rw [hk]
    have hx : ∀ n x, (allExprs items)[n]? = some x → ∀ row, ex n row = evalE v pubS im row x.2.2 := by
      intro n x hx row
      obtain ⟨j, hj, d, j0, hj0, hor⟩ := forall₂_get' h2.rel hx
      have e1 := hex n j hj row
      have e2 := toJson_eval (v := v) hc hpid row _ hj0
      rcases hor with ⟨q, rfl, -⟩ | ⟨rfl, -⟩
      · rw [evalJ_setQ, e2] at e1
        exact (Option.some.inj e1).symm
      · rw [e2] at e1
        exact (Option.some.inj e1).symm
    refine ⟨im, ?_, same im ex hc hx⟩
    intro id len vals hit i e he row
    have hm : (some (id + i), 1, e) ∈ allExprs items :=
      List.mem_flatMap.mpr ⟨_, hit, List.mem_map.mpr ⟨(e, i), List.mem_zipIdx_iff_getElem?.mpr he, rfl⟩⟩
    obtain ⟨n, hn, hne⟩ := List.getElem_of_mem hm
    have hn' : (allExprs items)[n]? = some (some (id + i), 1, e) := by rw [List.getElem?_eq_getElem hn, hne]
    rw [← congrFun (hc (id + i) n ((hid _ _).mpr ⟨_, hn', rfl⟩)) row, hx n _ hn' row]

/-- **C133, the quotients**: exactly the expressions whose degree exceeds what is allowed of them get a quotient, numbered from 0 in order -/
theorem export_quotients {items : List (Item K)} (hw : Wf items) : ∃ p : PIL K, export_ items = some p ∧ p.expressions.length = (allExprs items).length ∧
    p.expressions.filterMap (fun j : J K => j.head.idQ) = List.range p.nQ ∧
    ∀ (n : Nat) (j : J K) (x : Option Nat × Nat × Expr K), p.expressions[n]? = some j → (allExprs items)[n]? = some x → (j.head.idQ.isSome ↔ x.2.1 < degree x.2.2) := by
  obtain ⟨p, h1, h2, -, -⟩ := export_run hw
  refine ⟨p, h1, h2.rel.length_eq, h2.q, fun n j x hj hx => ?_⟩
  obtain ⟨x', hx', d, j0, hj0, hor⟩ := forall₂_get h2.rel hj
  rw [hx] at hx'
  cases hx'
  obtain ⟨hd, hq⟩ := toJson_degree _ hj0
  rcases hor with ⟨q, rfl, hlt⟩ | ⟨rfl, hlt⟩
  · rw [setQ_idQ]
    exact ⟨fun _ => hd ▸ hlt, fun _ => rfl⟩
  · rw [hq]
    exact ⟨fun h => (by cases h), fun h => absurd (hd ▸ h) hlt⟩

/-! ### Non-vacuity -/

/-- an array of two intermediate columns, used by an identity, a lookup and a public, before and after -/
def exItems : List (Item ℤ) := [.other,
  .identity .polynomial ⟨some (.bin .sub (.ref .intermediate 7 true) (.ref .committed 0 false)), []⟩ ⟨none, []⟩,
  .inter 6 (some 2) [.bin .mul (.ref .committed 0 false) (.ref .committed 1 true), .bin .add (.ref .intermediate 6 false) (.num 3)],
  .pub ⟨0, "out", .intermediate, 6, some 1, 5⟩,
  .identity .plookup ⟨some (.ref .constant 2 false), [.ref .intermediate 6 false, .pub "out"]⟩ ⟨none, [.ref .committed 1 false, .chal 4]⟩]

theorem exWf : Wf exItems where
  len := by
    intro id len vals h
    simp only [exItems, List.mem_cons, List.not_mem_nil, or_false, reduceCtorEq, false_or, Item.inter.injEq] at h
    obtain ⟨-, rfl, rfl⟩ := h
    rfl
  nodup := by decide
  pubs := by
    intro i d h
    have h' : [(⟨0, "out", .intermediate, 6, some 1, 5⟩ : PubDecl)][i]? = some d := h
    cases i with
    | zero => cases h'; rfl
    | succ i => simp at h'
  closed := by
    have h6 : ∃ x ∈ allExprs exItems, x.1 = some 6 := ⟨_, List.mem_cons_of_mem _ List.mem_cons_self, rfl⟩
    have h7 : ∃ x ∈ allExprs exItems, x.1 = some 7 := ⟨_, List.mem_cons_of_mem _ (List.mem_cons_of_mem _ List.mem_cons_self), rfl⟩
    have hp : ∃ d ∈ pubDecls exItems, d.name = "out" := ⟨_, List.mem_cons_self, rfl⟩
    intro x hx
    simp only [allExprs, exItems, itemExprs, List.flatMap_cons, List.flatMap_nil, Option.toList, List.map_cons, List.map_nil, List.nil_append, List.append_nil,
      List.cons_append, List.zipIdx_cons, List.zipIdx_nil, List.mem_cons, List.not_mem_nil, or_false] at hx
    rcases hx with rfl | rfl | rfl | rfl | rfl | rfl | rfl | rfl
    · exact ⟨h7, trivial⟩
    · exact ⟨trivial, trivial⟩
    · exact ⟨h6, trivial⟩
    · exact h6
    · exact hp
    · trivial
    · trivial
    · trivial
  pubCols := by
    intro d hd _
    have hd' : d ∈ [(⟨0, "out", .intermediate, 6, some 1, 5⟩ : PubDecl)] := hd
    rw [List.mem_singleton.mp hd']
    exact ⟨_, List.mem_cons_of_mem _ (List.mem_cons_of_mem _ List.mem_cons_self), rfl⟩
  pol := by
    intro l r h
    simp only [exItems, List.mem_cons, List.not_mem_nil, or_false, reduceCtorEq, false_or, Item.identity.injEq, true_and, false_and] at h
    obtain ⟨rfl, -⟩ := h
    rfl

example : ∃ p, export_ exItems = some p ∧ p.pol = [0] ∧ p.plookup = [(some 5, [3, 4], none, [6, 7])] ∧ p.nQ = 1 ∧
    p.publics.map (fun q => (q.polType, q.polId, q.idx, q.id, q.name)) = [("imP", 2, 5, 0, "out")] := ⟨_, rfl, rfl, rfl, rfl, rfl⟩

example : ∃ p, export_ exItems = some p ∧ p.expressions.length = 8 :=
  let ⟨p, h, hl, _⟩ := export_quotients exWf
  ⟨p, h, hl⟩

end Verif.Pil.Export
