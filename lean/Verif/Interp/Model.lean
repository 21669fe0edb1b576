import Mathlib.Data.List.Basic

/-!
# Model of the expression interpreter, starky/src/interpreter.rs

`none` is a panic (`unwrap` on `None`, out-of-range index, `panic!`, failed assertion).  Symbols that the code spells as
strings ("tmp", "cm1_n", "add", "2ns", ...) are constructors here; a string outside the handled list is the constructor
`other`/`bad`.  Fields of `StarkContext` that the interpreter does not touch are left out.
-/
namespace Verif.Interp

/-- The operations of `FieldExtension` the interpreter uses (traits.rs): partial because `F3G` panics on unexpected
dimension tags (see `Verif.Ext3`).  `elems` is `as_elements`, `ofB` is `T::from`. -/
structure Alg (E B : Type) where
  add : E → E → Option E
  sub : E → E → Option E
  mul : E → E → Option E
  zero : E
  dim : E → Nat
  ofB : B → E
  fromVec : List B → Option E
  toBe : E → Option B
  elems : E → List B

/-- The section names accepted by `StarkContext::get_mut`, stark_gen.rs L147-176. -/
inductive Sec
  | tmp | cm1_n | cm1_2ns | cm2_n | cm2_2ns | cm3_n | cm3_2ns | cm4_n | cm4_2ns | q_2ns | f_2ns | publics | challenge
  | exps_n | exps_2ns | const_n | const_2ns | evals | x_n | x_2ns | tmpexp_n
deriving DecidableEq

/-- The symbols of `get_value`, interpreter.rs L235-281: a section, the two base-field sections and `Zi`. -/
inductive Sym
  | mem (s : Sec)
  | xDivXSubXi | xDivXSubWXi | Zi
deriving DecidableEq

/-- `StarkContext`, stark_gen.rs L40-95 (the fields the interpreter uses).  `mem s` is `get_mut(s)`. -/
structure Ctx (E B : Type) where
  nbits : Nat
  nbitsExt : Nat
  mem : Sec → List E
  xXi : List B
  xWXi : List B
  Zi : Nat → Option E

/-- A `Refer` expression: `syms[0]`, whether `syms[1] == "3"`, and `addr = (offset, next, modulas, size)`,
interpreter.rs L27-32. -/
structure Addr where
  sec : Sym
  dim3 : Bool
  offset : Nat
  next : Nat
  modulas : Nat
  size : Nat

/-- The operand expressions: an immediate `Vari(x)` or a `Refer`, interpreter.rs L10-20 -/
inductive Arg (E : Type)
  | vari (x : E)
  | ref (a : Addr)

/-- Instructions of a `Block`, interpreter.rs L10-20, with their `defs` operands. -/
inductive Op (E : Type)
  | vari (x : E)
  | add (a b : Arg E)
  | sub (a b : Arg E)
  | mul (a b : Arg E)
  | copy (a : Arg E)
  | write (a : Addr)
  | refer (a : Addr)
  | ret

/-- `get_i`, interpreter.rs L227-233 -/
def getI (a : Addr) (i : Nat) : Nat := a.offset + ((i + a.next) % a.modulas) * a.size

variable {E B : Type} (K : Alg E B)

/-- Three consecutive cells read as one extension element, interpreter.rs L258-262 -/
def vec3 (l : List E) (id : Nat) : Option E :=
  l[id]?.bind fun a => (K.toBe a).bind fun a => l[id + 1]?.bind fun b => (K.toBe b).bind fun b =>
  l[id + 2]?.bind fun c => (K.toBe c).bind fun c => K.fromVec [a, b, c]

/-- The same for a base-field section, interpreter.rs L268-276 -/
def vec3B (l : List B) (id : Nat) : Option E :=
  l[id]?.bind fun a => l[id + 1]?.bind fun b => l[id + 2]?.bind fun c => K.fromVec [a, b, c]

/-- `get_value`, interpreter.rs L235-281 (dimension 5 is never produced by `get_ref`/`eval_map`). -/
def getValue (c : Ctx E B) (a : Addr) (i : Nat) : Option E :=
  match a.sec with
  | .xDivXSubXi => vec3B K c.xXi (getI a i)
  | .xDivXSubWXi => vec3B K c.xWXi (getI a i)
  | .Zi => c.Zi i
  | .mem s => if a.dim3 then vec3 K (c.mem s) (getI a i) else (c.mem s)[getI a i]?

/-- `match expr.defs[0].op { Vari(x) => x, _ => get_value(..) }`, interpreter.rs L106-109 -/
def argValue (c : Ctx E B) (i : Nat) : Arg E → Option E
  | .vari x => some x
  | .ref a => getValue K c a i

/-- `val_addr[id] = v`: panics out of range. -/
def setCell (l : List E) (id : Nat) (v : E) : Option (List E) := if id < l.length then some (l.set id v) else none

/-- replace one section of the context -/
def Ctx.put (c : Ctx E B) (s : Sec) (l : List E) : Ctx E B := { c with mem := fun t => if t = s then l else c.mem t }

/-- `Ops::Write`, interpreter.rs L143-160.  `get_mut` panics on the sections that are not in its list. -/
def writeVal (c : Ctx E B) (a : Addr) (i : Nat) (v : E) : Option (Ctx E B) :=
  match a.sec with
  | .xDivXSubXi => none
  | .xDivXSubWXi => none
  | .Zi => none
  | .mem s =>
    if K.dim v = 1 ∨ s = .tmp then (setCell (c.mem s) (getI a i) v).map (c.put s)
    else
      (K.elems v)[0]?.bind fun v0 => (K.elems v)[1]?.bind fun v1 => (K.elems v)[2]?.bind fun v2 =>
      (setCell (c.mem s) (getI a i) (K.ofB v0)).bind fun l => (setCell l (getI a i + 1) (K.ofB v1)).bind fun l =>
      (setCell l (getI a i + 2) (K.ofB v2)).map (c.put s)

/-- `Block::eval`, interpreter.rs L85-165: the remaining instructions, the value stack (top first). -/
def evalLoop (i : Nat) : List (Op E) → List E → Ctx E B → Option (E × Ctx E B)
  | [], _, c => some (K.zero, c)
  | .ret :: _, st, c => st.head?.map fun v => (v, c)
  | .vari x :: r, st, c => evalLoop i r (x :: st) c
  | .add a b :: r, st, c =>
    (argValue K c i a).bind fun x => (argValue K c i b).bind fun y => (K.add x y).bind fun z => evalLoop i r (z :: st) c
  | .mul a b :: r, st, c =>
    (argValue K c i a).bind fun x => (argValue K c i b).bind fun y => (K.mul x y).bind fun z => evalLoop i r (z :: st) c
  | .sub a b :: r, st, c =>
    (argValue K c i a).bind fun x => (argValue K c i b).bind fun y => (K.sub x y).bind fun z => evalLoop i r (z :: st) c
  | .copy a :: r, st, c => (argValue K c i a).bind fun x => evalLoop i r (x :: st) c
  | .write a :: r, st, c =>
    match st with
    | [] => none
    | v :: st => (writeVal K c a i v).bind fun c => evalLoop i r st c
  | .refer a :: r, st, c => (getValue K c a i).bind fun x => evalLoop i r (x :: st) c

/-- `Block::eval`, interpreter.rs L85-165 -/
def eval (blk : List (Op E)) (c : Ctx E B) (i : Nat) : Option (E × Ctx E B) := evalLoop K i blk [] c

/-! ### `compile_code` -/

/-- `Node.type_`, starkinfo_codegen.rs L48-58 (the values the interpreter distinguishes) -/
inductive NodeTy
  | tmp | q | f | cm | tmpExp | const_ | number | public_ | challenge | eval | xDivXSubXi | xDivXSubWXi | x | Zi | other
deriving DecidableEq

/-- `Node`, starkinfo_codegen.rs L48-58 (the fields the interpreter uses); `value` is the result of
`parse_pil_number` on the text (see C58). -/
structure Node (E : Type) where
  ty : NodeTy
  id : Nat := 0
  prime : Bool := false
  value : Option E := none

/-- `Section.op` -/
inductive OpTy | add | sub | mul | copy | other
deriving DecidableEq

/-- `Section`, starkinfo_codegen.rs L74-79 -/
structure Instr (E : Type) where
  op : OpTy
  dest : Node E
  src : List (Node E)

/-- `PolType`, starkinfo_codegen.rs L214-220 -/
structure PolType where
  section_ : Sec
  sectionPos : Nat
  dim : Nat

/-- The part of `StarkInfo` the interpreter uses, starkinfo.rs L60-110; `sectionsN` is `map_sectionsN.get`. -/
structure Info where
  cmN : List Nat
  cm2ns : List Nat
  tmpexpN : List Nat
  varPolMap : List PolType
  sectionsN : Sec → Nat
  nConstants : Nat
  qDim : Nat

/-- `dom` -/
inductive Dom | n | ns2
deriving DecidableEq

/-- `eval_map`, interpreter.rs L476-524 -/
def evalMap (s : Info) (polId : Nat) (prime : Bool) (next modulas : Nat) : Option Addr :=
  s.varPolMap[polId]?.bind fun p =>
  if p.dim = 1 then some ⟨.mem p.section_, false, p.sectionPos, if prime then next else 0, modulas, s.sectionsN p.section_⟩
  else if p.dim = 3 then some ⟨.mem p.section_, true, p.sectionPos, if prime then next else 0, modulas, s.sectionsN p.section_⟩
  else none

/-- the `cm` and `tmpExp` cases shared by `set_ref` L333-353 and `get_ref` L405-423 -/
def mapped (s : Info) (r : Node E) (dom : Dom) (next modulas : Nat) : Option Addr :=
  match r.ty, dom with
  | .cm, .n => s.cmN[r.id]?.bind fun p => evalMap s p r.prime next modulas
  | .cm, .ns2 => s.cm2ns[r.id]?.bind fun p => evalMap s p r.prime next modulas
  | .tmpExp, .n => s.tmpexpN[r.id]?.bind fun p => evalMap s p r.prime next modulas
  | _, _ => none

/-- the destination of `set_ref`, interpreter.rs L284-359 -/
def setRef (s : Info) (r : Node E) (dom : Dom) (next modulas : Nat) : Option Addr :=
  match r.ty with
  | .tmp => some ⟨.mem .tmp, false, r.id, 0, modulas, 0⟩
  | .q =>
    match dom with
    | .n => none
    | .ns2 =>
      if s.qDim = 3 then some ⟨.mem .q_2ns, true, r.id, 0, modulas, 3⟩
      else if s.qDim = 1 then some ⟨.mem .q_2ns, false, r.id, 0, modulas, 1⟩
      else none
  | .f =>
    match dom with
    | .n => none
    | .ns2 => some ⟨.mem .f_2ns, true, r.id, 0, modulas, 3⟩
  | .cm => mapped s r dom next modulas
  | .tmpExp => mapped s r dom next modulas
  | _ => none

/-- `get_ref`, interpreter.rs L364-474 -/
def getRef (s : Info) (r : Node E) (dom : Dom) (next modulas : Nat) : Option (Arg E) :=
  match r.ty with
  | .tmp => some (.ref ⟨.mem .tmp, false, r.id, 0, modulas, 0⟩)
  | .const_ =>
    match dom with
    | .n => some (.ref ⟨.mem .const_n, false, r.id, if r.prime then 1 else 0, modulas, s.nConstants⟩)
    | .ns2 => some (.ref ⟨.mem .const_2ns, false, r.id, if r.prime then next else 0, modulas, s.nConstants⟩)
  | .cm => (mapped s r dom next modulas).map .ref
  | .tmpExp => (mapped s r dom next modulas).map .ref
  | .number => r.value.map .vari
  | .public_ => some (.ref ⟨.mem .publics, false, r.id, 0, modulas, 0⟩)
  | .challenge => some (.ref ⟨.mem .challenge, false, r.id, 0, modulas, 0⟩)
  | .eval => some (.ref ⟨.mem .evals, false, r.id, 0, modulas, 0⟩)
  | .xDivXSubXi => some (.ref ⟨.xDivXSubXi, true, 0, 0, modulas, 3⟩)
  | .xDivXSubWXi => some (.ref ⟨.xDivXSubWXi, true, 0, 0, modulas, 3⟩)
  | .x =>
    match dom with
    | .n => some (.ref ⟨.mem .x_n, false, 0, 0, modulas, 1⟩)
    | .ns2 => some (.ref ⟨.mem .x_2ns, false, 0, 0, modulas, 1⟩)
  | .Zi => some (.ref ⟨.Zi, false, 0, 0, modulas, 1⟩)
  | _ => none

/-- One `Section`, interpreter.rs L196-217 with `body.exprs.push` of `set_ref` L360-361 -/
def compileInstr (s : Info) (dom : Dom) (next modulas : Nat) (cj : Instr E) : Option (List (Op E)) :=
  (cj.src.mapM fun r => getRef s r dom next modulas).bind fun src =>
  (match cj.op, src with
    | .add, a :: b :: _ => some (Op.add a b)
    | .sub, a :: b :: _ => some (Op.sub a b)
    | .mul, a :: b :: _ => some (Op.mul a b)
    | .copy, a :: _ => some (Op.copy a)
    | _, _ => none).bind fun exp =>
  (setRef s cj.dest dom next modulas).map fun d => [exp, .write d]

/-- a `get_ref` expression pushed as an instruction, interpreter.rs L219 -/
def argOp : Arg E → Op E
  | .vari x => .vari x
  | .ref a => .refer a

/-- `next`, interpreter.rs L189 -/
def nextOf (nbits nbitsExt : Nat) : Dom → Nat
  | .n => 1
  | .ns2 => 2 ^ (nbitsExt - nbits)

/-- `N`, interpreter.rs L191 -/
def modOf (nbits nbitsExt : Nat) : Dom → Nat
  | .n => 2 ^ nbits
  | .ns2 => 2 ^ nbitsExt

/-- `compile_code`, interpreter.rs L183-224 -/
def compileCode (nbits nbitsExt : Nat) (s : Info) (code : List (Instr E)) (dom : Dom) (ret : Bool) : Option (List (Op E)) :=
  (code.mapM (compileInstr s dom (nextOf nbits nbitsExt dom) (modOf nbits nbitsExt dom))).bind fun body =>
  if ret then
    code.getLast?.bind fun l => (getRef s l.dest dom (nextOf nbits nbitsExt dom) (modOf nbits nbitsExt dom)).map fun a =>
    body.flatten ++ [argOp a, .ret]
  else some body.flatten

/-- `calculate_exps`, stark_gen.rs L752-782: `tmp` is allocated once, then the block runs on rows `0..N` in order. -/
def calculateExps (s : Info) (first : List (Instr E)) (tmpUsed : Nat) (dom : Dom) (N : Nat) (c : Ctx E B) :
    Option (Ctx E B) :=
  (compileCode c.nbits c.nbitsExt s first dom false).bind fun blk =>
  (List.range N).foldlM (fun c i => (eval K blk c i).map Prod.snd) (c.put .tmp (List.replicate tmpUsed K.zero))

end Verif.Interp
