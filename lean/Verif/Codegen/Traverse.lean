/-!
# `iterative_postorder_traversal` (starky/src/starkinfo_codegen.rs L383-425)

The explicit-stack traversal, over any finite tree, any (stateful, failing) `process_node`.
-/
namespace Verif.Codegen

/-- A finite ordered tree.  In the code the tree is given by a `get_children` function; the only one passed to the
traversal (L437-441) returns the `values` vector of an `Expression`, an owned, hence finite, tree. -/
inductive Tree (α : Type) where
  | node : α → List (Tree α) → Tree α

namespace Tree
variable {α : Type}

/-- the label of a node -/
def label : Tree α → α
  | node a _ => a

/-- `get_children` -/
def children : Tree α → List (Tree α)
  | node _ vs => vs

mutual
/-- number of nodes -/
def size : Tree α → Nat
  | node _ vs => sizeL vs + 1
/-- number of nodes of a forest -/
def sizeL : List (Tree α) → Nat
  | [] => 0
  | t :: ts => size t + sizeL ts
end

theorem sizeL_append (a b : List (Tree α)) : sizeL (a ++ b) = sizeL a + sizeL b := by
  induction a with
  | nil => simp [sizeL]
  | cons t ts ih => simp [sizeL, ih]; omega

theorem sizeL_reverse (a : List (Tree α)) : sizeL a.reverse = sizeL a := by
  induction a with
  | nil => rfl
  | cons t ts ih => simp [sizeL_append, sizeL, ih]; omega

end Tree

open Tree

variable {α R : Type} {m : Type → Type} [Monad m]

/-- First loop, L392-401: pops a node from `first_seen_stack`, pushes its children, and pushes the node with its number
of children on `prefix_stack`.  Stacks are lists whose head is the top: `extend(children)` leaves the last child on top. -/
def prefixLoop (firstSeen : List (Tree α)) (pre : List (Tree α × Nat)) : List (Tree α × Nat) :=
  match firstSeen with
  | [] => pre
  | t :: rest => prefixLoop (t.children.reverse ++ rest) ((t, t.children.length) :: pre)
termination_by sizeL firstSeen
decreasing_by
  cases t
  simp [sizeL_append, sizeL_reverse, sizeL, Tree.size, children]

/-- Second loop, L406-414: pops a node and drains the results of its children from the top of `result_stack`; `fail` is the
panic of the assertion. -/
def resultLoop (fail : (β : Type) → m β) (f : Tree α → List R → m R) : List (Tree α × Nat) → List R → m (List R)
  | [], rs => pure rs
  | (t, k) :: pre, rs =>
    if k ≤ rs.length then do
      let r ← f t (rs.take k).reverse
      resultLoop fail f pre (r :: rs.drop k)
    else fail _

/-- `iterative_postorder_traversal`, L383-420 -/
def traverse (fail : (β : Type) → m β) (f : Tree α → List R → m R) (root : Tree α) : m R := do
  let rs ← resultLoop fail f (prefixLoop [root] []) []
  match rs with
  | [r] => pure r
  | _ => fail _

/-! ### Specification: the recursive postorder -/

mutual
/-- Process the children from left to right, then the node with their results. -/
def postorder (f : Tree α → List R → m R) : Tree α → m R
  | node a vs => do
    let rs ← postorderL f vs
    f (node a vs) rs
/-- the children from left to right -/
def postorderL (f : Tree α → List R → m R) : List (Tree α) → m (List R)
  | [] => pure []
  | t :: ts => do
    let r ← postorder f t
    let rs ← postorderL f ts
    pure (r :: rs)
end

/-! ### Proof -/

mutual
/-- the nodes of a tree in postorder, with their numbers of children -/
def post : Tree α → List (Tree α × Nat)
  | node a vs => postL vs ++ [(node a vs, vs.length)]
/-- the nodes of a forest in postorder -/
def postL : List (Tree α) → List (Tree α × Nat)
  | [] => []
  | t :: ts => post t ++ postL ts
end

theorem postL_append (a b : List (Tree α)) : postL (a ++ b) = postL a ++ postL b := by
  induction a with
  | nil => simp [postL]
  | cons t ts ih => simp [postL, ih]

/-- the first loop produces the postorder -/
theorem prefixLoop_eq (firstSeen : List (Tree α)) (pre : List (Tree α × Nat)) :
    prefixLoop firstSeen pre = postL firstSeen.reverse ++ pre := by
  match firstSeen with
  | [] => simp [prefixLoop, postL]
  | node a vs :: rest =>
    rw [prefixLoop, prefixLoop_eq]
    simp [children, postL_append, postL, post]
termination_by sizeL firstSeen
decreasing_by
  simp [sizeL_append, sizeL_reverse, sizeL, Tree.size, children]

variable [LawfulMonad m]

mutual
theorem resultLoop_post (fail : (β : Type) → m β) (f : Tree α → List R → m R) (t : Tree α) (pre : List (Tree α × Nat))
    (rs : List R) :
    resultLoop fail f (post t ++ pre) rs = (do
      let r ← postorder f t
      resultLoop fail f pre (r :: rs)) := by
  match t with
  | node a vs =>
    rw [post, List.append_assoc, resultLoop_postL fail f vs, postorder, bind_assoc]
    refine postorderL_length f vs _ _ ?_
    intro xs hx
    simp only [List.cons_append, List.nil_append, resultLoop]
    rw [if_pos (by simp; omega)]
    simp [hx]
termination_by 2 * Tree.size t
decreasing_by simp [Tree.size]; omega

theorem resultLoop_postL (fail : (β : Type) → m β) (f : Tree α → List R → m R) (ts : List (Tree α)) (pre : List (Tree α × Nat))
    (rs : List R) :
    resultLoop fail f (postL ts ++ pre) rs = (do
      let xs ← postorderL f ts
      resultLoop fail f pre (xs.reverse ++ rs)) := by
  match ts with
  | [] => simp [postL, postorderL]
  | t :: ts =>
    rw [postL, List.append_assoc, resultLoop_post fail f t, postorderL]
    simp only [bind_assoc, pure_bind]
    congr 1
    funext r
    rw [resultLoop_postL fail f ts]
    congr 1
    funext xs
    simp
termination_by 2 * Tree.sizeL ts + 1
decreasing_by all_goals (cases t; simp [Tree.sizeL, Tree.size]; try omega)

/-- continuations after `postorderL` may assume the right number of results -/
theorem postorderL_length (f : Tree α → List R → m R) (ts : List (Tree α)) {β : Type} (g h : List R → m β)
    (hgh : ∀ xs, xs.length = ts.length → g xs = h xs) : (postorderL f ts >>= g) = (postorderL f ts >>= h) := by
  match ts with
  | [] => simp [postorderL, hgh]
  | t :: ts =>
    rw [postorderL]
    simp only [bind_assoc, pure_bind]
    congr 1
    funext r
    exact postorderL_length f ts _ _ fun xs hx => hgh _ (by simp [hx])
termination_by 2 * Tree.sizeL ts + 1
decreasing_by (cases t; simp [Tree.sizeL, Tree.size]; try omega)
end

/-- **C60**: for every tree and every `process_node` (stateful and failing in any lawful way), the explicit-stack traversal
is the recursive postorder: same calls in the same order, with the results of the children in order, same result, same
state and same first error; its assertions never fail. -/
theorem traverse_eq_postorder (fail : (β : Type) → m β) (f : Tree α → List R → m R) (t : Tree α) :
    traverse fail f t = postorder f t := by
  have h := resultLoop_post fail f t [] []
  rw [List.append_nil] at h
  rw [traverse, prefixLoop_eq]
  simp only [List.reverse_cons, List.reverse_nil, List.nil_append, List.append_nil, postL]
  rw [h]
  simp [resultLoop]

/-! ### Non-vacuity: the calls made on a concrete tree, recorded in a state, with an error -/

/-- records the label and the number of results received; stops at label 9 -/
def record (t : Tree Nat) (rs : List Nat) : StateT (List (Nat × List Nat)) Option Nat := do
  modify (· ++ [(t.label, rs)])
  if t.label = 9 then StateT.lift none else pure (10 * t.label)

example : (postorder record (.node 1 [.node 2 [.node 3 [], .node 4 []], .node 5 []])).run [] =
    some (10, [(3, []), (4, []), (2, [30, 40]), (5, []), (1, [20, 50])]) := by rfl

example : (postorder record (.node 1 [.node 9 [], .node 4 []])).run [] = none := by rfl

end Verif.Codegen
