/-
C28: the walker visits every node once, properly nested, and handlers of one event run in registration order.
-/
import Verif.Proofs.Walk
import Verif.Props.C14

namespace GQL
open Spec (Tree nodesAll traceAll group)

/-- The events are bracketed: `st` are the nodes entered and not yet left, innermost first. -/
def Nested : List ANode → List Event → Prop
  | st, [] => st = []
  | st, .enter n :: es => Nested (n :: st) es
  | st, .leave n :: es => ∃ st', st = n :: st' ∧ Nested st' es

mutual
theorem nested_trace : ∀ (t : Tree) (st : List ANode) (es : List Event), Nested st es → Nested st (t.trace ++ es)
  | .node n ks, st, es, h => by
    have := nested_traceAll ks (n :: st) (.leave n :: es) ⟨st, rfl, h⟩
    simpa [Tree.trace, Nested] using this
theorem nested_traceAll : ∀ (ts : List Tree) (st : List ANode) (es : List Event), Nested st es → Nested st (traceAll ts ++ es)
  | [], _, _, h => h
  | t :: ts, st, es, h => by
    have := nested_trace t st _ (nested_traceAll ts st es h)
    simpa [traceAll] using this
end

/-- **C28, exactly**: the calls the walker makes are the bracket sequence of the tree of the document, with the directives of an input
value before its default and the directives of a type extension before its interfaces. -/
theorem C28_trace (d : Document) : walkDocument d = (Spec.docTree false d).trace := walkDocument_eq d

/-- **C28, every node exactly once**: the nodes entered, and the nodes left, are the nodes of the document, each as often as it occurs. -/
theorem C28_once (d : Document) : (enters (walkDocument d)).Perm (Spec.nodes d) ∧ (leaves (walkDocument d)).Perm (Spec.nodes d) := by
  rw [walkDocument_eq, enters_trace]
  exact ⟨Spec.docTree_perm d, (leaves_trace _).trans (Spec.docTree_perm d)⟩

/-- **C28, nesting**: the enter and leave events form a balanced bracket sequence. -/
theorem C28_nested (d : Document) : Nested [] (walkDocument d) := by
  have := nested_trace (Spec.docTree false d) [] [] rfl
  rw [walkDocument_eq]
  simpa using this

/-- The calls of handlers during a walk: for each event the handlers registered for it, in the order of registration. -/
def handlerCalls {γ : Type} (w : Walker γ) (es : List Event) : List (Reg γ × ANode) :=
  es.flatMap fun e => match e with
    | .enter n => (w.filter fun r => r.onEnter && r.kind == n.kind).map fun r => (r, n)
    | .leave n => (w.filter fun r => !r.onEnter && r.kind == n.kind).map fun r => (r, n)

/-- A visit function that calls `Add...EnterEventHandler` or `Add...LeaveEventHandler` for each of the given handlers, in turn. -/
def register {γ : Type} (rs : List (Reg γ)) : VisitFunc γ := fun w =>
  rs.foldl (fun w r => if r.onEnter then Walker.addEnter w r.kind r.run else Walker.addLeave w r.kind r.run) w

theorem register_eq {γ : Type} (rs : List (Reg γ)) : ∀ w : Walker γ, register rs w = w ++ rs := by
  induction rs with
  | nil => intro w; simp [register]
  | cons r rs ih =>
    intro w
    unfold register at ih ⊢
    rw [List.foldl_cons, ih]
    obtain ⟨b, k, f⟩ := r
    cases b <;> simp [Walker.addEnter, Walker.addLeave]

theorem newWalker_register {γ : Type} (regs : List (List (Reg γ))) : newWalker (regs.map register) = regs.flatten := by
  have : ∀ (regs : List (List (Reg γ))) (w : Walker γ),
      (regs.map register).foldl (fun w f => f w) w = w ++ regs.flatten := by
    intro regs
    induction regs with
    | nil => intro w; simp
    | cons r rs ih => intro w; simp [ih, register_eq]
  simpa [newWalker] using this regs []

theorem walk_calls {γ : Type} (w : Walker γ) (ctx : γ) (d : Document) :
    Walker.walk w ctx d = (handlerCalls w (Spec.docTree false d).trace).foldl (fun c rn => rn.1.run rn.2 c) ctx := by
  rw [Walker.walk, walkDocument_eq]
  generalize (Spec.docTree false d).trace = es
  induction es generalizing ctx with
  | nil => rfl
  | cons e es ih =>
    simp only [List.foldl_cons, ih, handlerCalls, List.flatMap_cons, List.foldl_append]
    cases e <;> simp only [Walker.on, List.foldl_map]

/-- **C28, handlers**: a walk runs, for each event of the bracket sequence, exactly the handlers that were registered for
its kind and direction, in the order in which the visit functions registered them. -/
theorem C28_handlers {γ : Type} (regs : List (List (Reg γ))) (ctx : γ) (d : Document) :
    Walker.walk (newWalker (regs.map register)) ctx d =
      (handlerCalls regs.flatten (Spec.docTree false d).trace).foldl (fun c rn => rn.1.run rn.2 c) ctx := by
  rw [newWalker_register, walk_calls]

/-- A node whose children the walker visits in source order. -/
def inOrder : ANode → Prop
  | .inputValueDefinition v => v.default = none ∨ v.dirs = []
  | .typeExtension t => t.ifaces = [] ∨ t.dirs = []
  | _ => True

theorem Spec.nodesAll_mem_map {α : Type} {f : α → Tree} {l : List α} {x : α} (hx : x ∈ l) {n : ANode} (hn : n ∈ (f x).nodes) :
    n ∈ nodesAll (l.map f) := by
  induction l with
  | nil => cases hx
  | cons a l ih =>
    simp only [List.map_cons, nodesAll, List.mem_append]
    rcases List.mem_cons.1 hx with rfl | hx
    · exact .inl hn
    · exact .inr (ih hx)

theorem Spec.group_congr {α : Type} {mk : List α → ANode} {f g : α → Tree} {l : List α} {P : ANode → Prop}
    (hP : ∀ n ∈ nodesAll (group mk g l), P n) (h : ∀ x, (∀ n ∈ (g x).nodes, P n) → f x = g x) : group mk f l = group mk g l := by
  rcases l with _ | ⟨a, l⟩
  · rfl
  · simp only [group, List.isEmpty_cons, Bool.false_eq_true, ↓reduceIte, nodesAll, Tree.nodes, List.append_nil] at hP ⊢
    congr 2
    refine List.map_congr_left fun x hx => h x fun n hn => hP n ?_
    exact List.mem_cons_of_mem _ (Spec.nodesAll_mem_map hx hn)

theorem Spec.inputValueTree_src (v : InputVal) (h : ∀ n ∈ (Spec.inputValueTree true v).nodes, inOrder n) :
    Spec.inputValueTree false v = Spec.inputValueTree true v := by
  have := h (.inputValueDefinition v) (by simp [Spec.inputValueTree, Tree.nodes])
  rcases this with e | e <;> simp [Spec.inputValueTree, e, group]

theorem Spec.fieldDefTree_src (f : FieldDef) (h : ∀ n ∈ (Spec.fieldDefTree true f).nodes, inOrder n) :
    Spec.fieldDefTree false f = Spec.fieldDefTree true f := by
  unfold Spec.fieldDefTree at h ⊢
  simp only [Tree.nodes, Spec.nodesAll_append, List.mem_cons, List.mem_append] at h
  rw [Spec.group_congr (fun n hn => h n (.inr (.inl hn))) Spec.inputValueTree_src]

theorem Spec.typeMembers_src (t : TypeDef) (h : ∀ n ∈ nodesAll (Spec.typeMembers true t), inOrder n) :
    Spec.typeMembers false t = Spec.typeMembers true t := by
  unfold Spec.typeMembers at h ⊢
  simp only [Spec.nodesAll_append, List.mem_append] at h
  rw [Spec.group_congr (fun n hn => h n (.inl (.inl (.inl hn)))) Spec.fieldDefTree_src,
    Spec.group_congr (fun n hn => h n (.inr hn)) Spec.inputValueTree_src]

theorem Spec.typeDefTree_src (t : TypeDef) (h : ∀ n ∈ (Spec.typeDefTree true t).nodes, inOrder n) :
    Spec.typeDefTree false t = Spec.typeDefTree true t := by
  have h2 : Spec.typeMembers false t = Spec.typeMembers true t := by
    refine Spec.typeMembers_src t fun n hn => h n ?_
    unfold Spec.typeDefTree
    cases t.kind <;>
      simp only [Tree.nodes, nodesAll, List.append_nil, Spec.nodesAll_append, List.mem_cons, List.mem_append] <;>
      exact .inr (.inr (.inr hn))
  unfold Spec.typeDefTree
  rw [h2]

theorem Spec.typeExtTree_src (t : TypeDef) (h : ∀ n ∈ (Spec.typeExtTree true t).nodes, inOrder n) :
    Spec.typeExtTree false t = Spec.typeExtTree true t := by
  have h2 : Spec.typeMembers false t = Spec.typeMembers true t := by
    refine Spec.typeMembers_src t fun n hn => h n ?_
    unfold Spec.typeExtTree
    cases t.kind <;>
      simp only [Tree.nodes, nodesAll, List.append_nil, Spec.nodesAll_append, List.mem_cons, List.mem_append] <;>
      exact .inr (.inr (.inr hn))
  have h3 := h (.typeExtension t) (by unfold Spec.typeExtTree; simp [Tree.nodes])
  unfold Spec.typeExtTree
  rw [h2]
  rcases h3 with e | e <;> simp [e, group]

theorem Spec.defTree_src (i : Nat) (d : Definition) (h : ∀ n ∈ (Spec.defTree true i d).nodes, inOrder n) :
    Spec.defTree false i d = Spec.defTree true i d := by
  obtain ⟨loc, b⟩ := d
  unfold Spec.defTree at h ⊢
  cases b with
  | op | frag | schema | schemaExt => rfl
  | type t =>
    simp only [Tree.nodes, nodesAll, List.append_nil, List.mem_cons] at h
    dsimp only
    rw [Spec.typeDefTree_src t fun n hn => h n (.inr (.inr hn))]
  | directive dd =>
    simp only [Tree.nodes, nodesAll, List.append_nil, List.mem_cons] at h
    dsimp only
    rw [Spec.group_congr (fun n hn => h n (.inr (.inr (.inr hn)))) Spec.inputValueTree_src]
  | typeExt t =>
    simp only [Tree.nodes, nodesAll, List.append_nil, List.mem_cons] at h
    dsimp only
    rw [Spec.typeExtTree_src t fun n hn => h n (.inr (.inr hn))]

theorem Spec.defTrees_src : ∀ i ds, (∀ n ∈ nodesAll (Spec.defTrees true i ds), inOrder n) → Spec.defTrees false i ds = Spec.defTrees true i ds
  | _, [], _ => rfl
  | i, d :: ds, h => by
    simp only [Spec.defTrees, nodesAll, List.mem_append] at h ⊢
    rw [Spec.defTree_src i d fun n hn => h n (.inl hn), Spec.defTrees_src (i + 1) ds fun n hn => h n (.inr hn)]

/-- **C28, source order** as far as it holds: the enter events come in source order (and the whole trace is the bracket sequence of the source)
in every document in which no input value definition has both a default and directives and no type extension both interfaces and directives.
Missing: the other documents (false, `C28_order_refuted`). -/
theorem C28_order_partial (d : Document) (h : ∀ n ∈ Spec.nodes d, inOrder n) :
    walkDocument d = (Spec.docTree true d).trace ∧ enters (walkDocument d) = Spec.nodes d := by
  suffices hs : walkDocument d = (Spec.docTree true d).trace from ⟨hs, by rw [hs, enters_trace]; rfl⟩
  rw [walkDocument_eq]
  congr 1
  unfold Spec.nodes at h
  unfold Spec.docTree at h ⊢
  rcases e : d.defs with _ | ⟨x, ds⟩
  · rfl
  · simp only [e, Tree.nodes, nodesAll, List.isEmpty_cons, Bool.false_eq_true, ↓reduceIte, List.append_nil, List.mem_cons] at h ⊢
    rw [Spec.defTrees_src 0 (x :: ds) fun n hn => h n (.inr (.inr hn))]

/-- The hypothesis holds for every document without type system definitions and extensions. -/
theorem inOrder_executable (d : Document) (h : ∀ x ∈ d.defs, match x.body with | .op _ | .frag _ => True | _ => False) :
    ∀ i, Spec.defTrees false i d.defs = Spec.defTrees true i d.defs := by
  generalize d.defs = ds at h
  induction ds with
  | nil => intro i; rfl
  | cons x ds ih =>
    intro i
    simp only [Spec.defTrees, ih (fun y hy => h y (List.mem_cons_of_mem _ hy)) (i + 1)]
    have := h x (by simp)
    obtain ⟨l, b⟩ := x
    cases b <;> first | rfl | exact this.elim

/-- **C28, source order for queries**: in a document of operations and fragments the walk follows the source. -/
theorem C28_order_executable (d : Document) (h : ∀ x ∈ d.defs, match x.body with | .op _ | .frag _ => True | _ => False) :
    walkDocument d = (Spec.docTree true d).trace := by
  rw [walkDocument_eq]
  congr 1
  unfold Spec.docTree
  rw [inOrder_executable d h 0]

/-- **C28's source order is false in general**: in `input I { a: Int = 1 @d }` the directive is visited before the default value. -/
theorem C28_order_refuted (pf : Bytes → Option Nat) : ∃ d, parse pf b!"input I { a: Int = 1 @d }" = .ok d ∧
    (enters (walkDocument d)).map ANode.kind ≠ (Spec.nodes d).map ANode.kind :=
  ⟨_, (parse_eq (ts := [⟨.name, b!"input", 1, 1⟩, ⟨.name, b!"I", 1, 7⟩, ⟨.punctuator, b!"{", 1, 9⟩, ⟨.name, b!"a", 1, 11⟩, ⟨.punctuator, b!":", 1, 12⟩, ⟨.name, b!"Int", 1, 14⟩, ⟨.punctuator, b!"=", 1, 18⟩, ⟨.intValue, b!"1", 1, 20⟩, ⟨.punctuator, b!"@", 1, 22⟩, ⟨.name, b!"d", 1, 23⟩, ⟨.punctuator, b!"}", 1, 25⟩, ⟨.eof, [], 1, 26⟩]) (by decide) rfl), by decide⟩

/-- A document with all sorts of nodes: the walk has 66 events. -/
example (pf : Bytes → Option Nat) : ∃ d, parse pf b!"query Q($v: [Int]) { a(x: {k: [$v]}) @skip(if: true) { ...F } }" = .ok d ∧
    (walkDocument d).length = 66 ∧ (∀ x ∈ d.defs, match x.body with | .op _ | .frag _ => True | _ => False) :=
  ⟨_, (parse_eq (ts := [⟨.name, b!"query", 1, 1⟩, ⟨.name, b!"Q", 1, 7⟩, ⟨.punctuator, b!"(", 1, 8⟩, ⟨.punctuator, b!"$", 1, 9⟩, ⟨.name, b!"v", 1, 10⟩, ⟨.punctuator, b!":", 1, 11⟩, ⟨.punctuator, b!"[", 1, 13⟩, ⟨.name, b!"Int", 1, 14⟩, ⟨.punctuator, b!"]", 1, 17⟩, ⟨.punctuator, b!")", 1, 18⟩, ⟨.punctuator, b!"{", 1, 20⟩, ⟨.name, b!"a", 1, 22⟩, ⟨.punctuator, b!"(", 1, 23⟩, ⟨.name, b!"x", 1, 24⟩, ⟨.punctuator, b!":", 1, 25⟩, ⟨.punctuator, b!"{", 1, 27⟩, ⟨.name, b!"k", 1, 28⟩, ⟨.punctuator, b!":", 1, 29⟩, ⟨.punctuator, b!"[", 1, 31⟩, ⟨.punctuator, b!"$", 1, 32⟩, ⟨.name, b!"v", 1, 33⟩, ⟨.punctuator, b!"]", 1, 34⟩, ⟨.punctuator, b!"}", 1, 35⟩, ⟨.punctuator, b!")", 1, 36⟩, ⟨.punctuator, b!"@", 1, 38⟩, ⟨.name, b!"skip", 1, 39⟩, ⟨.punctuator, b!"(", 1, 43⟩, ⟨.name, b!"if", 1, 44⟩, ⟨.punctuator, b!":", 1, 46⟩, ⟨.name, b!"true", 1, 48⟩, ⟨.punctuator, b!")", 1, 52⟩, ⟨.punctuator, b!"{", 1, 54⟩, ⟨.punctuator, b!"...", 1, 56⟩, ⟨.name, b!"F", 1, 59⟩, ⟨.punctuator, b!"}", 1, 61⟩, ⟨.punctuator, b!"}", 1, 63⟩, ⟨.eof, [], 1, 64⟩]) (by decide) rfl), by decide, fun x hx => by cases hx with | head => trivial | tail _ h => cases h⟩

end GQL
