/-
C69 The verdict on a query document depends neither on its layout nor on the order of its definitions.
-/
import Verif.Props.C39
import Verif.Props.C11Doc

namespace GQL
open Classical

/-- A question about a node that does not look at the definition as a whole, at its place in the document or at its location. -/
structure Blind {α : Type} (f : ANode → Option α) : Prop where
  definition : ∀ i d, f (.definition i d) = none
  executable : ∀ i b, f (.executableDefinition i b) = none
  operation : ∀ i o, f (.operationDefinition i o) = none

theorem defTree_blind {α : Type} {f : ANode → Option α} (h : Blind f) (i : Nat) (d : Definition) :
    (Spec.defTree true i d).nodes.filterMap f = (Spec.defTree true 0 ⟨⟨0, 0⟩, d.body⟩).nodes.filterMap f := by
  obtain ⟨loc, b⟩ := d
  cases b with
  | op o =>
    obtain ⟨k, n, vs, ds, ss⟩ := o
    cases k <;> simp [Spec.defTree, Spec.opTree, Spec.Tree.nodes, Spec.nodesAll, h.definition, h.executable, h.operation]
  | _ => simp [Spec.defTree, Spec.Tree.nodes, Spec.nodesAll, h.definition, h.executable]

theorem defTrees_blind {α : Type} {f : ANode → Option α} (h : Blind f) : ∀ (i : Nat) (ds : List Definition),
    (Spec.nodesAll (Spec.defTrees true i ds)).filterMap f = (ds.map (·.body)).flatMap fun b => (Spec.defTree true 0 ⟨⟨0, 0⟩, b⟩).nodes.filterMap f
  | _, [] => rfl
  | i, d :: ds => by
    simp only [Spec.defTrees, Spec.nodesAll, List.filterMap_append, List.map_cons, List.flatMap_cons]
    rw [defTree_blind h, defTrees_blind h (i + 1) ds]

theorem nodes_blind {α : Type} {f : ANode → Option α} (h : Blind f) (h1 : ∀ d, f (.document d) = none) (h2 : ∀ ds, f (.definitions ds) = none)
    (doc : Document) :
    (Spec.nodes doc).filterMap f = (doc.defs.map (·.body)).flatMap fun b => (Spec.defTree true 0 ⟨⟨0, 0⟩, b⟩).nodes.filterMap f := by
  unfold Spec.nodes Spec.docTree
  cases hd : doc.defs with
  | nil => simp [Spec.Tree.nodes, Spec.nodesAll, h1]
  | cons d ds =>
    simp only [List.isEmpty_cons, Bool.false_eq_true, if_false, Spec.Tree.nodes, Spec.nodesAll, List.append_nil, List.filterMap_cons, h1, h2]
    exact defTrees_blind h 0 (d :: ds)

/-- The same definitions, whatever their order and their locations. -/
def Spec.SameDefinitions (d e : Document) : Prop := (d.defs.map (·.body)).Perm (e.defs.map (·.body))

theorem Spec.SameDefinitions.symm {d e : Document} (h : SameDefinitions d e) : SameDefinitions e d := List.Perm.symm h

section
variable {d e : Document} (h : Spec.SameDefinitions d e)
include h

theorem same_nodes {α : Type} {f : ANode → Option α} (hb : Blind f) (h1 : ∀ d, f (.document d) = none) (h2 : ∀ ds, f (.definitions ds) = none) :
    ((Spec.nodes d).filterMap f).Perm ((Spec.nodes e).filterMap f) := by
  rw [nodes_blind hb h1 h2, nodes_blind hb h1 h2]
  exact List.Perm.flatMap_right _ h

theorem same_bodies {α : Type} (f : Body → Option α) : (d.defs.filterMap fun x => f x.body).Perm (e.defs.filterMap fun x => f x.body) := by
  have : ∀ l : List Definition, (l.filterMap fun x => f x.body) = (l.map (·.body)).filterMap f := fun l => by rw [List.filterMap_map]; rfl
  rw [this, this]
  exact List.Perm.filterMap f h

theorem same_mem {x : Definition} (hx : x ∈ d.defs) : ∃ y ∈ e.defs, y.body = x.body := by
  have : x.body ∈ e.defs.map (·.body) := h.mem_iff.1 (List.mem_map_of_mem hx)
  obtain ⟨y, hy, e⟩ := List.mem_map.1 this
  exact ⟨y, hy, e⟩

end

theorem defNodes_mem {x y : Definition} (hxy : x.body = y.body) (n : ANode) (hn : ∀ i d, n ≠ .definition i d) : n ∈ Spec.defNodes x ↔ n ∈ Spec.defNodes y := by
  obtain ⟨l1, b1⟩ := x
  obtain ⟨l2, b2⟩ := y
  cases hxy
  unfold Spec.defNodes Spec.defTree
  simp only [Spec.Tree.nodes, List.mem_cons]
  simp [hn]

theorem usesVar_body {x y : Definition} (hxy : x.body = y.body) (v : Bytes) : Spec.UsesVar x v ↔ Spec.UsesVar y v :=
  defNodes_mem hxy _ (by simp)

theorem spreads_body {x y : Definition} (hxy : x.body = y.body) (n : Bytes) : Spec.Spreads x n ↔ Spec.Spreads y n :=
  ⟨fun ⟨ds, h⟩ => ⟨ds, (defNodes_mem hxy _ (by simp)).1 h⟩, fun ⟨ds, h⟩ => ⟨ds, (defNodes_mem hxy _ (by simp)).2 h⟩⟩

theorem spreadsTo_same {d e : Document} (h : Spec.SameDefinitions d e) {x x' y : Definition} (hxy : x.body = y.body) (hr : Spec.SpreadsTo d x x') :
    ∃ y', x'.body = y'.body ∧ Spec.SpreadsTo e y y' := by
  obtain ⟨hm, n, hs, f, hf, hn⟩ := hr
  obtain ⟨y', hy', hb⟩ := same_mem h hm
  exact ⟨y', hb.symm, hy', n, (spreads_body hxy n).1 hs, f, hb.trans hf, hn⟩

theorem reaches_same {d e : Document} (h : Spec.SameDefinitions d e) {x x' : Definition} (hr : Spec.Reaches d x x') :
    ∀ y : Definition, x.body = y.body → ∃ y', x'.body = y'.body ∧ Spec.Reaches e y y' := by
  induction hr with
  | one hs =>
    intro y hxy
    obtain ⟨y', hb, hs'⟩ := spreadsTo_same h hxy hs
    exact ⟨y', hb, .one hs'⟩
  | more hs _ ih =>
    intro y hxy
    obtain ⟨y1, hb1, hs1⟩ := spreadsTo_same h hxy hs
    obtain ⟨y', hb, hs'⟩ := ih y1 hb1
    exact ⟨y', hb, .more hs1 hs'⟩

theorem used_same {d e : Document} (h : Spec.SameDefinitions d e) {x y : Definition} (hxy : x.body = y.body) (v : Bytes) :
    Spec.Used d x v ↔ Spec.Used e y v := by
  have key : ∀ {d e : Document}, Spec.SameDefinitions d e → ∀ {x y : Definition}, x.body = y.body → Spec.Used d x v → Spec.Used e y v := by
    rintro d e h x y hxy (hu | ⟨x', hr, hu⟩)
    · exact .inl ((usesVar_body hxy v).1 hu)
    · obtain ⟨y', hb, hr'⟩ := reaches_same h hr y hxy
      exact .inr ⟨y', hr', (usesVar_body hb v).1 hu⟩
  exact ⟨key h hxy, key h.symm hxy.symm⟩

/-- The errors about unused variables for one definition. -/
noncomputable def unusedIn (doc : Document) : Body → List GErr
  | .op o => (o.vars.filter fun v => ¬ Spec.Used doc ⟨⟨0, 0⟩, .op o⟩ v.name).map fun v => Spec.Says.unusedVariable v.name o.name
  | _ => []

theorem unused_eq (doc : Document) : Spec.unusedVariableErrors doc = (doc.defs.map (·.body)).flatMap (unusedIn doc) := by
  unfold Spec.unusedVariableErrors
  rw [List.flatMap_map]
  congr 1
  funext x
  obtain ⟨loc, b⟩ := x
  cases b <;> try rfl
  simp only [unusedIn]
  congr 2
  funext v
  rw [used_same (d := doc) (e := doc) (List.Perm.refl _) (x := ⟨loc, _⟩) (y := ⟨⟨0, 0⟩, _⟩) rfl]

theorem unused_same {d e : Document} (h : Spec.SameDefinitions d e) : (Spec.unusedVariableErrors d).Perm (Spec.unusedVariableErrors e) := by
  have : unusedIn d = unusedIn e := by
    funext b
    cases b <;> try rfl
    simp only [unusedIn]
    congr 2
    funext v
    rw [used_same h (x := ⟨⟨0, 0⟩, _⟩) (y := ⟨⟨0, 0⟩, _⟩) rfl]
  rw [unused_eq, unused_eq, this]
  exact List.Perm.flatMap_right _ h

theorem queryErrors_same {d e : Document} (schema : Option Schema) (h : Spec.SameDefinitions d e) :
    (Spec.queryErrors schema d).Perm (Spec.queryErrors schema e) := by
  have ops : (Spec.operations d.defs).Perm (Spec.operations e.defs) := same_bodies h fun b => match b with | .op t => some t | _ => none
  unfold Spec.queryErrors
  refine List.Perm.append (List.Perm.append (List.Perm.append (List.Perm.append (List.Perm.append (List.Perm.append (List.Perm.append ?_ ?_) ?_) ?_) ?_) ?_) ?_) ?_
  · exact (same_bodies h Spec.definitionName).map _
  · unfold Spec.anonymousErrors
    rw [ops.length_eq]
    split
    · exact (ops.filter _).map _
    · exact .refl _
  · exact ((same_nodes h ⟨fun _ _ => rfl, fun _ _ => rfl, fun _ _ => rfl⟩ (fun _ => rfl) (fun _ => rfl)).filter _).map _
  · exact unused_same h
  · exact List.Perm.flatMap_right _ (same_nodes h ⟨fun _ _ => rfl, fun _ _ => rfl, fun _ _ => rfl⟩ (fun _ => rfl) (fun _ => rfl))
  · exact List.Perm.flatMap_right _ (same_nodes h ⟨fun _ _ => rfl, fun _ _ => rfl, fun _ _ => rfl⟩ (fun _ => rfl) (fun _ => rfl))
  · exact List.Perm.flatMap_right _ (same_nodes h ⟨fun _ _ => rfl, fun _ _ => rfl, fun _ _ => rfl⟩ (fun _ => rfl) (fun _ => rfl))
  · exact List.Perm.flatMap_right _ (same_nodes h ⟨fun _ _ => rfl, fun _ _ => rfl, fun _ _ => rfl⟩ (fun _ => rfl) (fun _ => rfl))

section
variable (pf : Bytes → Option Nat) (schema : Option Schema)

/-- **C69**: two texts that parse to the same definitions, in whatever order and layout, are both accepted by `ParseDoc` or both rejected. -/
theorem C69_verdict (a b : Bytes) (d e : Document) (ha : parse pf a = .ok d) (hb : parse pf b = .ok e) (h : Spec.SameDefinitions d e) :
    parseDoc pf a schema = .ret ⟨some d, none, none⟩ ↔ parseDoc pf b schema = .ret ⟨some e, none, none⟩ := by
  rw [C39_accepts, C39_accepts]
  have := queryErrors_same schema h
  constructor
  · rintro ⟨-, h0⟩
    rw [h0] at this
    exact ⟨hb, this.symm.eq_nil⟩
  · rintro ⟨-, h0⟩
    rw [h0] at this
    exact ⟨ha, this.eq_nil⟩

/-- **C69, errors**: without variables in type system definitions, they are rejected with the same errors, each as often. -/
theorem C69_errors (a b : Bytes) (d e : Document) (ha : parse pf a = .ok d) (hb : parse pf b = .ok e) (h : Spec.SameDefinitions d e)
    (hs : NoStrayVariables d) (es : List GErr) (he : parseDoc pf a schema = .ret ⟨none, some es, none⟩) :
    ∃ es', parseDoc pf b schema = .ret ⟨none, some es', none⟩ ∧ es'.Perm es := by
  have hs' : NoStrayVariables e := by
    intro y hy hx v hu
    obtain ⟨x, hm, hb⟩ := same_mem h.symm hy
    refine hs x hm ?_ v ((usesVar_body hb v).2 hu)
    obtain ⟨l1, b1⟩ := x
    obtain ⟨l2, b2⟩ := y
    cases hb
    exact hx
  obtain ⟨es1, p1, q1⟩ := C39_errors_partial pf a schema ha hs
  obtain ⟨es2, p2, q2⟩ := C39_errors_partial pf b schema hb hs'
  have p := p2.trans ((queryErrors_same schema h).symm.trans p1.symm)
  rw [he] at q1
  by_cases h1 : es1 = []
  · rw [if_pos h1] at q1; cases q1
  · rw [if_neg h1] at q1
    cases q1
    have h2 : es2 ≠ [] := fun h0 => h1 (by rw [h0] at p; exact p.symm.eq_nil)
    rw [if_neg h2] at q2
    exact ⟨es2, q2, p⟩

theorem noLoc_same {d d' : Document} (hn : Spec.noLoc d' = Spec.noLoc d) : Spec.SameDefinitions d d' := by
  have := congrArg (fun x => x.defs.map (·.body)) hn
  simp only [Spec.noLoc, List.map_map] at this
  unfold Spec.SameDefinitions
  rw [show d.defs.map (·.body) = d'.defs.map (·.body) from this.symm]

/-- **C69** White space, commas, comments and the like between the tokens do not decide whether a document is accepted. -/
theorem C69_layout (cs cs' : List Char) (h0 : '\x00' ∉ cs) (hi : Spec.Inserted cs cs') :
    (∃ d, parseDoc pf (Spec.utf8 cs) schema = .ret ⟨some d, none, none⟩) ↔ ∃ d', parseDoc pf (Spec.utf8 cs') schema = .ret ⟨some d', none, none⟩ := by
  constructor
  · rintro ⟨d, h⟩
    have hp := ((C39_accepts pf (Spec.utf8 cs) schema d).1 h).1
    obtain ⟨d', hp', hn⟩ := C11_document pf cs cs' h0 hi d hp
    exact ⟨d', (C69_verdict pf schema _ _ d d' hp hp' (noLoc_same hn)).1 h⟩
  · rintro ⟨d', h⟩
    have hp' := ((C39_accepts pf (Spec.utf8 cs') schema d').1 h).1
    obtain ⟨d, hp, hn⟩ := C11_removal pf cs cs' h0 hi d' hp'
    exact ⟨d, (C69_verdict pf schema _ _ d d' hp hp' (noLoc_same hn)).2 h⟩

/-- A document in two orders, on two lines and on one, to which the theorems apply; it is accepted. -/
example : ∃ d e, parse pf b!"query Q($v: ID) {...F}\nfragment F on ID {a(x: $v)}" = .ok d ∧ parse pf b!"fragment F on ID {a(x: $v)} query Q($v: ID) {...F}" = .ok e ∧
    Spec.SameDefinitions d e ∧ d.defs.length = 2 ∧
    parseDoc pf b!"query Q($v: ID) {...F}\nfragment F on ID {a(x: $v)}" none = .ret ⟨some d, none, none⟩ := by
  refine ⟨_, _, (parse_eq (ts := [⟨.name, b!"query", 1, 1⟩, ⟨.name, b!"Q", 1, 7⟩, ⟨.punctuator, b!"(", 1, 8⟩, ⟨.punctuator, b!"$", 1, 9⟩, ⟨.name, b!"v", 1, 10⟩, ⟨.punctuator, b!":", 1, 11⟩, ⟨.name, b!"ID", 1, 13⟩, ⟨.punctuator, b!")", 1, 15⟩, ⟨.punctuator, b!"{", 1, 17⟩, ⟨.punctuator, b!"...", 1, 18⟩, ⟨.name, b!"F", 1, 21⟩, ⟨.punctuator, b!"}", 1, 22⟩, ⟨.name, b!"fragment", 2, 1⟩, ⟨.name, b!"F", 2, 10⟩, ⟨.name, b!"on", 2, 12⟩, ⟨.name, b!"ID", 2, 15⟩, ⟨.punctuator, b!"{", 2, 18⟩, ⟨.name, b!"a", 2, 19⟩, ⟨.punctuator, b!"(", 2, 20⟩, ⟨.name, b!"x", 2, 21⟩, ⟨.punctuator, b!":", 2, 22⟩, ⟨.punctuator, b!"$", 2, 24⟩, ⟨.name, b!"v", 2, 25⟩, ⟨.punctuator, b!")", 2, 26⟩, ⟨.punctuator, b!"}", 2, 27⟩, ⟨.eof, [], 2, 28⟩]) (by decide) rfl), (parse_eq (ts := [⟨.name, b!"fragment", 1, 1⟩, ⟨.name, b!"F", 1, 10⟩, ⟨.name, b!"on", 1, 12⟩, ⟨.name, b!"ID", 1, 15⟩, ⟨.punctuator, b!"{", 1, 18⟩, ⟨.name, b!"a", 1, 19⟩, ⟨.punctuator, b!"(", 1, 20⟩, ⟨.name, b!"x", 1, 21⟩, ⟨.punctuator, b!":", 1, 22⟩, ⟨.punctuator, b!"$", 1, 24⟩, ⟨.name, b!"v", 1, 25⟩, ⟨.punctuator, b!")", 1, 26⟩, ⟨.punctuator, b!"}", 1, 27⟩, ⟨.name, b!"query", 1, 29⟩, ⟨.name, b!"Q", 1, 35⟩, ⟨.punctuator, b!"(", 1, 36⟩, ⟨.punctuator, b!"$", 1, 37⟩, ⟨.name, b!"v", 1, 38⟩, ⟨.punctuator, b!":", 1, 39⟩, ⟨.name, b!"ID", 1, 41⟩, ⟨.punctuator, b!")", 1, 43⟩, ⟨.punctuator, b!"{", 1, 45⟩, ⟨.punctuator, b!"...", 1, 46⟩, ⟨.name, b!"F", 1, 49⟩, ⟨.punctuator, b!"}", 1, 50⟩, ⟨.eof, [], 1, 51⟩]) (by decide) rfl), ?_, rfl, ?_⟩
  · exact List.Perm.swap _ _ _
  · exact parseDoc_ok (parse_eq (ts := [⟨.name, b!"query", 1, 1⟩, ⟨.name, b!"Q", 1, 7⟩, ⟨.punctuator, b!"(", 1, 8⟩, ⟨.punctuator, b!"$", 1, 9⟩, ⟨.name, b!"v", 1, 10⟩, ⟨.punctuator, b!":", 1, 11⟩, ⟨.name, b!"ID", 1, 13⟩, ⟨.punctuator, b!")", 1, 15⟩, ⟨.punctuator, b!"{", 1, 17⟩, ⟨.punctuator, b!"...", 1, 18⟩, ⟨.name, b!"F", 1, 21⟩, ⟨.punctuator, b!"}", 1, 22⟩, ⟨.name, b!"fragment", 2, 1⟩, ⟨.name, b!"F", 2, 10⟩, ⟨.name, b!"on", 2, 12⟩, ⟨.name, b!"ID", 2, 15⟩, ⟨.punctuator, b!"{", 2, 18⟩, ⟨.name, b!"a", 2, 19⟩, ⟨.punctuator, b!"(", 2, 20⟩, ⟨.name, b!"x", 2, 21⟩, ⟨.punctuator, b!":", 2, 22⟩, ⟨.punctuator, b!"$", 2, 24⟩, ⟨.name, b!"v", 2, 25⟩, ⟨.punctuator, b!")", 2, 26⟩, ⟨.punctuator, b!"}", 2, 27⟩, ⟨.eof, [], 2, 28⟩]) (by decide) rfl) rfl

end

end GQL
