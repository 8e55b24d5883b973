/-
The nodes of a renamed document are the renamed nodes; the errors are as many.
-/
import Verif.Spec.Rename
import Verif.Props.C69

namespace GQL
open Spec

section
variable (r : Renaming)

/-- The renamed node. -/
def rnNode : ANode → ANode
  | .argument a => .argument (r.argument a)
  | .arguments as => .arguments (as.map r.argument)
  | .booleanValue v => .booleanValue (r.value v)
  | .definition i d => .definition i (r.definition d)
  | .definitions ds => .definitions (ds.map r.definition)
  | .directive d => .directive (r.directive d)
  | .directives ds => .directives (ds.map r.directive)
  | .document d => .document (r.document d)
  | .enumValue v => .enumValue (r.value v)
  | .executableDefinition i b => .executableDefinition i (r.body b)
  | .fieldSelection s => .fieldSelection (r.selection s)
  | .floatValue v => .floatValue (r.value v)
  | .fragmentDefinition f => .fragmentDefinition (r.fragment f)
  | .fragmentSpreadSelection s => .fragmentSpreadSelection (r.selection s)
  | .inlineFragmentSelection s => .inlineFragmentSelection (r.selection s)
  | .intValue v => .intValue (r.value v)
  | .listValue v => .listValue (r.value v)
  | .mutationOperationDefinition o => .mutationOperationDefinition (r.operation o)
  | .nullValue v => .nullValue (r.value v)
  | .objectField n v => .objectField (r.key n) (r.value v)
  | .objectValue v => .objectValue (r.value v)
  | .operationDefinition i o => .operationDefinition i (r.operation o)
  | .queryOperationDefinition o => .queryOperationDefinition (r.operation o)
  | .selection s => .selection (r.selection s)
  | .selections ss => .selections (r.selections ss)
  | .stringValue v => .stringValue (r.value v)
  | .subscriptionOperationDefinition o => .subscriptionOperationDefinition (r.operation o)
  | .value v => .value (r.value v)
  | .variableDefinition v => .variableDefinition (r.varDef v)
  | .variableDefinitions vs => .variableDefinitions (vs.map r.varDef)
  | .variableValue v => .variableValue (r.value v)
  | .fieldDefinition f => .fieldDefinition { f with args := f.args.map fun a => { a with name := r.arg a.name } }
  | .directiveDefinition d => .directiveDefinition { d with args := d.args.map fun a => { a with name := r.arg a.name } }
  | n => n

mutual
/-- The tree with its nodes renamed. -/
def rnTree : Tree → Tree
  | .node n ks => .node (rnNode r n) (rnTrees ks)
def rnTrees : List Tree → List Tree
  | [] => []
  | t :: ts => rnTree t :: rnTrees ts
end

mutual
theorem nodes_rnTree : ∀ t : Tree, (rnTree r t).nodes = t.nodes.map (rnNode r)
  | .node n ks => by rw [rnTree, Tree.nodes, Tree.nodes, nodes_rnTrees ks]; rfl
theorem nodes_rnTrees : ∀ ts : List Tree, nodesAll (rnTrees r ts) = (nodesAll ts).map (rnNode r)
  | [] => rfl
  | t :: ts => by rw [rnTrees, nodesAll, nodesAll, nodes_rnTree t, nodes_rnTrees ts, List.map_append]
end

theorem rnTrees_append (a b : List Tree) : rnTrees r (a ++ b) = rnTrees r a ++ rnTrees r b := by
  induction a with
  | nil => rfl
  | cons t a ih => simp [rnTrees, ih]

theorem rnTrees_map {α : Type} (f : α → Tree) (l : List α) : rnTrees r (l.map f) = l.map fun x => rnTree r (f x) := by
  induction l with
  | nil => rfl
  | cons t a ih => simp [rnTrees, ih]

theorem rn_group {α : Type} {mk : List α → ANode} {item : α → Tree} {g : α → α} (h1 : ∀ l, rnNode r (mk l) = mk (l.map g)) (h2 : ∀ x, rnTree r (item x) = item (g x)) (l : List α) :
    rnTrees r (group mk item l) = group mk item (l.map g) := by
  unfold group
  cases l with
  | nil => rfl
  | cons a l => simp [rnTrees, rnTree, rnTrees_map, h1, h2]

theorem rn_tyTree (t : Ty) : rnTree r (tyTree t) = tyTree t := by
  induction t with
  | named n b => rfl
  | list t b ih => simp [tyTree, rnTree, rnTrees, ih, rnNode]
  | listNil b => rfl

theorem rn_condTree (t : Ty) : rnTree r (condTree t) = condTree t := by
  simp [condTree, rnTree, rnTrees, rn_tyTree, rnNode]

mutual
theorem rn_valueTree : ∀ v : Value, rnTree r (valueTree v) = valueTree (r.value v)
  | .var n => by simp [valueTree, Renaming.value, rnTree, rnTrees, rnNode]
  | .int i => by simp [valueTree, Renaming.value, rnTree, rnTrees, rnNode]
  | .float f => by simp [valueTree, Renaming.value, rnTree, rnTrees, rnNode]
  | .str s => by simp [valueTree, Renaming.value, rnTree, rnTrees, rnNode]
  | .bool b => by simp [valueTree, Renaming.value, rnTree, rnTrees, rnNode]
  | .null => by simp [valueTree, Renaming.value, rnTree, rnTrees, rnNode]
  | .enum n => by simp [valueTree, Renaming.value, rnTree, rnTrees, rnNode]
  | .list vs => by simp [valueTree, Renaming.value, rnTree, rnTrees, rnNode, rn_valueTrees vs]
  | .obj fs => by simp [valueTree, Renaming.value, rnTree, rnTrees, rnNode, rn_fieldTrees fs]
theorem rn_valueTrees : ∀ vs : List Value, rnTrees r (valueTrees vs) = valueTrees (r.values vs)
  | [] => rfl
  | v :: vs => by simp [valueTrees, Renaming.values, rnTrees, rn_valueTree v, rn_valueTrees vs]
theorem rn_fieldTrees : ∀ fs : List (Bytes × Value), rnTrees r (fieldTrees fs) = fieldTrees (r.pairs fs)
  | [] => rfl
  | (n, v) :: fs => by simp [fieldTrees, Renaming.pairs, rnTrees, rnTree, rnNode, rn_valueTree v, rn_fieldTrees fs]
end

theorem rn_argTree (a : Argument) : rnTree r (argTree a) = argTree (r.argument a) := by
  simp [argTree, rnTree, rnTrees, rn_valueTree, rnNode, Renaming.argument]

theorem rn_dirTree (d : Directive) : rnTree r (dirTree d) = dirTree (r.directive d) := by
  simp [dirTree, rnTree, rnNode, rn_group r (mk := .arguments) (fun _ => rfl) (rn_argTree r), Renaming.directive]

theorem selections_isEmpty (ss : List Selection) : (r.selections ss).isEmpty = ss.isEmpty := by cases ss <;> rfl

mutual
theorem rn_selTree : ∀ s : Selection, rnTree r (selTree s) = selTree (r.selection s)
  | .field al n as ds ss => by
    have := rn_selTrees ss
    simp only [selTree, Renaming.selection, rnTree, rnTrees, rnNode, rnTrees_append, rn_group r (mk := .arguments) (fun _ => rfl) (rn_argTree r),
      rn_group r (mk := .directives) (fun _ => rfl) (rn_dirTree r), selections_isEmpty]
    by_cases h : ss.isEmpty = true
    · simp [h, rnTrees]
    · simp [h, rnTrees, rnTree, rnNode, this]
  | .spread n ds => by
    simp only [selTree, Renaming.selection, rnTree, rnTrees, rnNode, rn_group r (mk := .directives) (fun _ => rfl) (rn_dirTree r)]
  | .inline c ds ss => by
    have := rn_selTrees ss
    have hc : rnTrees r (c.toList.map condTree) = c.toList.map condTree := by
      cases c <;> simp [rnTrees, rn_condTree]
    simp only [selTree, Renaming.selection, rnTree, rnTrees, rnNode, rnTrees_append, hc,
      rn_group r (mk := .directives) (fun _ => rfl) (rn_dirTree r), selections_isEmpty]
    by_cases h : ss.isEmpty = true
    · simp [h, rnTrees]
    · simp [h, rnTrees, rnTree, rnNode, this]
theorem rn_selTrees : ∀ ss : List Selection, rnTrees r (selTrees ss) = selTrees (r.selections ss)
  | [] => rfl
  | s :: ss => by simp [selTrees, Renaming.selections, rnTrees, rn_selTree s, rn_selTrees ss]
end

theorem rn_selSet (ss : List Selection) : rnTrees r (selSet ss) = selSet (r.selections ss) := by
  unfold selSet
  rw [selections_isEmpty]
  by_cases h : ss.isEmpty = true
  · simp [h, rnTrees]
  · simp [h, rnTrees, rnTree, rnNode, rn_selTrees]

theorem rn_varDefTree (v : VarDef) : rnTree r (varDefTree v) = varDefTree (r.varDef v) := by
  obtain ⟨n, t, d⟩ := v
  cases d <;> simp [varDefTree, rnTree, rnTrees, rnNode, rn_tyTree, rn_valueTree, Renaming.varDef]

theorem rn_opTree (i : Nat) (o : OpDef) : rnTree r (opTree i o) = opTree i (r.operation o) := by
  obtain ⟨k, n, vs, ds, ss⟩ := o
  cases k <;> simp [opTree, rnTree, rnTrees, rnNode, rnTrees_append, rn_group r (mk := .variableDefinitions) (fun _ => rfl) (rn_varDefTree r),
    rn_group r (mk := .directives) (fun _ => rfl) (rn_dirTree r), rn_selSet, Renaming.operation]

theorem rn_fragTree (f : FragDef) : rnTree r (fragTree f) = fragTree (r.fragment f) := by
  simp [fragTree, rnTree, rnTrees, rnNode, rnTrees_append, rn_condTree, rn_group r (mk := .directives) (fun _ => rfl) (rn_dirTree r), rn_selSet, Renaming.fragment]

theorem rn_defTree (i : Nat) (d : Definition) (h : (∃ o, d.body = .op o) ∨ ∃ f, d.body = .frag f) : rnTree r (defTree true i d) = defTree true i (r.definition d) := by
  obtain ⟨l, b⟩ := d
  rcases h with ⟨o, h⟩ | ⟨f, h⟩ <;> cases h <;>
    simp [defTree, rnTree, rnTrees, rnNode, rn_opTree, rn_fragTree, Renaming.definition, Renaming.body]

theorem rn_defTrees (i : Nat) (ds : List Definition) (h : ∀ x ∈ ds, (∃ o, x.body = .op o) ∨ ∃ f, x.body = .frag f) :
    rnTrees r (defTrees true i ds) = defTrees true i (ds.map r.definition) := by
  induction ds generalizing i with
  | nil => rfl
  | cons d ds ih =>
    rw [defTrees, rnTrees, rn_defTree r i d (h d (.head _)), ih (i + 1) fun x hx => h x (.tail _ hx)]
    rfl

theorem nodes_rename (d : Document) (h : QueryOnly d) : nodes (r.document d) = (nodes d).map (rnNode r) := by
  unfold nodes
  rw [← nodes_rnTree]
  congr 1
  have he : (r.document d).defs.isEmpty = d.defs.isEmpty := by simp [Renaming.document]
  have ht : rnTrees r (defTrees true 0 d.defs) = defTrees true 0 (r.document d).defs := rn_defTrees r 0 d.defs h
  unfold docTree
  rw [rnTree, he, rnNode]
  by_cases h0 : d.defs.isEmpty = true
  · rw [if_pos h0, if_pos h0]; rfl
  · rw [if_neg h0, if_neg h0, rnTrees, rnTree, rnTrees, ht]; rfl

theorem defNodes_rename (d : Definition) (h : (∃ o, d.body = .op o) ∨ ∃ f, d.body = .frag f) : defNodes (r.definition d) = (defNodes d).map (rnNode r) := by
  unfold defNodes
  rw [← nodes_rnTree, rn_defTree r 0 d h]

end

theorem filterMap_map_of {α β γ δ : Type} {f : α → β} {g : β → Option γ} {g' : α → Option δ} {k : δ → γ} (l : List α) (h : ∀ x, g (f x) = (g' x).map k) :
    (l.map f).filterMap g = (l.filterMap g').map k := by
  induction l with
  | nil => rfl
  | cons x l ih =>
    rw [List.map_cons, List.filterMap_cons, List.filterMap_cons, h x, ih]
    cases g' x <;> rfl

section
variable {r : Renaming} (d : Document) (hq : QueryOnly d)
include hq

theorem typeNames_rename : typeNames (r.document d) = typeNames d := by
  unfold typeNames
  rw [nodes_rename r d hq]
  refine (filterMap_map_of (k := id) _ fun n => ?_).trans (List.map_id _)
  cases n <;> rfl

theorem directives_rename : directives (r.document d) = (directives d).map r.directive := by
  unfold directives
  rw [nodes_rename r d hq]
  refine filterMap_map_of _ fun n => ?_
  cases n <;> rfl

theorem directiveLists_rename : directiveLists (r.document d) = (directiveLists d).map (List.map r.directive) := by
  unfold directiveLists
  rw [nodes_rename r d hq]
  refine filterMap_map_of _ fun n => ?_
  cases n <;> rfl

theorem argumentLists_rename : argumentLists (r.document d) = (argumentLists d).map (List.map r.arg) := by
  unfold argumentLists
  rw [nodes_rename r d hq]
  refine filterMap_map_of _ fun n => ?_
  cases n <;> try rfl
  · simp [rnNode, Renaming.directive, Renaming.argument, Function.comp_def]
  · simp [rnNode, Function.comp_def]
  · simp [rnNode, Function.comp_def]
  · rename_i s
    cases s <;> simp [rnNode, Renaming.selection, Renaming.argument, Function.comp_def]

theorem inputObjects_rename : inputObjects (r.document d) = (inputObjects d).map (List.map r.key) := by
  unfold inputObjects
  rw [nodes_rename r d hq]
  refine filterMap_map_of _ fun n => ?_
  cases n <;> try rfl
  rename_i v
  cases v <;> simp [rnNode, Renaming.value]
  rename_i fs
  induction fs with
  | nil => rfl
  | cons f fs ih => obtain ⟨n, v⟩ := f; simp [Renaming.pairs, ih]

end


/-! ### Uses of variables -/

section
variable {r : Renaming} (hr : r.Distinct)
include hr

theorem usesVar_rename {d : Definition} (h : (∃ o, d.body = .op o) ∨ ∃ f, d.body = .frag f) (x : Bytes) : UsesVar (r.definition d) (r.var x) ↔ UsesVar d x := by
  unfold UsesVar
  rw [defNodes_rename r d h, List.mem_map]
  constructor
  · rintro ⟨n, hn, e⟩
    cases n <;> simp [rnNode] at e
    rename_i v
    cases v <;> simp [Renaming.value] at e
    rename_i y
    rw [hr.var _ _ e] at hn
    exact hn
  · exact fun hn => ⟨_, hn, by simp [rnNode, Renaming.value]⟩

theorem spreads_rename {d : Definition} (h : (∃ o, d.body = .op o) ∨ ∃ f, d.body = .frag f) (x : Bytes) : Spreads (r.definition d) (r.frag x) ↔ Spreads d x := by
  unfold Spreads
  rw [defNodes_rename r d h]
  simp only [List.mem_map]
  constructor
  · rintro ⟨ds, n, hn, e⟩
    cases n <;> simp [rnNode] at e
    rename_i s
    cases s <;> simp [Renaming.selection] at e
    rename_i y ds'
    rw [hr.frag _ _ e.1] at hn
    exact ⟨_, hn⟩
  · rintro ⟨ds, hn⟩
    exact ⟨ds.map r.directive, _, hn, by simp only [rnNode, Renaming.selection]⟩

omit hr in
theorem spreads_renamed {d : Definition} (h : (∃ o, d.body = .op o) ∨ ∃ f, d.body = .frag f) {x : Bytes} (hs : Spreads (r.definition d) x) : ∃ y, x = r.frag y := by
  obtain ⟨ds, hn⟩ := hs
  rw [defNodes_rename r d h, List.mem_map] at hn
  obtain ⟨n, hn, e⟩ := hn
  cases n <;> simp [rnNode] at e
  rename_i s
  cases s <;> simp [Renaming.selection] at e
  exact ⟨_, e.1.symm⟩

theorem isFragment_rename (d : Definition) (x : Bytes) : IsFragment (r.definition d) (r.frag x) ↔ IsFragment d x := by
  obtain ⟨l, b⟩ := d
  cases b <;> simp [IsFragment, Renaming.definition, Renaming.body]
  exact ⟨hr.frag _ _, fun h => by rw [← h]; rfl⟩

theorem spreadsTo_rename {doc : Document} (hq : QueryOnly doc) {d d' : Definition} (h : d ∈ doc.defs) (h' : SpreadsTo doc d d') :
    SpreadsTo (r.document doc) (r.definition d) (r.definition d') := by
  obtain ⟨hm, n, h1, h2⟩ := h'
  exact ⟨List.mem_map_of_mem hm, r.frag n, (spreads_rename hr (hq d h) n).2 h1, (isFragment_rename hr d' n).2 h2⟩

theorem spreadsTo_back {doc : Document} (hq : QueryOnly doc) {d e : Definition} (h : d ∈ doc.defs) (h' : SpreadsTo (r.document doc) (r.definition d) e) :
    ∃ d' ∈ doc.defs, e = r.definition d' ∧ SpreadsTo doc d d' := by
  obtain ⟨hm, n, h1, h2⟩ := h'
  obtain ⟨d', hd, rfl⟩ := List.mem_map.1 hm
  obtain ⟨y, rfl⟩ := spreads_renamed (hq d h) h1
  exact ⟨d', hd, rfl, hd, y, (spreads_rename hr (hq d h) y).1 h1, (isFragment_rename hr d' y).1 h2⟩

theorem reaches_rename {doc : Document} (hq : QueryOnly doc) {d d' : Definition} (h : d ∈ doc.defs) (h' : Reaches doc d d') :
    Reaches (r.document doc) (r.definition d) (r.definition d') := by
  induction h' with
  | one hs => exact .one (spreadsTo_rename hr hq h hs)
  | more hs _ ih => exact .more (spreadsTo_rename hr hq h hs) (ih hs.1)

theorem reaches_back {doc : Document} (hq : QueryOnly doc) {x e : Definition} (h' : Reaches (r.document doc) x e) :
    ∀ d ∈ doc.defs, x = r.definition d → ∃ d' ∈ doc.defs, e = r.definition d' ∧ Reaches doc d d' := by
  induction h' with
  | one hs =>
    rintro d hd rfl
    obtain ⟨d', h1, h2, h3⟩ := spreadsTo_back hr hq hd hs
    exact ⟨d', h1, h2, .one h3⟩
  | more hs _ ih =>
    rintro d hd rfl
    obtain ⟨d1, h1, h2, h3⟩ := spreadsTo_back hr hq hd hs
    obtain ⟨d', k1, k2, k3⟩ := ih d1 h1 h2
    exact ⟨d', k1, k2, .more h3 k3⟩

theorem used_rename {doc : Document} (hq : QueryOnly doc) {d : Definition} (h : d ∈ doc.defs) (x : Bytes) :
    Used (r.document doc) (r.definition d) (r.var x) ↔ Used doc d x := by
  unfold Used
  rw [usesVar_rename hr (hq d h)]
  refine or_congr Iff.rfl ⟨?_, ?_⟩
  · rintro ⟨e, h1, h2⟩
    obtain ⟨d', k1, rfl, k3⟩ := reaches_back hr hq h1 d h rfl
    exact ⟨d', k3, (usesVar_rename hr (hq d' k1) x).1 h2⟩
  · rintro ⟨d', h1, h2⟩
    have hm : d' ∈ doc.defs := by
      clear h2
      induction h1 with
      | one hs => exact hs.1
      | more hs _ ih => exact ih hs.1
    exact ⟨_, reaches_rename hr hq h h1, (usesVar_rename hr (hq d' hm) x).2 h2⟩

end

/-! ### Repetitions -/

theorem count_map_inj {f : Bytes → Bytes} (hf : ∀ a b, f a = f b → a = b) (l : List Bytes) (x : Bytes) : (l.map f).count (f x) = l.count x := by
  induction l with
  | nil => rfl
  | cons y l ih =>
    rw [List.map_cons, List.count_cons, List.count_cons, ih]
    by_cases h : y = x
    · simp [h]
    · have h2 : f y ≠ f x := fun e => h (hf _ _ e)
      simp [h, h2]

theorem eraseDups_map_inj {f : Bytes → Bytes} (hf : ∀ a b, f a = f b → a = b) (n : Nat) (l : List Bytes) (hn : l.length ≤ n) : (l.map f).eraseDups = l.eraseDups.map f := by
  induction n generalizing l with
  | zero => cases l with
    | nil => rfl
    | cons => simp at hn
  | succ n ih =>
    cases l with
    | nil => rfl
    | cons x l =>
      rw [List.map_cons, List.eraseDups_cons, List.eraseDups_cons, List.map_cons, List.filter_map, ih]
      · congr 3
        refine List.filter_congr fun y _ => ?_
        by_cases h : y = x
        · simp [h]
        · have h2 : f y ≠ f x := fun e => h (hf _ _ e)
          have a : (f y == f x) = false := beq_eq_false_iff_ne.2 h2
          have b : (y == x) = false := beq_eq_false_iff_ne.2 h
          simp only [Function.comp_apply, a, b]
      · have := List.length_filter_le ((fun b => !b == f x) ∘ f) l
        simp at hn
        omega

theorem repeated_map {f : Bytes → Bytes} (hf : ∀ a b, f a = f b → a = b) (l : List Bytes) : repeated (l.map f) = (repeated l).map f := by
  unfold repeated
  rw [eraseDups_map_inj hf _ l (Nat.le_refl _), List.flatMap_map, List.map_flatMap]
  congr 1
  funext n
  rw [count_map_inj hf, List.map_replicate]

theorem length_flatMap_congr {α β γ : Type} {f : α → List β} {g : α → List γ} {l : List α} (h : ∀ x ∈ l, (f x).length = (g x).length) :
    (l.flatMap f).length = (l.flatMap g).length := by
  induction l with
  | nil => rfl
  | cons x l ih =>
    rw [List.flatMap_cons, List.flatMap_cons, List.length_append, List.length_append, h x (.head _), ih fun y hy => h y (.tail _ hy)]

/-! ### The errors -/

theorem queryErrors_rename {r : Renaming} (hr : r.Distinct) (schema : Option Schema) (doc : Document) (hq : QueryOnly doc) :
    (queryErrors schema (r.document doc)).length = (queryErrors schema doc).length := by
  have hops : operations (r.document doc).defs = (operations doc.defs).map r.operation := by
    unfold operations
    exact filterMap_map_of _ fun x => by
      obtain ⟨l, b⟩ := x
      cases b <;> rfl
  have e1 : (nonExecutableErrors (r.document doc)).length = (nonExecutableErrors doc).length := by
    unfold nonExecutableErrors
    rw [List.length_map, List.length_map]
    show ((doc.defs.map r.definition).filterMap _).length = _
    rw [filterMap_map_of (g' := fun d => definitionName d.body) (k := id) _ fun x => by
      obtain ⟨l, b⟩ := x
      cases b <;> rfl, List.map_id]
  have e2 : (anonymousErrors (r.document doc)).length = (anonymousErrors doc).length := by
    unfold anonymousErrors
    rw [hops, List.length_map]
    split
    · rw [List.length_map, List.length_map, List.filter_map, List.length_map]
      congr 1
      refine List.filter_congr fun o _ => ?_
      have := hr.op o.name
      simp [Renaming.operation, this]
    · rfl
  have e3 : unknownTypeErrors schema [] (r.document doc) = unknownTypeErrors schema [] doc := by
    unfold unknownTypeErrors
    rw [typeNames_rename doc hq]
  have e4 : (unusedVariableErrors (r.document doc)).length = (unusedVariableErrors doc).length := by
    unfold unusedVariableErrors
    show ((doc.defs.map r.definition).flatMap _).length = _
    rw [List.flatMap_map]
    refine length_flatMap_congr fun d hd => ?_
    have hu := used_rename hr hq hd
    obtain ⟨l, b⟩ := d
    cases b <;> try rfl
    rename_i o
    dsimp only [Renaming.definition, Renaming.body, Renaming.operation] at hu ⊢
    rw [List.length_map, List.length_map, List.filter_map, List.length_map]
    congr 1
    refine List.filter_congr fun v _ => ?_
    have := hu v.name
    exact decide_eq_decide.2 (not_congr this)
  have e5 : directiveErrors schema [] (r.document doc) = directiveErrors schema [] doc := by
    unfold directiveErrors
    rw [directives_rename doc hq, List.flatMap_map]
    rfl
  have e6 : repeatedDirectiveErrors (r.document doc) = repeatedDirectiveErrors doc := by
    unfold repeatedDirectiveErrors
    rw [directiveLists_rename doc hq, List.flatMap_map]
    congr 1
    funext l
    rw [List.map_map]
    rfl
  have e7 : (repeatedArgumentErrors (r.document doc)).length = (repeatedArgumentErrors doc).length := by
    unfold repeatedArgumentErrors
    rw [argumentLists_rename doc hq, List.flatMap_map]
    refine length_flatMap_congr fun l _ => ?_
    rw [repeated_map hr.arg, List.length_map, List.length_map, List.length_map]
  have e8 : (repeatedInputFieldErrors (r.document doc)).length = (repeatedInputFieldErrors doc).length := by
    unfold repeatedInputFieldErrors
    rw [inputObjects_rename doc hq, List.flatMap_map]
    refine length_flatMap_congr fun l _ => ?_
    rw [repeated_map hr.key, List.length_map, List.length_map, List.length_map]
  unfold queryErrors
  simp only [List.length_append, e1, e2, e3, e4, e5, e6, e7, e8]

end GQL
