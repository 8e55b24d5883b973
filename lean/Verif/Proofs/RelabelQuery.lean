/-
The errors about queries, under new names.
-/
import Verif.Proofs.RelabelErrors
import Verif.Props.C69

namespace GQL
open Spec Classical

section
variable {r : Relabelling}

theorem defNodes_relabel (d : Definition) : defNodes (r.definition d) = (defNodes d).map (rlNode r) := by
  unfold defNodes
  rw [← nodes_rlTree, rl_defTree]

theorem usesVar_relabel (d : Definition) (x : Bytes) : UsesVar (r.definition d) x ↔ UsesVar d x := by
  unfold UsesVar
  rw [defNodes_relabel, List.mem_map]
  constructor
  · rintro ⟨n, hn, e⟩
    cases n <;> simp [rlNode] at e
    rename_i v
    cases v <;> simp [Relabelling.value] at e
    rw [← e]
    exact hn
  · exact fun hn => ⟨_, hn, by simp [rlNode, Relabelling.value]⟩

theorem spreads_relabel (d : Definition) (x : Bytes) : Spreads (r.definition d) x ↔ Spreads d x := by
  unfold Spreads
  rw [defNodes_relabel]
  simp only [List.mem_map]
  constructor
  · rintro ⟨ds, n, hn, e⟩
    cases n <;> simp [rlNode] at e
    rename_i s
    cases s <;> simp [Relabelling.sel] at e
    rw [← e.1]
    exact ⟨_, hn⟩
  · rintro ⟨ds, hn⟩
    exact ⟨ds.map r.dir, _, hn, by simp only [rlNode, Relabelling.sel]⟩

theorem isFragment_relabel (d : Definition) (x : Bytes) : IsFragment (r.definition d) x ↔ IsFragment d x := by
  obtain ⟨l, b⟩ := d
  cases b <;> simp [IsFragment, Relabelling.definition, Relabelling.body, Relabelling.frag]

theorem spreadsTo_relabel {doc : Document} {d d' : Definition} (h : SpreadsTo doc d d') : SpreadsTo (r.document doc) (r.definition d) (r.definition d') := by
  obtain ⟨hm, n, h1, h2⟩ := h
  exact ⟨List.mem_map_of_mem hm, n, (spreads_relabel d n).2 h1, (isFragment_relabel d' n).2 h2⟩

theorem spreadsTo_unlabel {doc : Document} {d e : Definition} (h : SpreadsTo (r.document doc) (r.definition d) e) :
    ∃ d', e = r.definition d' ∧ SpreadsTo doc d d' := by
  obtain ⟨hm, n, h1, h2⟩ := h
  obtain ⟨d', hd, rfl⟩ := List.mem_map.1 hm
  exact ⟨d', rfl, hd, n, (spreads_relabel d n).1 h1, (isFragment_relabel d' n).1 h2⟩

theorem reaches_relabel {doc : Document} {d d' : Definition} (h : Reaches doc d d') : Reaches (r.document doc) (r.definition d) (r.definition d') := by
  induction h with
  | one hs => exact .one (spreadsTo_relabel hs)
  | more hs _ ih => exact .more (spreadsTo_relabel hs) ih

theorem reaches_unlabel {doc : Document} {x e : Definition} (h : Reaches (r.document doc) x e) :
    ∀ d, x = r.definition d → ∃ d', e = r.definition d' ∧ Reaches doc d d' := by
  induction h with
  | one hs =>
    rintro d rfl
    obtain ⟨d', h2, h3⟩ := spreadsTo_unlabel hs
    exact ⟨d', h2, .one h3⟩
  | more hs _ ih =>
    rintro d rfl
    obtain ⟨d1, h2, h3⟩ := spreadsTo_unlabel hs
    obtain ⟨d', k2, k3⟩ := ih d1 h2
    exact ⟨d', k2, .more h3 k3⟩

theorem used_relabel (doc : Document) (d : Definition) (x : Bytes) : Used (r.document doc) (r.definition d) x ↔ Used doc d x := by
  unfold Used
  rw [usesVar_relabel]
  refine or_congr Iff.rfl ⟨?_, ?_⟩
  · rintro ⟨e, h1, h2⟩
    obtain ⟨d', rfl, k3⟩ := reaches_unlabel h1 d rfl
    exact ⟨d', k3, (usesVar_relabel d' x).1 h2⟩
  · rintro ⟨d', h1, h2⟩
    exact ⟨_, reaches_relabel h1, (usesVar_relabel d' x).2 h2⟩

theorem strays_relabel {doc : Document} (h : NoStrayVariables doc) : NoStrayVariables (r.document doc) := by
  intro x hx he v hv
  obtain ⟨d, hd, rfl⟩ := List.mem_map.1 hx
  refine h d hd ?_ v ((usesVar_relabel d v).1 hv)
  rw [← he]
  obtain ⟨l, b⟩ := d
  cases b <;> rfl

theorem queryErrors_relabel (hr : r.Faithful) (schema : Option Schema) (doc : Document) :
    (queryErrors (schema.map r.schema) (r.document doc)).length = (queryErrors schema doc).length := by
  have hops : operations (r.document doc).defs = (operations doc.defs).map r.op :=
    filterMap_relabel (fun b => match b with | .op t => some t | _ => none) _ (fun b => by cases b <;> rfl) doc.defs
  have e1 : (nonExecutableErrors (r.document doc)).length = (nonExecutableErrors doc).length := by
    unfold nonExecutableErrors
    rw [List.length_map, List.length_map]
    show ((doc.defs.map r.definition).filterMap _).length = _
    induction doc.defs with
    | nil => rfl
    | cons x l ih =>
      rw [List.map_cons, List.filterMap_cons, List.filterMap_cons]
      have : (definitionName (r.definition x).body).isSome = (definitionName x.body).isSome := by
        obtain ⟨l, b⟩ := x
        cases b <;> rfl
      cases h1 : definitionName (r.definition x).body <;> cases h2 : definitionName x.body <;> rw [h1, h2] at this <;> first | (cases this; done) | simpa using ih
  have e2 : (anonymousErrors (r.document doc)).length = (anonymousErrors doc).length := by
    unfold anonymousErrors
    rw [hops, List.length_map]
    split
    · rw [List.length_map, List.length_map]
      exact length_filter_map fun o _ => rfl
    · rfl
  have e3 : (unknownTypeErrors (schema.map r.schema) [] (r.document doc)).length = (unknownTypeErrors schema [] doc).length := by
    unfold unknownTypeErrors
    rw [typeNames_relabel doc hr, List.length_map, List.length_map]
    exact length_filter_map fun n _ => decide_eq_decide.2 (not_congr (knownType_relabel hr schema [] n))
  have e4 : (unusedVariableErrors (r.document doc)).length = (unusedVariableErrors doc).length := by
    unfold unusedVariableErrors
    show ((doc.defs.map r.definition).flatMap _).length = _
    rw [List.flatMap_map]
    refine length_flatMap_congr fun d _ => ?_
    have hu := used_relabel (r := r) doc d
    obtain ⟨l, b⟩ := d
    cases b <;> try rfl
    rename_i o
    dsimp only [Relabelling.definition, Relabelling.body, Relabelling.op] at hu ⊢
    rw [List.length_map, List.length_map]
    exact length_filter_map fun v _ => decide_eq_decide.2 (not_congr (hu v.name))
  have e5 : (directiveErrors (schema.map r.schema) [] (r.document doc)).length = (directiveErrors schema [] doc).length := by
    unfold directiveErrors
    rw [directives_relabel, List.flatMap_map]
    refine length_flatMap_congr fun x _ => ?_
    have hx : (r.dir x).name = r.directive x.name := rfl
    have hdd := directiveDef_relabel hr schema [] x.name
    rw [List.map_nil] at hdd
    rw [hx, hdd]
    cases directiveDef schema [] x.name with
    | none => rfl
    | some dd =>
      have h1 : (r.dir x).loc = x.loc := rfl
      have h2 : (r.dirDef dd).locs = dd.locs := rfl
      dsimp only [Option.map_some]
      rw [h1, h2]
      split <;> rfl
  have e6 : (repeatedDirectiveErrors (r.document doc)).length = (repeatedDirectiveErrors doc).length := by
    unfold repeatedDirectiveErrors
    rw [directiveLists_relabel, List.flatMap_map]
    refine length_flatMap_congr fun l _ => ?_
    have : (l.map r.dir).map (·.name) = (l.map (·.name)).map r.directive := by simp [Relabelling.dir, Function.comp_def]
    rw [this]
    exact length_repeated_map hr.directive _ _ _
  have e7 : (repeatedArgumentErrors (r.document doc)).length = (repeatedArgumentErrors doc).length := by
    unfold repeatedArgumentErrors
    rw [argumentLists_relabel, List.flatMap_map]
    exact length_flatMap_congr fun l _ => length_repeated_map hr.input _ _ _
  have e8 : (repeatedInputFieldErrors (r.document doc)).length = (repeatedInputFieldErrors doc).length := by
    unfold repeatedInputFieldErrors
    rw [inputObjects_relabel, List.flatMap_map]
    exact length_flatMap_congr fun l _ => length_repeated_map hr.input _ _ _
  unfold queryErrors
  simp only [List.length_append, e1, e2, e3, e4, e5, e6, e7, e8]

end

end GQL
