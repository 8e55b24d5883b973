/-
C63: operations with the same name.
-/
import Verif.Props.C40
import Verif.Proofs.OpNames

namespace GQL
open Classical

section
variable (pf : Bytes → Option Nat) (schema : Option Schema)

/-- **C63 as stated fails**: `ParseDoc` accepts a document with two operations named `A`, whatever the schema. -/
theorem C63_refuted : ∃ d, parseDoc pf b!"query A{a}mutation A{a}" schema = .ret ⟨some d, none, none⟩ ∧
    (Spec.operations d.defs).map (·.name) = [b!"A", b!"A"] := by
  exact ⟨_, parseDoc_ok (parse_eq (ts := [⟨.name, b!"query", 1, 1⟩, ⟨.name, b!"A", 1, 7⟩, ⟨.punctuator, b!"{", 1, 8⟩, ⟨.name, b!"a", 1, 9⟩, ⟨.punctuator, b!"}", 1, 10⟩, ⟨.name, b!"mutation", 1, 11⟩, ⟨.name, b!"A", 1, 20⟩, ⟨.punctuator, b!"{", 1, 21⟩, ⟨.name, b!"a", 1, 22⟩, ⟨.punctuator, b!"}", 1, 23⟩, ⟨.eof, [], 1, 24⟩]) (by decide) rfl) rfl, rfl⟩

/-- The rule that is meant for it, `UniqueOperationNames`, finds nothing in any document: nothing is in the map that it looks into. -/
theorem C63_rule (doc : Document) : QueryErrors .uniqueOperationNames doc schema [] := by
  have := top_rule (r := .uniqueOperationNames) (doc := doc) (schema := schema) rfl (fun _ _ => rfl)
    (fun n hn => by cases n <;> first | rfl | (simp only [ANode.kind] at hn; exact absurd hn (by decide))) (fun _ => rfl) (fun _ => rfl)
  obtain ⟨c, h1, h2⟩ := this
  refine ⟨c, h1, h2.trans (.of_eq ?_)⟩
  rw [List.flatMap_eq_nil_iff]
  intro p hp
  rw [List.flatMap_eq_nil_iff]
  intro n hn
  cases n <;> try rfl
  unfold Rule.errs opNamesErrs
  dsimp only
  rw [queryCtx_operations]
  rfl

theorem opName_named (ds : List Definition) :
    (ds.map nameAnonymous).filterMap opName = (Spec.operations ds).map fun o => if o.name = [] then b!"$$query" else o.name := by
  unfold Spec.operations
  rw [List.filterMap_map, List.map_filterMap]
  congr 1
  funext d
  rcases nameAnonymous_body d with ⟨o, h1, h2⟩ | h1
  · unfold Function.comp opName
    rw [h1, h2]
    rfl
  · unfold Function.comp
    rw [h1]
    obtain ⟨loc, b⟩ := d
    cases b <;> try rfl
    rename_i o
    unfold nameAnonymous at h1
    dsimp only at h1
    by_cases hn : o.name = []
    · rw [if_pos hn] at h1
      have : anonName = o.name := congrArg (fun x : Definition => match x.body with | .op o => o.name | _ => []) h1
      rw [hn] at this
      cases this
    · simp [opName, hn]

/-- In `ValidateSDL`, where the map is filled, the rule reports each repetition of a name, and of the lack of one; for every document and
schema. -/
theorem C63_sdl (doc : Document) : SDLErrors .uniqueOperationNames doc schema (Spec.repeatedOperationErrors doc) := by
  obtain ⟨c, X, h1, h2, h3⟩ := validateSDL_one doc schema .uniqueOperationNames
  refine ⟨c, _, X, h1, validateSDL_nil doc schema, h2, h3.trans ?_⟩
  unfold Rule.errsAll
  rw [if_neg (by decide), events_enters _ (fun _ => rfl), enters_trace, nodes_flatMap_top _ _
    (fun n hn => by cases n <;> first | rfl | (simp only [ANode.kind] at hn; exact absurd hn (by decide))) (fun _ => rfl) (fun _ => rfl), sdlCtx_doc]
  have e : ∀ p : Definition × Nat, ((topNodes p.2 p.1).flatMap fun n => Rule.errs .uniqueOperationNames (newSDLContext doc schema) (.enter n)) =
      opErr (fun n => (newSDLContext doc schema).operations.lookup n) Spec.Says.repeatedOperation p := by
    rintro ⟨⟨loc, b⟩, i⟩
    cases b with
    | op o =>
      obtain ⟨k, n, _, _, _⟩ := o
      cases k <;> simp only [topNodes, opKindNode, Rule.errs, opNamesErrs, opErr, opName, List.flatMap_cons, List.flatMap_nil, List.nil_append, List.append_nil] <;> rfl
    | type t => obtain ⟨_, _, k, _, _, _, _, _, _⟩ := t; cases k <;> rfl
    | typeExt t => obtain ⟨_, _, k, _, _, _, _, _, _⟩ := t; cases k <;> rfl
    | _ => rfl
  simp only [e]
  rw [opErr_all _ _ _ 0 (fun n j hj => ?_)]
  · unfold Spec.repeatedOperationErrors
    rw [show (namedDoc doc).defs = doc.defs.map nameAnonymous from rfl, opName_named]
    exact (overwritten_perm _).map _
  · show (prepare _ _).1.operations.lookup n = some j
    rw [prepare_operations, show (doc.defs.map nameAnonymous).zipIdx 0 = (namedDoc doc).defs.zipIdx from rfl, hj]
    rfl

/-- Three operations, two of them without a name. -/
example (p : List Selection) (l : Location) : Spec.repeatedOperationErrors
    { defs := [⟨l, .op ⟨.query, [], [], [], p⟩⟩, ⟨l, .op ⟨.query, b!"A", [], [], p⟩⟩, ⟨l, .op ⟨.mutation, [], [], [], p⟩⟩] } =
      [{ message := b!"There can be only one operation named $$query." }] := by
  rfl

/-- **C63, in part**: if there are several operations in a document that `ParseDoc` accepts, each of them has a name.
Missing for the full property: names that are not empty. -/
theorem C63_partial {input : Bytes} {d : Document} (h : parseDoc pf input schema = .ret ⟨some d, none, none⟩)
    (hs : (Spec.operations d.defs).length > 1) : ∀ o ∈ Spec.operations d.defs, o.name ≠ [] := by
  have := ((C39_accepts pf input schema d).1 h).2
  unfold Spec.queryErrors at this
  simp only [List.append_eq_nil_iff] at this
  have := this.1.1.1.1.1.1.2
  unfold Spec.anonymousErrors at this
  rw [if_pos hs, List.map_eq_nil_iff, List.filter_eq_nil_iff] at this
  intro o ho hn
  exact this o ho (by simpa using hn)

/-- A document with two operations that is accepted. -/
example : ∃ d, parseDoc pf b!"query A{a}query B{a}" none = .ret ⟨some d, none, none⟩ ∧ (Spec.operations d.defs).length > 1 :=
  ⟨_, parseDoc_ok (parse_eq (ts := [⟨.name, b!"query", 1, 1⟩, ⟨.name, b!"A", 1, 7⟩, ⟨.punctuator, b!"{", 1, 8⟩, ⟨.name, b!"a", 1, 9⟩, ⟨.punctuator, b!"}", 1, 10⟩, ⟨.name, b!"query", 1, 11⟩, ⟨.name, b!"B", 1, 17⟩, ⟨.punctuator, b!"{", 1, 18⟩, ⟨.name, b!"a", 1, 19⟩, ⟨.punctuator, b!"}", 1, 20⟩, ⟨.eof, [], 1, 21⟩]) (by decide) rfl) rfl, by decide⟩

end

end GQL
