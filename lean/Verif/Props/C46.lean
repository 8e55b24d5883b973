/-
C46–C49, and C51, C53, C56, C62 for `ParseSDLDoc`: what the schema contains, what extensions do to it, and what can go wrong.
-/
import Verif.Proofs.SchemaSame
import Verif.Props.C12

namespace GQL
open Classical

/-- The orders of the entries as they are. -/
def plainOrders : Orders := { build := { exts := .id, dirs := .id, types := .id }, run := plainRun }

section
variable {pf : Bytes → Option Nat} {ord ord' : Orders} {input : Bytes} {schema : Option Schema} {r r' : SDLResult}

/-- What is known when `ParseSDLDoc` returns a schema. -/
theorem accepted {b : Schema} (h : SDLDocReturns pf ord input schema r) (hb : r.schema = some b) : ∃ d, parse pf input = .ok d ∧
    Spec.sdlErrors schema d = [] ∧ Spec.Built schema d.defs b ∧ Spec.WellFormed b ∧ Spec.schemaErrors b = [] ∧ Spec.Complete b ∧ Spec.Settled b ∧
    r.errors = none ∧ r.err = none ∧ r.after = schema.map fun _ => b := by
  obtain ⟨fuel, hf⟩ := h
  cases hp : parse pf input with
  | panic => unfold parseSDLDoc at hf; rw [hp] at hf; cases hf
  | oof => unfold parseSDLDoc at hf; rw [hp] at hf; cases hf
  | err e =>
    rw [sdlDoc_parse_error hp] at hf
    cases hf; cases hb
  | ok d =>
    by_cases he : Spec.sdlErrors schema d = []
    · obtain ⟨b', hB, hW, hr, -, hall⟩ := sdlDoc_cases (ord := ord) hp he
      obtain ⟨hc, hs⟩ := hr.1 ⟨r, fuel, hf⟩
      obtain ⟨h1, h2, h3 | h3⟩ := hall r ⟨fuel, hf⟩
      · have : b' = b := Option.some.inj (h3.2.1.symm.trans hb)
        subst this
        exact ⟨d, rfl, he, hB, hW, h3.1, hc, hs, h3.2.2, h1, h2⟩
      · rw [h3.2.1] at hb; cases hb
    · obtain ⟨es, h1, -⟩ := sdlDoc_rejected (ord := ord) hp he fuel
      rw [h1] at hf
      cases hf; cases hb

/-! ### C46 -/

/-- **C46**: when `ParseSDLDoc` without a base schema returns a schema, its types (directives) are, for each name, the document's first definition, with
its extensions, or the built-in one, and nothing else, each under its name once; its root types are those of the schema definition (with its
extensions), or `Query`; and it has none of the errors of the specification. -/
theorem C46 {b : Schema} (h : SDLDocReturns pf ord input none r) (hb : r.schema = some b) : ∃ d, parse pf input = .ok d ∧
    (∀ n, b.types.lookup n = match (Spec.typeDefs d.defs).find? (fun t => t.name == n) with
      | some t => some (Spec.extendedOwn t (Spec.extensionsOf d.defs n))
      | none => Spec.builtInTypes.lookup n) ∧
    (∀ n, b.directives.lookup n = match (Spec.directiveDefs d.defs).find? (fun t => t.name == n) with
      | some t => some t
      | none => Spec.builtInDirectives.lookup n) ∧
    (b.types.map (·.1)).Nodup ∧ (b.directives.map (·.1)).Nodup ∧
    (∀ s, (Spec.schemaDefs d.defs).head? = some s →
      b.queryType = Spec.rootOf (s.ops ++ (Spec.schemaExts d.defs).flatMap (·.ops)) .query ∧
      b.mutationType = Spec.rootOf (s.ops ++ (Spec.schemaExts d.defs).flatMap (·.ops)) .mutation ∧
      b.subscriptionType = Spec.rootOf (s.ops ++ (Spec.schemaExts d.defs).flatMap (·.ops)) .subscription) ∧
    (Spec.schemaDefs d.defs = [] → b.queryType = some (.named b!"Query" false) ∧ b.mutationType = none ∧ b.subscriptionType = none) ∧
    Spec.schemaErrors b = [] := by
  obtain ⟨d, hp, -, hB, -, hE, -⟩ := accepted h hb
  refine ⟨d, hp, fun n => ?_, fun n => ?_, hB.typesOnce, hB.directivesOnce, fun s hs => ?_, fun hs => ?_, hE⟩
  · rw [hB.types]; rfl
  · rw [hB.directives]; rfl
  · have h1 : s.ops ≠ [] := parse_schemas hp s (List.mem_of_mem_head? hs)
    have h2 : (Spec.schemaDefinition none d.defs).ops = s.ops ++ (Spec.schemaExts d.defs).flatMap (·.ops) := by
      unfold Spec.schemaDefinition
      rw [if_neg (by simp), hs]
      dsimp only
      cases ho : s.ops with
      | nil => exact absurd ho h1
      | cons a l => rfl
    rw [hB.query, hB.mutation, hB.subscription, h2]
    simp
  · have h2 : (Spec.schemaDefinition none d.defs).ops = [⟨.named b!"Query" false, .query⟩] := by
      unfold Spec.schemaDefinition
      rw [hs]; rfl
    rw [hB.query, hB.mutation, hB.subscription, h2]
    exact ⟨rfl, rfl, rfl⟩

/-- A document with a type extension, a schema definition and a schema extension. -/
example : ∃ r b, SDLDocReturns pf plainOrders b!"type Q{a:String}extend type Q{b:ID}schema{query:Q}extend schema{mutation:Q}" none r ∧ r.schema = some b ∧
    b.types.map (·.1) = [b!"Q", b!"ID", b!"String"] ∧ b.mutationType = some (.named b!"Q" false) ∧
    (b.types.lookup b!"Q").map (fun t => t.fields.map (·.name)) = some [b!"a", b!"b"] :=
  ⟨_, _, ⟨9, by unfold parseSDLDoc; rw [(parse_eq (ts := [⟨.name, b!"type", 1, 1⟩, ⟨.name, b!"Q", 1, 6⟩, ⟨.punctuator, b!"{", 1, 7⟩, ⟨.name, b!"a", 1, 8⟩, ⟨.punctuator, b!":", 1, 9⟩, ⟨.name, b!"String", 1, 10⟩, ⟨.punctuator, b!"}", 1, 16⟩, ⟨.name, b!"extend", 1, 17⟩, ⟨.name, b!"type", 1, 24⟩, ⟨.name, b!"Q", 1, 29⟩, ⟨.punctuator, b!"{", 1, 30⟩, ⟨.name, b!"b", 1, 31⟩, ⟨.punctuator, b!":", 1, 32⟩, ⟨.name, b!"ID", 1, 33⟩, ⟨.punctuator, b!"}", 1, 35⟩, ⟨.name, b!"schema", 1, 36⟩, ⟨.punctuator, b!"{", 1, 42⟩, ⟨.name, b!"query", 1, 43⟩, ⟨.punctuator, b!":", 1, 48⟩, ⟨.name, b!"Q", 1, 49⟩, ⟨.punctuator, b!"}", 1, 50⟩, ⟨.name, b!"extend", 1, 51⟩, ⟨.name, b!"schema", 1, 58⟩, ⟨.punctuator, b!"{", 1, 64⟩, ⟨.name, b!"mutation", 1, 65⟩, ⟨.punctuator, b!":", 1, 73⟩, ⟨.name, b!"Q", 1, 74⟩, ⟨.punctuator, b!"}", 1, 75⟩, ⟨.eof, [], 1, 76⟩]) (by decide) rfl)]; rfl⟩, rfl, rfl, rfl, rfl⟩

/-! ### C47 -/

/-- **C47, exactly**: the type that a document defines has in the schema its own members and then those of the extensions, in order, except that
nothing is added to a list in which the definition has no members. -/
theorem C47_exact {b : Schema} (h : SDLDocReturns pf ord input schema r) (hb : r.schema = some b) : ∃ d, parse pf input = .ok d ∧
    (∀ n t, (Spec.typeDefs d.defs).find? (fun t => t.name == n) = some t → b.types.lookup n = some (Spec.extendedOwn t (Spec.extensionsOf d.defs n))) ∧
    (∀ s, schema = none → (Spec.schemaDefs d.defs).head? = some s → b.definition = some
      { dirs := Spec.after s.dirs ((Spec.schemaExts d.defs).flatMap (·.dirs)), ops := s.ops ++ (Spec.schemaExts d.defs).flatMap (·.ops) }) := by
  obtain ⟨d, hp, he, hB, -⟩ := accepted h hb
  refine ⟨d, hp, fun n t ht => ?_, fun s hn hs => ?_⟩
  · have hu : Spec.uniquenessErrors schema d = [] := by
      unfold Spec.sdlErrors at he
      simp only [List.append_eq_nil_iff] at he
      exact he.2.2.2.2.2.2.2.2.2.2
    have hnot : ¬ ((Spec.schemaTypes schema).lookup n).isSome := by
      intro hn
      unfold Spec.uniquenessErrors Spec.definitionErrors at hu
      simp only [List.append_eq_nil_iff, List.map_eq_nil_iff, List.filter_eq_nil_iff] at hu
      have h2 := List.find?_some ht
      rw [beq_iff_eq] at h2
      exact hu.1.1.1 n (List.mem_map.2 ⟨t, List.mem_of_find?_eq_some ht, h2⟩) hn
    rw [hB.types, if_neg hnot, ht]
  · subst hn
    have h1 : s.ops ≠ [] := parse_schemas hp s (List.mem_of_mem_head? hs)
    rw [hB.definition]
    unfold Spec.schemaDefinition
    rw [if_neg (by simp), hs]
    dsimp only
    cases ho : s.ops with
    | nil => exact absurd ho h1
    | cons a l => rfl

/-- No extension adds to a list in which the definition has no members. -/
structure Spec.NoneLost (t : TypeDef) (es : List TypeDef) : Prop where
  dirs : t.dirs = [] → ∀ e ∈ es, e.dirs = []
  ifaces : t.ifaces = [] → ∀ e ∈ es, e.ifaces = []
  fields : t.fields = [] → ∀ e ∈ es, e.fields = []
  members : t.members = [] → ∀ e ∈ es, e.members = []
  values : t.values = [] → ∀ e ∈ es, e.values = []
  inputs : t.inputs = [] → ∀ e ∈ es, e.inputs = []

theorem after_append {α : Type} {own : List α} {es : List TypeDef} {f : TypeDef → List α} (h : own = [] → ∀ e ∈ es, f e = []) :
    Spec.after own (es.flatMap f) = own ++ es.flatMap f := by
  cases own with
  | nil => rw [List.flatMap_eq_nil_iff.2 (h rfl)]; rfl
  | cons a l => rfl

theorem extendedOwn_eq {t : TypeDef} {es : List TypeDef} (h : Spec.NoneLost t es) : Spec.extendedOwn t es = Spec.extended t es := by
  unfold Spec.extendedOwn Spec.extended
  rw [after_append h.dirs, after_append h.ifaces, after_append h.fields, after_append h.members, after_append h.values, after_append h.inputs]

/-- **C47, in part**: the members of all extensions are there, after the definition's own and in order.
Missing for the full property: definitions with an empty list of members that an extension adds to (`C47_refuted`), and schema extensions in a document
without schema definition (`C47_refuted_schema`). -/
theorem C47_partial {b : Schema} (h : SDLDocReturns pf ord input schema r) (hb : r.schema = some b) : ∃ d, parse pf input = .ok d ∧
    (∀ n t, (Spec.typeDefs d.defs).find? (fun t => t.name == n) = some t → Spec.NoneLost t (Spec.extensionsOf d.defs n) →
      b.types.lookup n = some (Spec.extended t (Spec.extensionsOf d.defs n))) ∧
    (∀ s, schema = none → (Spec.schemaDefs d.defs).head? = some s → (s.dirs = [] → ∀ e ∈ Spec.schemaExts d.defs, e.dirs = []) → b.definition = some
      { dirs := s.dirs ++ (Spec.schemaExts d.defs).flatMap (·.dirs), ops := s.ops ++ (Spec.schemaExts d.defs).flatMap (·.ops) }) := by
  obtain ⟨d, hp, h1, h2⟩ := C47_exact h hb
  refine ⟨d, hp, fun n t ht hn => ?_, fun s hn hs hd => ?_⟩
  · rw [h1 n t ht, extendedOwn_eq hn]
  · rw [h2 s hn hs]
    congr 2
    cases hsd : s.dirs with
    | nil => rw [List.flatMap_eq_nil_iff.2 (hd hsd)]; rfl
    | cons a l => rfl

/-- The document of the example for C46 meets the condition: both have fields. -/
example : ∃ d t, parse pf b!"type Q{a:String}extend type Q{b:ID}schema{query:Q}extend schema{mutation:Q}" = .ok d ∧
    (Spec.typeDefs d.defs).find? (fun t => t.name == b!"Q") = some t ∧ Spec.NoneLost t (Spec.extensionsOf d.defs b!"Q") ∧
    (Spec.extensionsOf d.defs b!"Q").length = 1 := by
  refine ⟨_, _, (parse_eq (ts := [⟨.name, b!"type", 1, 1⟩, ⟨.name, b!"Q", 1, 6⟩, ⟨.punctuator, b!"{", 1, 7⟩, ⟨.name, b!"a", 1, 8⟩, ⟨.punctuator, b!":", 1, 9⟩, ⟨.name, b!"String", 1, 10⟩, ⟨.punctuator, b!"}", 1, 16⟩, ⟨.name, b!"extend", 1, 17⟩, ⟨.name, b!"type", 1, 24⟩, ⟨.name, b!"Q", 1, 29⟩, ⟨.punctuator, b!"{", 1, 30⟩, ⟨.name, b!"b", 1, 31⟩, ⟨.punctuator, b!":", 1, 32⟩, ⟨.name, b!"ID", 1, 33⟩, ⟨.punctuator, b!"}", 1, 35⟩, ⟨.name, b!"schema", 1, 36⟩, ⟨.punctuator, b!"{", 1, 42⟩, ⟨.name, b!"query", 1, 43⟩, ⟨.punctuator, b!":", 1, 48⟩, ⟨.name, b!"Q", 1, 49⟩, ⟨.punctuator, b!"}", 1, 50⟩, ⟨.name, b!"extend", 1, 51⟩, ⟨.name, b!"schema", 1, 58⟩, ⟨.punctuator, b!"{", 1, 64⟩, ⟨.name, b!"mutation", 1, 65⟩, ⟨.punctuator, b!":", 1, 73⟩, ⟨.name, b!"Q", 1, 74⟩, ⟨.punctuator, b!"}", 1, 75⟩, ⟨.eof, [], 1, 76⟩]) (by decide) rfl), rfl, ?_, rfl⟩
  constructor <;> intro h <;> first | (cases h; done) | (intro e he; rw [List.mem_singleton.1 he])

/-- **C47 as stated fails**: the extension makes `Query` implement `I`, and the schema that `ParseSDLDoc` returns does not. -/
theorem C47_refuted : ∃ d r b, parse pf b!"interface I{a:String}type Query{a:String}extend type Query implements I" = .ok d ∧
    (Spec.extensionsOf d.defs b!"Query").map (·.ifaces) = [[.named b!"I" false]] ∧
    SDLDocReturns pf plainOrders b!"interface I{a:String}type Query{a:String}extend type Query implements I" none r ∧ r.schema = some b ∧
    (b.types.lookup b!"Query").map (·.ifaces) = some [] :=
  ⟨_, _, _, (parse_eq (ts := [⟨.name, b!"interface", 1, 1⟩, ⟨.name, b!"I", 1, 11⟩, ⟨.punctuator, b!"{", 1, 12⟩, ⟨.name, b!"a", 1, 13⟩, ⟨.punctuator, b!":", 1, 14⟩, ⟨.name, b!"String", 1, 15⟩, ⟨.punctuator, b!"}", 1, 21⟩, ⟨.name, b!"type", 1, 22⟩, ⟨.name, b!"Query", 1, 27⟩, ⟨.punctuator, b!"{", 1, 32⟩, ⟨.name, b!"a", 1, 33⟩, ⟨.punctuator, b!":", 1, 34⟩, ⟨.name, b!"String", 1, 35⟩, ⟨.punctuator, b!"}", 1, 41⟩, ⟨.name, b!"extend", 1, 42⟩, ⟨.name, b!"type", 1, 49⟩, ⟨.name, b!"Query", 1, 54⟩, ⟨.name, b!"implements", 1, 60⟩, ⟨.name, b!"I", 1, 71⟩, ⟨.eof, [], 1, 72⟩]) (by decide) rfl), rfl,
    ⟨9, by unfold parseSDLDoc; rw [(parse_eq (ts := [⟨.name, b!"interface", 1, 1⟩, ⟨.name, b!"I", 1, 11⟩, ⟨.punctuator, b!"{", 1, 12⟩, ⟨.name, b!"a", 1, 13⟩, ⟨.punctuator, b!":", 1, 14⟩, ⟨.name, b!"String", 1, 15⟩, ⟨.punctuator, b!"}", 1, 21⟩, ⟨.name, b!"type", 1, 22⟩, ⟨.name, b!"Query", 1, 27⟩, ⟨.punctuator, b!"{", 1, 32⟩, ⟨.name, b!"a", 1, 33⟩, ⟨.punctuator, b!":", 1, 34⟩, ⟨.name, b!"String", 1, 35⟩, ⟨.punctuator, b!"}", 1, 41⟩, ⟨.name, b!"extend", 1, 42⟩, ⟨.name, b!"type", 1, 49⟩, ⟨.name, b!"Query", 1, 54⟩, ⟨.name, b!"implements", 1, 60⟩, ⟨.name, b!"I", 1, 71⟩, ⟨.eof, [], 1, 72⟩]) (by decide) rfl)]; rfl⟩, rfl, rfl⟩

/-- It also fails for schema extensions: the extension says that mutations are of type `M`, and the schema has no mutations. -/
theorem C47_refuted_schema : ∃ d r b, parse pf b!"type Query{a:String}type M{a:String}extend schema{mutation:M}" = .ok d ∧
    (Spec.schemaExts d.defs).map (·.ops) = [[⟨.named b!"M" false, .mutation⟩]] ∧
    SDLDocReturns pf plainOrders b!"type Query{a:String}type M{a:String}extend schema{mutation:M}" none r ∧ r.schema = some b ∧ b.mutationType = none :=
  ⟨_, _, _, (parse_eq (ts := [⟨.name, b!"type", 1, 1⟩, ⟨.name, b!"Query", 1, 6⟩, ⟨.punctuator, b!"{", 1, 11⟩, ⟨.name, b!"a", 1, 12⟩, ⟨.punctuator, b!":", 1, 13⟩, ⟨.name, b!"String", 1, 14⟩, ⟨.punctuator, b!"}", 1, 20⟩, ⟨.name, b!"type", 1, 21⟩, ⟨.name, b!"M", 1, 26⟩, ⟨.punctuator, b!"{", 1, 27⟩, ⟨.name, b!"a", 1, 28⟩, ⟨.punctuator, b!":", 1, 29⟩, ⟨.name, b!"String", 1, 30⟩, ⟨.punctuator, b!"}", 1, 36⟩, ⟨.name, b!"extend", 1, 37⟩, ⟨.name, b!"schema", 1, 44⟩, ⟨.punctuator, b!"{", 1, 50⟩, ⟨.name, b!"mutation", 1, 51⟩, ⟨.punctuator, b!":", 1, 59⟩, ⟨.name, b!"M", 1, 60⟩, ⟨.punctuator, b!"}", 1, 61⟩, ⟨.eof, [], 1, 62⟩]) (by decide) rfl), rfl,
    ⟨9, by unfold parseSDLDoc; rw [(parse_eq (ts := [⟨.name, b!"type", 1, 1⟩, ⟨.name, b!"Query", 1, 6⟩, ⟨.punctuator, b!"{", 1, 11⟩, ⟨.name, b!"a", 1, 12⟩, ⟨.punctuator, b!":", 1, 13⟩, ⟨.name, b!"String", 1, 14⟩, ⟨.punctuator, b!"}", 1, 20⟩, ⟨.name, b!"type", 1, 21⟩, ⟨.name, b!"M", 1, 26⟩, ⟨.punctuator, b!"{", 1, 27⟩, ⟨.name, b!"a", 1, 28⟩, ⟨.punctuator, b!":", 1, 29⟩, ⟨.name, b!"String", 1, 30⟩, ⟨.punctuator, b!"}", 1, 36⟩, ⟨.name, b!"extend", 1, 37⟩, ⟨.name, b!"schema", 1, 44⟩, ⟨.punctuator, b!"{", 1, 50⟩, ⟨.name, b!"mutation", 1, 51⟩, ⟨.punctuator, b!":", 1, 59⟩, ⟨.name, b!"M", 1, 60⟩, ⟨.punctuator, b!"}", 1, 61⟩, ⟨.eof, [], 1, 62⟩]) (by decide) rfl)]; rfl⟩, rfl, rfl⟩

/-! ### C48 -/

/-- **C48, what happens instead**: a schema that results from extending another one has none of the other's types and directives, its query type is
`Query`, and it has the types and directives of the document (also without the built-in ones). -/
theorem C48_exact {b s : Schema} (h : SDLDocReturns pf ord input (some s) r) (hb : r.schema = some b) : ∃ d, parse pf input = .ok d ∧
    (∀ n, (s.types.lookup n).isSome → b.types.lookup n = none) ∧ (∀ n, (s.directives.lookup n).isSome → b.directives.lookup n = none) ∧
    (∀ n, (b.types.lookup n).isSome ↔ ∃ t ∈ Spec.typeDefs d.defs, t.name = n) ∧
    (∀ n, (b.directives.lookup n).isSome ↔ ∃ t ∈ Spec.directiveDefs d.defs, t.name = n) ∧
    b.queryType = some (.named b!"Query" false) ∧ b.mutationType = s.mutationType ∧ b.subscriptionType = s.subscriptionType := by
  obtain ⟨d, hp, he, hB, -⟩ := accepted h hb
  have hu : Spec.uniquenessErrors (some s) d = [] := by
    unfold Spec.sdlErrors at he
    simp only [List.append_eq_nil_iff] at he
    exact he.2.2.2.2.2.2.2.2.2.2
  unfold Spec.uniquenessErrors Spec.definitionErrors at hu
  simp only [List.append_eq_nil_iff, List.map_eq_nil_iff, List.filter_eq_nil_iff] at hu
  have htn : ∀ t ∈ Spec.typeDefs d.defs, ¬ (s.types.lookup t.name).isSome := fun t ht hn =>
    hu.1.1.1 t.name (List.mem_map.2 ⟨t, ht, rfl⟩) hn
  have hdn : ∀ t ∈ Spec.directiveDefs d.defs, ¬ (s.directives.lookup t.name).isSome := fun t ht hn =>
    hu.1.2.1 t.name (List.mem_map.2 ⟨t, ht, rfl⟩) hn
  refine ⟨d, hp, fun n hn => ?_, fun n hn => ?_, fun n => ?_, fun n => ?_, ?_, ?_, ?_⟩
  · rw [hB.types]; exact if_pos hn
  · rw [hB.directives]; exact if_pos hn
  · rw [hB.types]
    constructor
    · intro hs
      split at hs
      · cases hs
      · split at hs
        · rename_i t ht
          exact ⟨t, List.mem_of_find?_eq_some ht, by simpa using List.find?_some ht⟩
        · cases hs
    · rintro ⟨t, ht, rfl⟩
      rw [if_neg (show ¬ ((Spec.schemaTypes (some s)).lookup t.name).isSome from htn t ht)]
      cases hf : (Spec.typeDefs d.defs).find? (fun x => x.name == t.name) with
      | none => exact absurd (List.find?_eq_none.1 hf t ht) (by simp)
      | some x => rfl
  · rw [hB.directives]
    constructor
    · intro hs
      split at hs
      · cases hs
      · split at hs
        · rename_i t ht
          exact ⟨t, List.mem_of_find?_eq_some ht, by simpa using List.find?_some ht⟩
        · cases hs
    · rintro ⟨t, ht, rfl⟩
      rw [if_neg (show ¬ ((Spec.schemaDirectives (some s)).lookup t.name).isSome from hdn t ht)]
      cases hf : (Spec.directiveDefs d.defs).find? (fun x => x.name == t.name) with
      | none => exact absurd (List.find?_eq_none.1 hf t ht) (by simp)
      | some x => rfl
  · rw [hB.query]; rfl
  · rw [hB.mutation]; rfl
  · rw [hB.subscription]; rfl

/-- **C48 as stated fails**, for every schema that has a type `Query` and every document: no schema results from extending it. -/
theorem C48_refuted {s : Schema} (hq : (s.types.lookup b!"Query").isSome) (h : SDLDocReturns pf ord input (some s) r) : r.schema = none := by
  cases hb : r.schema with
  | none => rfl
  | some b =>
    exfalso
    obtain ⟨d, -, -, -, -, hE, -⟩ := accepted h hb
    obtain ⟨d', -, h1, -, -, -, h2, -⟩ := C48_exact h hb
    unfold Spec.schemaErrors at hE
    have hE := (List.append_eq_nil_iff.1 (List.append_eq_nil_iff.1 hE).1).1
    unfold Spec.rootTypeErrs at hE
    have hm : Spec.RootMissing b b.queryType := by
      intro t ht
      rw [h2] at ht
      cases ht
      exact h1 _ hq
    rw [if_pos hm] at hE
    simp at hE

/-- **C48, in part**: the mutation and subscription types are kept, and everything the document defines is there.
Missing for the full property: everything else of the schema that is extended (`C48_exact`). -/
theorem C48_partial {b s : Schema} (h : SDLDocReturns pf ord input (some s) r) (hb : r.schema = some b) : ∃ d, parse pf input = .ok d ∧
    b.mutationType = s.mutationType ∧ b.subscriptionType = s.subscriptionType ∧
    (∀ t ∈ Spec.typeDefs d.defs, (b.types.lookup t.name).isSome) ∧ (∀ t ∈ Spec.directiveDefs d.defs, (b.directives.lookup t.name).isSome) := by
  obtain ⟨d, hp, -, -, h3, h4, -, h6, h7⟩ := C48_exact h hb
  exact ⟨d, hp, h6, h7, fun t ht => (h3 _).2 ⟨t, ht, rfl⟩, fun t ht => (h4 _).2 ⟨t, ht, rfl⟩⟩

/-- The schema that results from `type Root{a:String}schema{query:Root mutation:Root}`. -/
def rootSchema : Schema where
  queryType := some (.named b!"Root" false)
  mutationType := some (.named b!"Root" false)
  directives := specifiedDirectives
  types := [(b!"Root", { name := b!"Root", kind := .object, fields := [plainField b!"a" (.named b!"String" false)] }), (b!"ID", idType), (b!"String", stringType)]

/-- It can be extended, and loses its types and directives. -/
example : ∃ r b, SDLDocReturns pf plainOrders b!"scalar T type Query{b:T}" (some rootSchema) r ∧ r.schema = some b ∧
    b.types.map (·.1) = [b!"T", b!"Query"] ∧ b.directives.map (·.1) = [] ∧ b.mutationType = some (.named b!"Root" false) :=
  ⟨_, _, ⟨9, by unfold parseSDLDoc; rw [(parse_eq (ts := [⟨.name, b!"scalar", 1, 1⟩, ⟨.name, b!"T", 1, 8⟩, ⟨.name, b!"type", 1, 10⟩, ⟨.name, b!"Query", 1, 15⟩, ⟨.punctuator, b!"{", 1, 20⟩, ⟨.name, b!"b", 1, 21⟩, ⟨.punctuator, b!":", 1, 22⟩, ⟨.name, b!"T", 1, 23⟩, ⟨.punctuator, b!"}", 1, 24⟩, ⟨.eof, [], 1, 25⟩]) (by decide) rfl)]; rfl⟩, rfl, rfl, rfl, rfl⟩

/-- `type Query{a:String}` -/
def querySchema : Schema where
  queryType := some (.named b!"Query" false)
  directives := specifiedDirectives
  types := [(b!"Query", { name := b!"Query", kind := .object, fields := [plainField b!"a" (.named b!"String" false)] }), (b!"ID", idType), (b!"String", stringType)]

/-! ### C49 -/

/-- **C49, exactly**: the schema passed in is unchanged if parsing or `ValidateSDL` fails; else it is the one built from the document, whether
`ValidateSchema` accepts that or not. -/
theorem C49_exact (h : SDLDocReturns pf ord input schema r) :
    ((∃ e, parse pf input = .err e) ∧ r.after = schema ∧ r.err ≠ none) ∨
    (∃ d, parse pf input = .ok d ∧ Spec.sdlErrors schema d ≠ [] ∧ r.after = schema ∧ r.errors ≠ none) ∨
    (∃ d b, parse pf input = .ok d ∧ Spec.sdlErrors schema d = [] ∧ Spec.Built schema d.defs b ∧ r.after = schema.map fun _ => b) := by
  obtain ⟨fuel, hf⟩ := h
  cases hp : parse pf input with
  | panic => unfold parseSDLDoc at hf; rw [hp] at hf; cases hf
  | oof => unfold parseSDLDoc at hf; rw [hp] at hf; cases hf
  | err e =>
    rw [sdlDoc_parse_error hp] at hf
    cases hf
    exact .inl ⟨⟨e, rfl⟩, rfl, by simp⟩
  | ok d =>
    by_cases he : Spec.sdlErrors schema d = []
    · obtain ⟨b', hB, -, -, -, hall⟩ := sdlDoc_cases (ord := ord) hp he
      obtain ⟨h1, h2, -⟩ := hall r ⟨fuel, hf⟩
      exact .inr (.inr ⟨d, b', rfl, he, hB, h2⟩)
    · obtain ⟨es, h1, -⟩ := sdlDoc_rejected (ord := ord) hp he fuel
      rw [h1] at hf
      cases hf
      exact .inr (.inl ⟨d, rfl, he, rfl, by simp⟩)

/-- **C49, in part**: when parsing or `ValidateSDL` fails, the schema passed in is unchanged.
Missing for the full property: failures of `ValidateSchema` (`C49_refuted`). -/
theorem C49_partial (h : SDLDocReturns pf ord input schema r) (hf : ∀ d, parse pf input = .ok d → Spec.sdlErrors schema d ≠ []) : r.after = schema := by
  rcases C49_exact h with ⟨-, h, -⟩ | ⟨d, -, -, h, -⟩ | ⟨d, b, hp, he, -⟩
  · exact h
  · exact h
  · exact absurd he (hf d hp)

/-- **C49 as stated fails**: `ParseSDLDoc` returns an error, and the schema has lost its query type. -/
theorem C49_refuted : ∃ r s, SDLDocReturns pf plainOrders b!"scalar T type B{a:T}" (some querySchema) r ∧
    r.errors = some [newError b!"Query root type must be provided."] ∧ r.schema = none ∧ r.after = some s ∧
    (querySchema.types.lookup b!"Query").isSome ∧ s.types.lookup b!"Query" = none :=
  ⟨_, _, ⟨9, by unfold parseSDLDoc; rw [(parse_eq (ts := [⟨.name, b!"scalar", 1, 1⟩, ⟨.name, b!"T", 1, 8⟩, ⟨.name, b!"type", 1, 10⟩, ⟨.name, b!"B", 1, 15⟩, ⟨.punctuator, b!"{", 1, 16⟩, ⟨.name, b!"a", 1, 17⟩, ⟨.punctuator, b!":", 1, 18⟩, ⟨.name, b!"T", 1, 19⟩, ⟨.punctuator, b!"}", 1, 20⟩, ⟨.eof, [], 1, 21⟩]) (by decide) rfl)]; rfl⟩, rfl, rfl, rfl, rfl, rfl⟩

/-- The hypothesis of `C49_partial` holds of a document that repeats a type of the schema. -/
example : ∃ r, SDLDocReturns pf plainOrders b!"type Query{a:String}" (some querySchema) r ∧ r.after = some querySchema ∧
    r.errors = some [existedTypeNameError b!"Query"] :=
  ⟨_, ⟨9, by unfold parseSDLDoc; rw [(parse_eq (ts := [⟨.name, b!"type", 1, 1⟩, ⟨.name, b!"Query", 1, 6⟩, ⟨.punctuator, b!"{", 1, 11⟩, ⟨.name, b!"a", 1, 12⟩, ⟨.punctuator, b!":", 1, 13⟩, ⟨.name, b!"String", 1, 14⟩, ⟨.punctuator, b!"}", 1, 20⟩, ⟨.eof, [], 1, 21⟩]) (by decide) rfl)]; rfl⟩, rfl, rfl⟩

/-- So does that of `C48_refuted`. -/
example : (querySchema.types.lookup b!"Query").isSome := rfl

/-! ### C51 -/

/-- **C51 as stated fails**: a field of type `Int` is reported. -/
theorem C51_refuted : ∃ r, SDLDocReturns pf plainOrders b!"type Query{a:Int}" none r ∧
    r.errors = some [newError b!"The type of Query.a must be Output Type."] :=
  ⟨_, ⟨9, by unfold parseSDLDoc; rw [(parse_eq (ts := [⟨.name, b!"type", 1, 1⟩, ⟨.name, b!"Query", 1, 6⟩, ⟨.punctuator, b!"{", 1, 11⟩, ⟨.name, b!"a", 1, 12⟩, ⟨.punctuator, b!":", 1, 13⟩, ⟨.name, b!"Int", 1, 14⟩, ⟨.punctuator, b!"}", 1, 17⟩, ⟨.eof, [], 1, 18⟩]) (by decide) rfl)]; rfl⟩, rfl⟩

/-- The other built-in scalars, too, as arguments and as fields; `ID` and `String` are not. -/
example : ∃ r, SDLDocReturns pf plainOrders b!"type Query{a(b:Boolean c:ID):String d:Float}" none r ∧
    r.errors = some [newError b!"The type of Query.d must be Output Type.", newError b!"The type of Query.a(b:) must be Input Type."] :=
  ⟨_, ⟨9, by unfold parseSDLDoc; rw [(parse_eq (ts := [⟨.name, b!"type", 1, 1⟩, ⟨.name, b!"Query", 1, 6⟩, ⟨.punctuator, b!"{", 1, 11⟩, ⟨.name, b!"a", 1, 12⟩, ⟨.punctuator, b!"(", 1, 13⟩, ⟨.name, b!"b", 1, 14⟩, ⟨.punctuator, b!":", 1, 15⟩, ⟨.name, b!"Boolean", 1, 16⟩, ⟨.name, b!"c", 1, 24⟩, ⟨.punctuator, b!":", 1, 25⟩, ⟨.name, b!"ID", 1, 26⟩, ⟨.punctuator, b!")", 1, 28⟩, ⟨.punctuator, b!":", 1, 29⟩, ⟨.name, b!"String", 1, 30⟩, ⟨.name, b!"d", 1, 37⟩, ⟨.punctuator, b!":", 1, 38⟩, ⟨.name, b!"Float", 1, 39⟩, ⟨.punctuator, b!"}", 1, 44⟩, ⟨.eof, [], 1, 45⟩]) (by decide) rfl)]; rfl⟩, rfl⟩

/-! ### C53 -/

/-- **C53 for `ParseSDLDoc`, exactly**, for a document that the parser and `ValidateSDL` accept (on all others it returns at once, or panics in the
parser): it returns if and only if, in the schema that is built, no list type lacks its item type and no comparison is stuck. -/
theorem C53_document {d : Document} (hp : parse pf input = .ok d) (he : Spec.sdlErrors schema d = []) : ∃ b, Spec.Built schema d.defs b ∧
    ((∃ r, SDLDocReturns pf ord input schema r) ↔ Spec.Complete b ∧ Spec.Settled b) := by
  obtain ⟨b, hB, -, h, -⟩ := sdlDoc_cases (ord := ord) hp he
  exact ⟨b, hB, h⟩

theorem C53_early (hp : ∀ d, parse pf input = .ok d → Spec.sdlErrors schema d ≠ []) (hn : parse pf input ≠ .panic) :
    ∃ r, SDLDocReturns pf ord input schema r := by
  cases h : parse pf input with
  | panic => exact absurd h hn
  | oof => exact absurd h (C13_terminates pf input)
  | err e => exact ⟨_, 0, sdlDoc_parse_error h 0⟩
  | ok d =>
    obtain ⟨es, h1, -⟩ := sdlDoc_rejected (ord := ord) h (hp d h) 0
    exact ⟨_, 0, h1⟩

/-- When `ValidateSDL` finds no errors, the specification has none. -/
theorem sdlErrors_nil {d : Document} {c : Ctx} (h : validateSDL d schema (rulesWalker specifiedSDL) = .ret c) (hc : c.errors = []) :
    Spec.sdlErrors schema d = [] := by
  obtain ⟨c', h1, h2, -⟩ := validateSDL_all d schema
  rw [h] at h1
  cases h1
  rw [hc] at h2
  exact h2.symm.eq_nil

/-- **C53 as stated fails**: `ParseSDLDoc` runs for ever on this document, whatever the orders of iteration. -/
theorem C53_refuted_document (ord : Orders) (fuel : Nat) :
    parseSDLDoc pf fuel ord b!"interface N{p:N}type T{p:T}type Query implements N{p:T}" none = .oof := by
  have hp : ∃ d, parse pf b!"interface N{p:N}type T{p:T}type Query implements N{p:T}" = .ok d ∧ Spec.sdlErrors none d = [] ∧
      Spec.typeDefs d.defs = [{ name := b!"N", kind := .interface, fields := [plainField b!"p" (.named b!"N" false)] },
        { name := b!"T", kind := .object, fields := [plainField b!"p" (.named b!"T" false)] },
        { name := b!"Query", kind := .object, ifaces := [.named b!"N" false], fields := [plainField b!"p" (.named b!"T" false)] }] ∧
      Spec.typeExts d.defs = [] :=
    ⟨_, (parse_eq (ts := [⟨.name, b!"interface", 1, 1⟩, ⟨.name, b!"N", 1, 11⟩, ⟨.punctuator, b!"{", 1, 12⟩, ⟨.name, b!"p", 1, 13⟩, ⟨.punctuator, b!":", 1, 14⟩, ⟨.name, b!"N", 1, 15⟩, ⟨.punctuator, b!"}", 1, 16⟩, ⟨.name, b!"type", 1, 17⟩, ⟨.name, b!"T", 1, 22⟩, ⟨.punctuator, b!"{", 1, 23⟩, ⟨.name, b!"p", 1, 24⟩, ⟨.punctuator, b!":", 1, 25⟩, ⟨.name, b!"T", 1, 26⟩, ⟨.punctuator, b!"}", 1, 27⟩, ⟨.name, b!"type", 1, 28⟩, ⟨.name, b!"Query", 1, 33⟩, ⟨.name, b!"implements", 1, 39⟩, ⟨.name, b!"N", 1, 50⟩, ⟨.punctuator, b!"{", 1, 51⟩, ⟨.name, b!"p", 1, 52⟩, ⟨.punctuator, b!":", 1, 53⟩, ⟨.name, b!"T", 1, 54⟩, ⟨.punctuator, b!"}", 1, 55⟩, ⟨.eof, [], 1, 56⟩]) (by decide) rfl), sdlErrors_nil rfl rfl, rfl, rfl⟩
  obtain ⟨d, hp, he, hds, hes⟩ := hp
  obtain ⟨b, hB, hW, hr, hs, -⟩ := sdlDoc_cases (ord := ord) hp he
  have hx : ∀ n, Spec.extensionsOf d.defs n = [] := fun n => by unfold Spec.extensionsOf; rw [hes]; rfl
  have hN : b.types.lookup b!"N" = some { name := b!"N", kind := .interface, fields := [plainField b!"p" (.named b!"N" false)] } := by
    rw [hB.types, hds, hx]; rfl
  have hT : b.types.lookup b!"T" = some { name := b!"T", kind := .object, fields := [plainField b!"p" (.named b!"T" false)] } := by
    rw [hB.types, hds, hx]; rfl
  have hQ : b.types.lookup b!"Query" = some { name := b!"Query", kind := .object, ifaces := [.named b!"N" false], fields := [plainField b!"p" (.named b!"T" false)] } := by
    rw [hB.types, hds, hx]; rfl
  have hpos : ¬ Spec.PossibleType b b!"N" b!"T" := by
    rintro ⟨d, t, hd, ht, _, h⟩
    rw [hN] at hd
    rw [hT] at ht
    cases hd
    cases ht
    rcases h with ⟨h, _⟩ | ⟨_, i, hi, _⟩
    · cases h
    · cases hi
  have hst : Spec.StuckSub b (.named b!"T" false) (.named b!"N" false) :=
    .named (fun h => h) (by decide) ⟨_, hT, rfl⟩ (.inl ⟨_, hN, rfl⟩) hpos
  have hno : ¬ Spec.Settled b := fun h =>
    h (b!"Query", _) ((mem_iff_lookup hW.types _ _).2 hQ) rfl (.named b!"N" false) (by simp) _ hN rfl _ (by simp; rfl) _ rfl hst
  have hcomp : Spec.Complete b := by
    rintro ⟨n, t⟩ hm hk f hf
    have hl := (mem_iff_lookup hW.types _ _).1 hm
    rw [hB.types, hds, hx] at hl
    rw [if_neg (by simp [Spec.schemaTypes])] at hl
    split at hl
    · rename_i t' ht'
      have := List.mem_of_find?_eq_some ht'
      simp only [List.mem_cons, List.not_mem_nil, or_false] at this
      have hl := Option.some.inj hl
      rcases this with rfl | rfl | rfl <;> subst hl <;> rw [List.mem_singleton.1 (show f ∈ [_] from hf)] <;> exact ⟨rfl, fun a ha => by cases ha⟩
    · rw [if_neg (by simp)] at hl
      have hl := (mem_iff_lookup (m := specifiedTypes) (by decide) _ _).2 hl
      simp only [specifiedTypes, List.mem_cons, List.not_mem_nil, or_false, Prod.mk.injEq] at hl
      rcases hl with ⟨-, rfl⟩ | ⟨-, rfl⟩ <;> cases hf
  cases h : parseSDLDoc pf fuel ord b!"interface N{p:N}type T{p:T}type Query implements N{p:T}" none with
  | oof => rfl
  | panic => exact absurd h (hs hcomp fuel)
  | ret r => exact absurd (hr.1 ⟨r, fuel, h⟩).2 hno

/-! ### C56 -/

/-- The same result up to the order of errors and map entries. -/
structure Spec.SameResult (r r' : SDLResult) : Prop where
  err : r.err = r'.err
  errors : (r.errors = none ∧ r'.errors = none) ∨ ∃ es es', r.errors = some es ∧ r'.errors = some es' ∧ es.Perm es'
  schema : (r.schema = none ∧ r'.schema = none) ∨ ∃ s s', r.schema = some s ∧ r'.schema = some s' ∧ Spec.Same s s'
  after : r.after = r'.after ∨ ∃ s s', r.after = some s ∧ r'.after = some s' ∧ Spec.Same s s'

/-- **C56 for `ParseSDLDoc`**: whatever the orders of iteration (and the sharing of item types), it returns for both or for neither, and the results are
the same: the same errors up to order, and the same schema up to the order of its map entries. -/
theorem C56_document : ((∃ r, SDLDocReturns pf ord input schema r) ↔ ∃ r, SDLDocReturns pf ord' input schema r) ∧
    (SDLDocReturns pf ord input schema r → SDLDocReturns pf ord' input schema r' → Spec.SameResult r r') := by
  cases hp : parse pf input with
  | panic =>
    have : ∀ ord r, ¬ SDLDocReturns pf ord input schema r := by
      rintro ord r ⟨fuel, h⟩; unfold parseSDLDoc at h; rw [hp] at h; cases h
    exact ⟨⟨fun ⟨r, h⟩ => absurd h (this _ _), fun ⟨r, h⟩ => absurd h (this _ _)⟩, fun h => absurd h (this _ _)⟩
  | oof => exact absurd hp (C13_terminates pf input)
  | err e =>
    refine ⟨⟨fun _ => ⟨_, 0, sdlDoc_parse_error hp 0⟩, fun _ => ⟨_, 0, sdlDoc_parse_error hp 0⟩⟩, ?_⟩
    rintro ⟨k, h⟩ ⟨k', h'⟩
    rw [sdlDoc_parse_error hp] at h h'
    cases h; cases h'
    exact ⟨rfl, .inl ⟨rfl, rfl⟩, .inl ⟨rfl, rfl⟩, .inl rfl⟩
  | ok d =>
    by_cases he : Spec.sdlErrors schema d = []
    · obtain ⟨b, hB, hW, hr, -, hall⟩ := sdlDoc_cases (ord := ord) hp he
      obtain ⟨b', hB', hW', hr', -, hall'⟩ := sdlDoc_cases (ord := ord') hp he
      have hS := hB.same hB'
      refine ⟨?_, fun h h' => ?_⟩
      · rw [hr, hr']
        exact ⟨fun h => ⟨complete_imp hS h.1, settled_imp hS hW h.2⟩, fun h => ⟨complete_imp hS.symm h.1, settled_imp hS.symm hW' h.2⟩⟩
      · obtain ⟨a1, a2, a3⟩ := hall r h
        obtain ⟨b1, b2, b3⟩ := hall' r' h'
        have hE := schemaErrors_same hS hW
        have haft : r.after = r'.after ∨ ∃ s s', r.after = some s ∧ r'.after = some s' ∧ Spec.Same s s' := by
          rw [a2, b2]
          cases schema with
          | none => exact .inl rfl
          | some x => exact .inr ⟨b, b', rfl, rfl, hS⟩
        rcases a3 with ⟨x1, x2, x3⟩ | ⟨x1, x2, es, x3, x4⟩ <;> rcases b3 with ⟨y1, y2, y3⟩ | ⟨y1, y2, es', y3, y4⟩
        · exact ⟨a1.trans b1.symm, .inl ⟨x3, y3⟩, .inr ⟨b, b', x2, y2, hS⟩, haft⟩
        · rw [x1] at hE; exact absurd hE.symm.eq_nil y1
        · rw [y1] at hE; exact absurd hE.eq_nil x1
        · exact ⟨a1.trans b1.symm, .inr ⟨es, es', x3, y3, x4.trans (hE.trans y4.symm)⟩, .inl ⟨x2, y2⟩, haft⟩
    · refine ⟨⟨fun _ => ?_, fun _ => ?_⟩, ?_⟩
      · obtain ⟨es, h1, -⟩ := sdlDoc_rejected (ord := ord') hp he 0; exact ⟨_, 0, h1⟩
      · obtain ⟨es, h1, -⟩ := sdlDoc_rejected (ord := ord) hp he 0; exact ⟨_, 0, h1⟩
      · rintro ⟨k, h⟩ ⟨k', h'⟩
        obtain ⟨es, h1, h2⟩ := sdlDoc_rejected (ord := ord) hp he k
        obtain ⟨es', h1', h2'⟩ := sdlDoc_rejected (ord := ord') hp he k'
        rw [h1] at h
        rw [h1'] at h'
        cases h; cases h'
        exact ⟨rfl, .inr ⟨_, _, rfl, rfl, h2.trans h2'.symm⟩, .inl ⟨rfl, rfl⟩, .inl rfl⟩

/-- The last entry first. -/
def backwards {α : Type} : Order α := ⟨List.reverse, fun m => List.reverse_perm m⟩

/-- **C56 fails for `BuildSchema` on its own**, without regard to the errors of `ValidateSDL`: with this document, which extends an unknown type,
whether `A` is extended depends on the order of iteration over the extensions. -/
theorem C56_refuted_build : ∃ d c c', parse pf b!"type A{a:ID}extend type A{b:ID}extend type B{c:ID}" = .ok d ∧
    buildSchema { exts := .id, dirs := .id, types := .id } (newSDLContext d none) = .ret c ∧
    buildSchema { exts := backwards, dirs := .id, types := .id } (newSDLContext d none) = .ret c' ∧
    (c.schema.types.lookup b!"A").map (fun t => t.fields.map (·.name)) = some [b!"a", b!"b"] ∧
    (c'.schema.types.lookup b!"A").map (fun t => t.fields.map (·.name)) = some [b!"a"] :=
  ⟨_, _, _, (parse_eq (ts := [⟨.name, b!"type", 1, 1⟩, ⟨.name, b!"A", 1, 6⟩, ⟨.punctuator, b!"{", 1, 7⟩, ⟨.name, b!"a", 1, 8⟩, ⟨.punctuator, b!":", 1, 9⟩, ⟨.name, b!"ID", 1, 10⟩, ⟨.punctuator, b!"}", 1, 12⟩, ⟨.name, b!"extend", 1, 13⟩, ⟨.name, b!"type", 1, 20⟩, ⟨.name, b!"A", 1, 25⟩, ⟨.punctuator, b!"{", 1, 26⟩, ⟨.name, b!"b", 1, 27⟩, ⟨.punctuator, b!":", 1, 28⟩, ⟨.name, b!"ID", 1, 29⟩, ⟨.punctuator, b!"}", 1, 31⟩, ⟨.name, b!"extend", 1, 32⟩, ⟨.name, b!"type", 1, 39⟩, ⟨.name, b!"B", 1, 44⟩, ⟨.punctuator, b!"{", 1, 45⟩, ⟨.name, b!"c", 1, 46⟩, ⟨.punctuator, b!":", 1, 47⟩, ⟨.name, b!"ID", 1, 48⟩, ⟨.punctuator, b!"}", 1, 50⟩, ⟨.eof, [], 1, 51⟩]) (by decide) rfl), rfl, rfl, rfl, rfl⟩

/-! ### C62 -/

/-- No field or argument of a type of the document has a list type without item type. -/
def Spec.ItemsPresent (ds : List Definition) : Prop :=
  ∀ t ∈ typeDefs ds ++ typeExts ds, ∀ f ∈ t.fields, (innerName f.type).isSome ∧ ∀ a ∈ f.args, (innerName a.type).isSome

theorem mem_after {α : Type} {own more : List α} {a : α} (h : a ∈ Spec.after own more) : a ∈ own ∨ a ∈ more := by
  cases own with
  | nil => cases h
  | cons x l => exact List.mem_append.1 h

theorem Spec.Built.complete {d : Document} {b : Schema} (hB : Spec.Built schema d.defs b) (hi : Spec.ItemsPresent d.defs) : Spec.Complete b := by
  rintro ⟨n, t⟩ hm hk f hf
  have hl := (mem_iff_lookup hB.typesOnce _ _).1 hm
  rw [hB.types] at hl
  split at hl
  · cases hl
  · split at hl
    · rename_i t' ht'
      have h1 := List.mem_of_find?_eq_some ht'
      have hl := Option.some.inj hl
      subst hl
      rcases mem_after hf with hf | hf
      · exact hi t' (by simp [h1]) f hf
      · obtain ⟨e, he, hf⟩ := List.mem_flatMap.1 hf
        exact hi e (List.mem_append.2 (.inr (List.mem_filter.1 he).1)) f hf
    · split at hl
      · cases hl
      · have hl := (mem_iff_lookup (m := specifiedTypes) (by decide) _ _).2 hl
        simp only [specifiedTypes, List.mem_cons, List.not_mem_nil, or_false, Prod.mk.injEq] at hl
        rcases hl with ⟨-, rfl⟩ | ⟨-, rfl⟩ <;> cases hf

/-- **C62, in part**: `ParseSDLDoc` does not panic unless the parser does (see C14), if no list type lacks its item type.
Missing for the full property: the parser's panic, and list types without item type (`C62_refuted`). -/
theorem C62_partial (hn : parse pf input ≠ .panic) (hi : ∀ d, parse pf input = .ok d → Spec.ItemsPresent d.defs) (fuel : Nat) :
    parseSDLDoc pf fuel ord input schema ≠ .panic := by
  cases hp : parse pf input with
  | panic => exact absurd hp hn
  | oof => exact absurd hp (C13_terminates pf input)
  | err e => rw [sdlDoc_parse_error hp]; intro h; cases h
  | ok d =>
    by_cases he : Spec.sdlErrors schema d = []
    · obtain ⟨b, hB, -, -, hs, -⟩ := sdlDoc_cases (ord := ord) hp he
      exact hs (hB.complete (hi d hp)) fuel
    · obtain ⟨es, h1, -⟩ := sdlDoc_rejected (ord := ord) hp he fuel
      rw [h1]; intro h; cases h

/-- **C62 as stated fails**: the parser accepts a list type without item type (C16), and `ParseSDLDoc` panics. -/
theorem C62_refuted : parseSDLDoc pf 9 plainOrders b!"type Query{a:[}" none = .panic := by
  unfold parseSDLDoc; rw [(parse_eq (ts := [⟨.name, b!"type", 1, 1⟩, ⟨.name, b!"Query", 1, 6⟩, ⟨.punctuator, b!"{", 1, 11⟩, ⟨.name, b!"a", 1, 12⟩, ⟨.punctuator, b!":", 1, 13⟩, ⟨.punctuator, b!"[", 1, 14⟩, ⟨.punctuator, b!"}", 1, 15⟩, ⟨.eof, [], 1, 16⟩]) (by decide) rfl)]; rfl

/-- The document of the example for C46 meets the conditions of `C62_partial`. -/
example : ∃ d, parse pf b!"type Q{a:[String!]}extend type Q{b(c:ID):ID}" = .ok d ∧ Spec.ItemsPresent d.defs := by
  refine ⟨_, (parse_eq (ts := [⟨.name, b!"type", 1, 1⟩, ⟨.name, b!"Q", 1, 6⟩, ⟨.punctuator, b!"{", 1, 7⟩, ⟨.name, b!"a", 1, 8⟩, ⟨.punctuator, b!":", 1, 9⟩, ⟨.punctuator, b!"[", 1, 10⟩, ⟨.name, b!"String", 1, 11⟩, ⟨.punctuator, b!"!", 1, 17⟩, ⟨.punctuator, b!"]", 1, 18⟩, ⟨.punctuator, b!"}", 1, 19⟩, ⟨.name, b!"extend", 1, 20⟩, ⟨.name, b!"type", 1, 27⟩, ⟨.name, b!"Q", 1, 32⟩, ⟨.punctuator, b!"{", 1, 33⟩, ⟨.name, b!"b", 1, 34⟩, ⟨.punctuator, b!"(", 1, 35⟩, ⟨.name, b!"c", 1, 36⟩, ⟨.punctuator, b!":", 1, 37⟩, ⟨.name, b!"ID", 1, 38⟩, ⟨.punctuator, b!")", 1, 40⟩, ⟨.punctuator, b!":", 1, 41⟩, ⟨.name, b!"ID", 1, 42⟩, ⟨.punctuator, b!"}", 1, 44⟩, ⟨.eof, [], 1, 45⟩]) (by decide) rfl), ?_⟩
  intro t ht f hf
  have ht : t ∈ [{ name := b!"Q", kind := .object, fields := [plainField b!"a" (.list (.named b!"String" true) false)] },
      { name := b!"Q", kind := .object, fields := [{ name := b!"b", desc := [], args := [{ desc := [], name := b!"c", type := .named b!"ID" false, dirs := [], default := none }], type := .named b!"ID" false, dirs := [] }] }] := ht
  simp only [List.mem_cons, List.not_mem_nil, or_false] at ht
  rcases ht with rfl | rfl <;> rw [List.mem_singleton.1 (show f ∈ [_] from hf)]
  · exact ⟨rfl, fun a ha => by cases ha⟩
  · exact ⟨rfl, fun a ha => by rw [List.mem_singleton.1 (show a ∈ [_] from ha)]; rfl⟩

end

end GQL
