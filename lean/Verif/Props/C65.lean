/-
C65 An accepted schema is a valid schema: which requirements of the specification hold of every schema that `ParseSDLDoc` returns, and which do not.
-/
import Verif.Props.C46
import Verif.Spec.ValidSchema

namespace GQL
open Classical Spec

theorem repeated_nil {l : List Bytes} : repeated l = [] ↔ l.Nodup := by
  rw [List.nodup_iff_count]
  constructor
  · intro h a
    have := repeated_count l a
    rw [h] at this
    simp at this
    omega
  · intro h
    refine List.eq_nil_iff_forall_not_mem.2 fun a ha => ?_
    have h1 := List.count_pos_iff.2 ha
    rw [repeated_count] at h1
    have := h a
    omega

theorem nameErrors_nil {n : Bytes} : nameErrors n = [] ↔ UserName n := by
  unfold nameErrors UserName
  by_cases h1 : Reserved n <;> by_cases h2 : ValidName n <;> simp [h1, h2]

theorem ifNil {α : Type} {p : Prop} {a : α} : (if p then [] else [a]) = [] ↔ p := by
  by_cases h : p <;> simp [h]

theorem ifNil' {α : Type} {p : Prop} {a : α} : (if p then [a] else []) = [] ↔ ¬ p := by
  by_cases h : p <;> simp [h]

theorem rootErrors_nil {s : Schema} : rootTypeErrs s = [] ↔ (∃ t, s.queryType = some t ∧ RootObject s t) ∧
    (∀ t d, s.mutationType = some t → s.types.lookup (tyName t) = some d → d.kind = .object) ∧
    (∀ t d, s.subscriptionType = some t → s.types.lookup (tyName t) = some d → d.kind = .object) := by
  have notObj : ∀ r : Option Ty, ¬ RootNotObject s r ↔ ∀ t d, r = some t → s.types.lookup (tyName t) = some d → d.kind = .object := by
    intro r
    constructor
    · intro h t d ht hd
      exact Decidable.byContradiction fun hk => h ⟨t, d.kind, ht, ⟨d, hd, rfl⟩, hk⟩
    · rintro h ⟨t, k, ht, ⟨d, hd, rfl⟩, hk⟩
      exact hk (h t d ht hd)
  unfold rootTypeErrs
  simp only [List.append_eq_nil_iff, ifNil', notObj, and_assoc]
  constructor
  · rintro ⟨h1, h2, h3, h4⟩
    refine ⟨?_, h3, h4⟩
    unfold RootMissing at h1
    obtain ⟨t, h1⟩ := Classical.not_forall.1 h1
    obtain ⟨ht, h1⟩ := Classical.not_imp.1 h1
    cases hd : s.types.lookup (tyName t) with
    | none => exact absurd hd h1
    | some d => exact ⟨t, ht, d, hd, h2 t d ht hd⟩
  · rintro ⟨⟨t, ht, d, hd, hk⟩, h3, h4⟩
    refine ⟨fun h => ?_, fun t' d' ht' hd' => ?_, h3, h4⟩
    · rw [h t ht] at hd; cases hd
    · rw [ht] at ht'
      cases ht'
      rw [hd] at hd'
      cases hd'
      exact hk

theorem fieldErrors_nil {s : Schema} {d : TypeDef} : fieldErrors s d = [] ↔ d.fields ≠ [] ∧ (∀ f ∈ d.fields, UserName f.name ∧ OutputType s f.type) ∧
    ∀ f ∈ d.fields, (f.args.map (·.name)).Nodup ∧ ∀ a ∈ f.args, UserName a.name ∧ InputType s a.type := by
  unfold fieldErrors
  simp only [List.append_eq_nil_iff, List.flatMap_eq_nil_iff, List.map_eq_nil_iff, ifNil, nameErrors_nil, repeated_nil]
  refine Iff.trans (and_congr (c := d.fields ≠ []) ?_ Iff.rfl) ?_
  · by_cases h : d.fields = [] <;> simp [h]
  constructor
  · rintro ⟨h1, h2⟩
    exact ⟨h1, fun f hf => (h2 f hf).1.1, fun f hf => ⟨(h2 f hf).2, (h2 f hf).1.2⟩⟩
  · rintro ⟨h1, h2, h3⟩
    exact ⟨h1, fun f hf => ⟨⟨h2 f hf, (h3 f hf).2⟩, (h3 f hf).1⟩⟩

theorem implementationErrors_nil {s : Schema} {d i : TypeDef} : implementationErrors s d i = [] ↔ ∀ f ∈ i.fields,
    ∃ g, d.fields.find? (fun g => g.name == f.name) = some g ∧ Provides s g f := by
  unfold implementationErrors
  rw [List.flatMap_eq_nil_iff]
  refine forall_congr' fun f => forall_congr' fun _ => ?_
  cases h : d.fields.find? (fun g => g.name == f.name) with
  | none => simp
  | some g =>
    have hn : g.name = f.name := by simpa using List.find?_some h
    dsimp only
    rw [ifNil]
    constructor
    · intro hs; exact ⟨g, rfl, hn, hs⟩
    · rintro ⟨g', e, -, hs⟩; cases e; exact hs

theorem interfaceErrors_nil {s : Schema} {d : TypeDef} : interfaceErrors s d = [] ↔
    ((∀ i ∈ d.ifaces, IsKind s (tyName i) .interface) ∧ (d.ifaces.map tyName).Nodup) ∧
    ∀ t ∈ d.ifaces, ∀ i, s.types.lookup (tyName t) = some i → ∀ f ∈ i.fields, ∃ g, d.fields.find? (fun g => g.name == f.name) = some g ∧ Provides s g f := by
  unfold interfaceErrors
  simp only [List.append_eq_nil_iff, List.flatMap_eq_nil_iff, List.map_eq_nil_iff, repeated_nil, List.filter_eq_nil_iff, decide_eq_true_eq, Classical.not_not,
    List.mem_eraseDups]
  have hall : (∀ a ∈ d.ifaces.map tyName, IsKind s a .interface) ↔ ∀ i ∈ d.ifaces, IsKind s (tyName i) .interface := by simp
  rw [hall]
  have key : (∀ i ∈ d.ifaces, IsKind s (tyName i) .interface) → Spec.interfaces s d = d.ifaces.map tyName := by
    intro h
    unfold Spec.interfaces
    rw [List.filter_eq_self]
    intro a ha
    obtain ⟨i, hi, rfl⟩ := List.mem_map.1 ha
    exact decide_eq_true (h i hi)
  have impl : ∀ n, (match s.types.lookup n with | some i => implementationErrors s d i | none => []) = [] ↔
      ∀ i, s.types.lookup n = some i → ∀ f ∈ i.fields, ∃ g, d.fields.find? (fun g => g.name == f.name) = some g ∧ Provides s g f := by
    intro n
    cases h : s.types.lookup n with
    | none => simp
    | some i =>
      dsimp only
      rw [implementationErrors_nil]
      constructor
      · intro h i' e; cases e; exact h
      · intro h; exact h i rfl
  constructor
  · rintro ⟨⟨h1, h2⟩, h3⟩
    rw [key h1] at h2 h3
    exact ⟨⟨h1, h2⟩, fun t ht => (impl _).1 (h3 _ (List.mem_map_of_mem ht))⟩
  · rintro ⟨⟨h1, h2⟩, h3⟩
    rw [key h1]
    refine ⟨⟨h1, h2⟩, fun n hn => ?_⟩
    obtain ⟨t, ht, rfl⟩ := List.mem_map.1 hn
    exact (impl _).2 (h3 t ht)

/-- What `ValidateSchema` finds no error in is what is `SoundSchema`. -/
theorem schemaErrors_nil {s : Schema} : schemaErrors s = [] ↔ SoundSchema s := by
  unfold schemaErrors
  simp only [List.append_eq_nil_iff, List.flatMap_eq_nil_iff, rootErrors_nil]
  have hdir : ∀ p : Bytes × DirDef, directiveDefErrors p = [] ↔ UserName p.1 ∧ (p.2.args.map (·.name)).Nodup ∧ ∀ a ∈ p.2.args, UserName a.name := by
    intro p
    unfold directiveDefErrors
    simp only [List.append_eq_nil_iff, List.flatMap_eq_nil_iff, List.map_eq_nil_iff, nameErrors_nil, repeated_nil, List.mem_eraseDups, List.mem_map,
      forall_exists_index, and_imp, forall_apply_eq_imp_iff₂]
    exact ⟨fun ⟨⟨a, b⟩, c⟩ => ⟨a, c, b⟩, fun ⟨a, c, b⟩ => ⟨⟨a, b⟩, c⟩⟩
  have hty : ∀ p : Bytes × TypeDef, typeErrors s p = [] ↔ (UserName p.1 ∨ p.1 ∈ introspectionNames) ∧ (HasFields p.2 → fieldErrors s p.2 = []) ∧
      (p.2.kind = .object → interfaceErrors s p.2 = []) := by
    intro p
    unfold typeErrors HasFields
    simp only [List.append_eq_nil_iff, and_assoc]
    refine and_congr ?_ (and_congr ?_ ?_)
    · by_cases h : p.1 ∈ introspectionNames <;> simp [h, nameErrors_nil]
    · by_cases h : p.2.kind = .object ∨ p.2.kind = .interface <;> simp [h]
    · by_cases h : p.2.kind = .object <;> simp [h]
  simp only [hdir, hty]
  constructor
  · rintro ⟨⟨⟨h1, h2, h3⟩, h4⟩, h5⟩
    exact {
      query := h1, mutation := h2, subscription := h3
      typeNames := fun n d h => (h5 (n, d) h).1
      someField := fun n d h hf => (fieldErrors_nil.1 ((h5 (n, d) h).2.1 hf)).1
      fields := fun n d h hf => (fieldErrors_nil.1 ((h5 (n, d) h).2.1 hf)).2.1
      arguments := fun n d h hf => (fieldErrors_nil.1 ((h5 (n, d) h).2.1 hf)).2.2
      interfaces := fun n d h hk => (interfaceErrors_nil.1 ((h5 (n, d) h).2.2 hk)).1
      implementation := fun n d h hk => (interfaceErrors_nil.1 ((h5 (n, d) h).2.2 hk)).2
      directives := fun n d h => h4 (n, d) h }
  · intro h
    exact ⟨⟨⟨h.query, h.mutation, h.subscription⟩, fun p hp => h.directives p.1 p.2 hp⟩, fun p hp => ⟨h.typeNames p.1 p.2 hp,
      fun hf => fieldErrors_nil.2 ⟨h.someField _ _ hp hf, h.fields _ _ hp hf, h.arguments _ _ hp hf⟩,
      fun hk => interfaceErrors_nil.2 ⟨h.interfaces _ _ hp hk, h.implementation _ _ hp hk⟩⟩⟩

section
variable {pf : Bytes → Option Nat} {ord : Orders} {input : Bytes} {schema : Option Schema} {r : SDLResult}

/-- **C65, in part**: every schema that `ParseSDLDoc` returns is `SoundSchema` (Spec/ValidSchema).
Missing for `ValidSchema`: the requirements in `C65_refuted`. -/
theorem C65_partial {b : Schema} (h : SDLDocReturns pf ord input schema r) (hb : r.schema = some b) : SoundSchema b := by
  obtain ⟨d, -, -, -, -, h, -⟩ := accepted h hb
  exact schemaErrors_nil.1 h

/-- **C65, exactly**: for a text that parses and that the SDL rules accept, the outcome is decided by `SoundSchema` of the schema that is built: if `ParseSDLDoc` returns, it returns that
schema if it is sound, and errors otherwise. -/
theorem C65_exact {d : Document} (hp : parse pf input = .ok d) (he : sdlErrors schema d = []) (h : SDLDocReturns pf ord input schema r) :
    ∃ b, Built schema d.defs b ∧ (r.schema = some b ↔ SoundSchema b) ∧ (r.schema = none ↔ ¬ SoundSchema b) ∧ (r.errors = none ↔ SoundSchema b) := by
  obtain ⟨b, hB, -, -, -, hall⟩ := sdlDoc_cases (ord := ord) hp he
  refine ⟨b, hB, ?_⟩
  obtain ⟨-, -, h3 | h3⟩ := hall r h
  · have hs := schemaErrors_nil.1 h3.1
    rw [h3.2.1, h3.2.2]
    simp [hs]
  · have hs : ¬ SoundSchema b := fun h => h3.1 (schemaErrors_nil.2 h)
    obtain ⟨es, he, -⟩ := h3.2.2
    rw [h3.2.1, he]
    simp [hs]

/-- For some text, `ParseSDLDoc` returns a schema that does not meet the requirement `P`. -/
def Violated (pf : Bytes → Option Nat) (P : Schema → Prop) : Prop := ∃ input r b, SDLDocReturns pf plainOrders input none r ∧ r.errors = none ∧ r.schema = some b ∧ ¬ P b

theorem typeIn {s : Schema} {n : Bytes} {d : TypeDef} (h : s.types.lookup n = some d) : (n, d) ∈ s.types := by
  have : ∀ m : GMap TypeDef, m.lookup n = some d → (n, d) ∈ m := by
    intro m
    induction m with
    | nil => intro h; cases h
    | cons p m ih =>
      intro h
      rw [lookup_cons] at h
      by_cases hn : (n == p.1) = true
      · rw [if_pos hn] at h
        cases h
        rw [eq_of_beq hn]
        exact .head _
      · rw [if_neg hn] at h
        exact .tail _ (ih h)
  exact this _ h

/-- `schema{query:Query mutation:Int}type Query{a:String}` -/
theorem mutationKnown_violated : Violated pf MutationKnown :=
  ⟨b!"schema{query:Query mutation:Int}type Query{a:String}", _, _, ⟨9, by unfold parseSDLDoc; rw [(parse_eq (ts := [⟨.name, b!"schema", 1, 1⟩, ⟨.punctuator, b!"{", 1, 7⟩, ⟨.name, b!"query", 1, 8⟩, ⟨.punctuator, b!":", 1, 13⟩, ⟨.name, b!"Query", 1, 14⟩, ⟨.name, b!"mutation", 1, 20⟩, ⟨.punctuator, b!":", 1, 28⟩, ⟨.name, b!"Int", 1, 29⟩, ⟨.punctuator, b!"}", 1, 32⟩, ⟨.name, b!"type", 1, 33⟩, ⟨.name, b!"Query", 1, 38⟩, ⟨.punctuator, b!"{", 1, 43⟩, ⟨.name, b!"a", 1, 44⟩, ⟨.punctuator, b!":", 1, 45⟩, ⟨.name, b!"String", 1, 46⟩, ⟨.punctuator, b!"}", 1, 52⟩, ⟨.eof, [], 1, 53⟩]) (by decide) rfl)]; rfl⟩, rfl, rfl, fun h => by obtain ⟨d, hd, -⟩ := h _ rfl; cases hd⟩

/-- `type Query{a:String a:ID}` -/
theorem fieldsOnce_violated : Violated pf FieldsOnce :=
  ⟨b!"type Query{a:String a:ID}", _, _, ⟨9, by unfold parseSDLDoc; rw [(parse_eq (ts := [⟨.name, b!"type", 1, 1⟩, ⟨.name, b!"Query", 1, 6⟩, ⟨.punctuator, b!"{", 1, 11⟩, ⟨.name, b!"a", 1, 12⟩, ⟨.punctuator, b!":", 1, 13⟩, ⟨.name, b!"String", 1, 14⟩, ⟨.name, b!"a", 1, 21⟩, ⟨.punctuator, b!":", 1, 22⟩, ⟨.name, b!"ID", 1, 23⟩, ⟨.punctuator, b!"}", 1, 25⟩, ⟨.eof, [], 1, 26⟩]) (by decide) rfl)]; rfl⟩, rfl, rfl, fun h => absurd (h _ _ (typeIn (n := b!"Query") rfl)) (by decide)⟩

/-- `interface I{a(b:ID):String}type Query implements I{a:String}` -/
theorem argumentsProvided_violated : Violated pf ArgumentsProvided :=
  ⟨b!"interface I{a(b:ID):String}type Query implements I{a:String}", _, _, ⟨9, by unfold parseSDLDoc; rw [(parse_eq (ts := [⟨.name, b!"interface", 1, 1⟩, ⟨.name, b!"I", 1, 11⟩, ⟨.punctuator, b!"{", 1, 12⟩, ⟨.name, b!"a", 1, 13⟩, ⟨.punctuator, b!"(", 1, 14⟩, ⟨.name, b!"b", 1, 15⟩, ⟨.punctuator, b!":", 1, 16⟩, ⟨.name, b!"ID", 1, 17⟩, ⟨.punctuator, b!")", 1, 19⟩, ⟨.punctuator, b!":", 1, 20⟩, ⟨.name, b!"String", 1, 21⟩, ⟨.punctuator, b!"}", 1, 27⟩, ⟨.name, b!"type", 1, 28⟩, ⟨.name, b!"Query", 1, 33⟩, ⟨.name, b!"implements", 1, 39⟩, ⟨.name, b!"I", 1, 50⟩, ⟨.punctuator, b!"{", 1, 51⟩, ⟨.name, b!"a", 1, 52⟩, ⟨.punctuator, b!":", 1, 53⟩, ⟨.name, b!"String", 1, 54⟩, ⟨.punctuator, b!"}", 1, 60⟩, ⟨.eof, [], 1, 61⟩]) (by decide) rfl)]; rfl⟩, rfl, rfl, fun h => by obtain ⟨x, hx, -⟩ := h _ _ (typeIn (n := b!"Query") rfl) rfl _ (.head _) _ rfl _ (.head _) _ (.head _) rfl _ (.head _); cases hx⟩

/-- `interface I{a:String}type Query implements I{a(b:ID!):String}` -/
theorem noArgumentsRequired_violated : Violated pf NoArgumentsRequired :=
  ⟨b!"interface I{a:String}type Query implements I{a(b:ID!):String}", _, _, ⟨9, by unfold parseSDLDoc; rw [(parse_eq (ts := [⟨.name, b!"interface", 1, 1⟩, ⟨.name, b!"I", 1, 11⟩, ⟨.punctuator, b!"{", 1, 12⟩, ⟨.name, b!"a", 1, 13⟩, ⟨.punctuator, b!":", 1, 14⟩, ⟨.name, b!"String", 1, 15⟩, ⟨.punctuator, b!"}", 1, 21⟩, ⟨.name, b!"type", 1, 22⟩, ⟨.name, b!"Query", 1, 27⟩, ⟨.name, b!"implements", 1, 33⟩, ⟨.name, b!"I", 1, 44⟩, ⟨.punctuator, b!"{", 1, 45⟩, ⟨.name, b!"a", 1, 46⟩, ⟨.punctuator, b!"(", 1, 47⟩, ⟨.name, b!"b", 1, 48⟩, ⟨.punctuator, b!":", 1, 49⟩, ⟨.name, b!"ID", 1, 50⟩, ⟨.punctuator, b!"!", 1, 52⟩, ⟨.punctuator, b!")", 1, 53⟩, ⟨.punctuator, b!":", 1, 54⟩, ⟨.name, b!"String", 1, 55⟩, ⟨.punctuator, b!"}", 1, 61⟩, ⟨.eof, [], 1, 62⟩]) (by decide) rfl)]; rfl⟩, rfl, rfl, fun h => by obtain ⟨x, hx, -⟩ := h _ _ (typeIn (n := b!"Query") rfl) rfl _ (.head _) _ rfl _ (.head _) _ (.head _) rfl _ (.head _) rfl; cases hx⟩

/-- `type Query{a:String} union U=ID` -/
theorem membersObjects_violated : Violated pf MembersObjects :=
  ⟨b!"type Query{a:String} union U=ID", _, _, ⟨9, by unfold parseSDLDoc; rw [(parse_eq (ts := [⟨.name, b!"type", 1, 1⟩, ⟨.name, b!"Query", 1, 6⟩, ⟨.punctuator, b!"{", 1, 11⟩, ⟨.name, b!"a", 1, 12⟩, ⟨.punctuator, b!":", 1, 13⟩, ⟨.name, b!"String", 1, 14⟩, ⟨.punctuator, b!"}", 1, 20⟩, ⟨.name, b!"union", 1, 22⟩, ⟨.name, b!"U", 1, 28⟩, ⟨.punctuator, b!"=", 1, 29⟩, ⟨.name, b!"ID", 1, 30⟩, ⟨.eof, [], 1, 32⟩]) (by decide) rfl)]; rfl⟩, rfl, rfl, fun h => by obtain ⟨d, hd, hk⟩ := h _ _ (typeIn (n := b!"U") rfl) rfl _ (.head _); cases hd; cases hk⟩

/-- `type Query{a:String} union U` -/
theorem someMember_violated : Violated pf SomeMember :=
  ⟨b!"type Query{a:String} union U", _, _, ⟨9, by unfold parseSDLDoc; rw [(parse_eq (ts := [⟨.name, b!"type", 1, 1⟩, ⟨.name, b!"Query", 1, 6⟩, ⟨.punctuator, b!"{", 1, 11⟩, ⟨.name, b!"a", 1, 12⟩, ⟨.punctuator, b!":", 1, 13⟩, ⟨.name, b!"String", 1, 14⟩, ⟨.punctuator, b!"}", 1, 20⟩, ⟨.name, b!"union", 1, 22⟩, ⟨.name, b!"U", 1, 28⟩, ⟨.eof, [], 1, 29⟩]) (by decide) rfl)]; rfl⟩, rfl, rfl, fun h => h _ _ (typeIn (n := b!"U") rfl) rfl rfl⟩

/-- `type Query{a:String} union U=Query|Query` -/
theorem membersOnce_violated : Violated pf MembersOnce :=
  ⟨b!"type Query{a:String} union U=Query|Query", _, _, ⟨9, by unfold parseSDLDoc; rw [(parse_eq (ts := [⟨.name, b!"type", 1, 1⟩, ⟨.name, b!"Query", 1, 6⟩, ⟨.punctuator, b!"{", 1, 11⟩, ⟨.name, b!"a", 1, 12⟩, ⟨.punctuator, b!":", 1, 13⟩, ⟨.name, b!"String", 1, 14⟩, ⟨.punctuator, b!"}", 1, 20⟩, ⟨.name, b!"union", 1, 22⟩, ⟨.name, b!"U", 1, 28⟩, ⟨.punctuator, b!"=", 1, 29⟩, ⟨.name, b!"Query", 1, 30⟩, ⟨.punctuator, b!"|", 1, 35⟩, ⟨.name, b!"Query", 1, 36⟩, ⟨.eof, [], 1, 41⟩]) (by decide) rfl)]; rfl⟩, rfl, rfl, fun h => absurd (h _ _ (typeIn (n := b!"U") rfl) rfl) (by decide)⟩

/-- `type Query{a:String} enum E` -/
theorem someValue_violated : Violated pf SomeValue :=
  ⟨b!"type Query{a:String} enum E", _, _, ⟨9, by unfold parseSDLDoc; rw [(parse_eq (ts := [⟨.name, b!"type", 1, 1⟩, ⟨.name, b!"Query", 1, 6⟩, ⟨.punctuator, b!"{", 1, 11⟩, ⟨.name, b!"a", 1, 12⟩, ⟨.punctuator, b!":", 1, 13⟩, ⟨.name, b!"String", 1, 14⟩, ⟨.punctuator, b!"}", 1, 20⟩, ⟨.name, b!"enum", 1, 22⟩, ⟨.name, b!"E", 1, 27⟩, ⟨.eof, [], 1, 28⟩]) (by decide) rfl)]; rfl⟩, rfl, rfl, fun h => h _ _ (typeIn (n := b!"E") rfl) rfl rfl⟩

/-- `type Query{a:String} enum E{A A}` -/
theorem valuesOnce_violated : Violated pf ValuesOnce :=
  ⟨b!"type Query{a:String} enum E{A A}", _, _, ⟨9, by unfold parseSDLDoc; rw [(parse_eq (ts := [⟨.name, b!"type", 1, 1⟩, ⟨.name, b!"Query", 1, 6⟩, ⟨.punctuator, b!"{", 1, 11⟩, ⟨.name, b!"a", 1, 12⟩, ⟨.punctuator, b!":", 1, 13⟩, ⟨.name, b!"String", 1, 14⟩, ⟨.punctuator, b!"}", 1, 20⟩, ⟨.name, b!"enum", 1, 22⟩, ⟨.name, b!"E", 1, 27⟩, ⟨.punctuator, b!"{", 1, 28⟩, ⟨.name, b!"A", 1, 29⟩, ⟨.name, b!"A", 1, 31⟩, ⟨.punctuator, b!"}", 1, 32⟩, ⟨.eof, [], 1, 33⟩]) (by decide) rfl)]; rfl⟩, rfl, rfl, fun h => absurd (h _ _ (typeIn (n := b!"E") rfl) rfl) (by decide)⟩

/-- `type Query{a:String} input I` -/
theorem someInput_violated : Violated pf SomeInput :=
  ⟨b!"type Query{a:String} input I", _, _, ⟨9, by unfold parseSDLDoc; rw [(parse_eq (ts := [⟨.name, b!"type", 1, 1⟩, ⟨.name, b!"Query", 1, 6⟩, ⟨.punctuator, b!"{", 1, 11⟩, ⟨.name, b!"a", 1, 12⟩, ⟨.punctuator, b!":", 1, 13⟩, ⟨.name, b!"String", 1, 14⟩, ⟨.punctuator, b!"}", 1, 20⟩, ⟨.name, b!"input", 1, 22⟩, ⟨.name, b!"I", 1, 28⟩, ⟨.eof, [], 1, 29⟩]) (by decide) rfl)]; rfl⟩, rfl, rfl, fun h => h _ _ (typeIn (n := b!"I") rfl) rfl rfl⟩

/-- `type Query{a:String} input I{a:ID a:ID}` -/
theorem inputsOnce_violated : Violated pf InputsOnce :=
  ⟨b!"type Query{a:String} input I{a:ID a:ID}", _, _, ⟨9, by unfold parseSDLDoc; rw [(parse_eq (ts := [⟨.name, b!"type", 1, 1⟩, ⟨.name, b!"Query", 1, 6⟩, ⟨.punctuator, b!"{", 1, 11⟩, ⟨.name, b!"a", 1, 12⟩, ⟨.punctuator, b!":", 1, 13⟩, ⟨.name, b!"String", 1, 14⟩, ⟨.punctuator, b!"}", 1, 20⟩, ⟨.name, b!"input", 1, 22⟩, ⟨.name, b!"I", 1, 28⟩, ⟨.punctuator, b!"{", 1, 29⟩, ⟨.name, b!"a", 1, 30⟩, ⟨.punctuator, b!":", 1, 31⟩, ⟨.name, b!"ID", 1, 32⟩, ⟨.name, b!"a", 1, 35⟩, ⟨.punctuator, b!":", 1, 36⟩, ⟨.name, b!"ID", 1, 37⟩, ⟨.punctuator, b!"}", 1, 39⟩, ⟨.eof, [], 1, 40⟩]) (by decide) rfl)]; rfl⟩, rfl, rfl, fun h => absurd (h _ _ (typeIn (n := b!"I") rfl) rfl) (by decide)⟩

/-- `type Query{a:String} input I{a:Query}` -/
theorem inputsInput_violated : Violated pf InputsInput :=
  ⟨b!"type Query{a:String} input I{a:Query}", _, _, ⟨9, by unfold parseSDLDoc; rw [(parse_eq (ts := [⟨.name, b!"type", 1, 1⟩, ⟨.name, b!"Query", 1, 6⟩, ⟨.punctuator, b!"{", 1, 11⟩, ⟨.name, b!"a", 1, 12⟩, ⟨.punctuator, b!":", 1, 13⟩, ⟨.name, b!"String", 1, 14⟩, ⟨.punctuator, b!"}", 1, 20⟩, ⟨.name, b!"input", 1, 22⟩, ⟨.name, b!"I", 1, 28⟩, ⟨.punctuator, b!"{", 1, 29⟩, ⟨.name, b!"a", 1, 30⟩, ⟨.punctuator, b!":", 1, 31⟩, ⟨.name, b!"Query", 1, 32⟩, ⟨.punctuator, b!"}", 1, 37⟩, ⟨.eof, [], 1, 38⟩]) (by decide) rfl)]; rfl⟩, rfl, rfl, fun h => by obtain ⟨n, hn, hk⟩ := h _ _ (typeIn (n := b!"I") rfl) rfl _ (.head _); cases hn; rcases hk with ⟨d, hd, hk⟩ | ⟨d, hd, hk⟩ | ⟨d, hd, hk⟩ <;> cases hd <;> cases hk⟩

/-- `type Query{a:String}directive@d(a:Query)on FIELD` -/
theorem directiveInputs_violated : Violated pf DirectiveInputs :=
  ⟨b!"type Query{a:String}directive@d(a:Query)on FIELD", _, _, ⟨9, by unfold parseSDLDoc; rw [(parse_eq (ts := [⟨.name, b!"type", 1, 1⟩, ⟨.name, b!"Query", 1, 6⟩, ⟨.punctuator, b!"{", 1, 11⟩, ⟨.name, b!"a", 1, 12⟩, ⟨.punctuator, b!":", 1, 13⟩, ⟨.name, b!"String", 1, 14⟩, ⟨.punctuator, b!"}", 1, 20⟩, ⟨.name, b!"directive", 1, 21⟩, ⟨.punctuator, b!"@", 1, 30⟩, ⟨.name, b!"d", 1, 31⟩, ⟨.punctuator, b!"(", 1, 32⟩, ⟨.name, b!"a", 1, 33⟩, ⟨.punctuator, b!":", 1, 34⟩, ⟨.name, b!"Query", 1, 35⟩, ⟨.punctuator, b!")", 1, 40⟩, ⟨.name, b!"on", 1, 41⟩, ⟨.name, b!"FIELD", 1, 44⟩, ⟨.eof, [], 1, 49⟩]) (by decide) rfl)]; rfl⟩, rfl, rfl, fun h => by obtain ⟨n, hn, hk⟩ := h b!"d" _ (.head _) _ (.head _); cases hn; rcases hk with ⟨d, hd, hk⟩ | ⟨d, hd, hk⟩ | ⟨d, hd, hk⟩ <;> cases hd <;> cases hk⟩

/-- **C65 fails as stated**: each of the requirements that `SoundSchema` leaves out is violated by some schema that `ParseSDLDoc` returns. -/
theorem C65_refuted : Violated pf MutationKnown ∧
    Violated pf FieldsOnce ∧
    Violated pf ArgumentsProvided ∧
    Violated pf NoArgumentsRequired ∧
    Violated pf MembersObjects ∧
    Violated pf SomeMember ∧
    Violated pf MembersOnce ∧
    Violated pf SomeValue ∧
    Violated pf ValuesOnce ∧
    Violated pf SomeInput ∧
    Violated pf InputsOnce ∧
    Violated pf InputsInput ∧
    Violated pf DirectiveInputs :=
  ⟨mutationKnown_violated, fieldsOnce_violated, argumentsProvided_violated, noArgumentsRequired_violated, membersObjects_violated, someMember_violated, membersOnce_violated, someValue_violated, valuesOnce_violated, someInput_violated, inputsOnce_violated, inputsInput_violated, directiveInputs_violated⟩

/-- A text for which `C65_partial` and `C65_exact` apply, and the result is `ValidSchema` indeed (apart from types that are not used). -/
example : ∃ r b, SDLDocReturns pf plainOrders b!"interface I{a(b:ID):String}type Query implements I{a(b:ID):String}" none r ∧ r.schema = some b ∧ SoundSchema b := by
  have h : ∃ r b, SDLDocReturns pf plainOrders b!"interface I{a(b:ID):String}type Query implements I{a(b:ID):String}" none r ∧ r.schema = some b :=
    ⟨_, _, ⟨9, by unfold parseSDLDoc; rw [(parse_eq (ts := [⟨.name, b!"interface", 1, 1⟩, ⟨.name, b!"I", 1, 11⟩, ⟨.punctuator, b!"{", 1, 12⟩, ⟨.name, b!"a", 1, 13⟩, ⟨.punctuator, b!"(", 1, 14⟩, ⟨.name, b!"b", 1, 15⟩, ⟨.punctuator, b!":", 1, 16⟩, ⟨.name, b!"ID", 1, 17⟩, ⟨.punctuator, b!")", 1, 19⟩, ⟨.punctuator, b!":", 1, 20⟩, ⟨.name, b!"String", 1, 21⟩, ⟨.punctuator, b!"}", 1, 27⟩, ⟨.name, b!"type", 1, 28⟩, ⟨.name, b!"Query", 1, 33⟩, ⟨.name, b!"implements", 1, 39⟩, ⟨.name, b!"I", 1, 50⟩, ⟨.punctuator, b!"{", 1, 51⟩, ⟨.name, b!"a", 1, 52⟩, ⟨.punctuator, b!"(", 1, 53⟩, ⟨.name, b!"b", 1, 54⟩, ⟨.punctuator, b!":", 1, 55⟩, ⟨.name, b!"ID", 1, 56⟩, ⟨.punctuator, b!")", 1, 58⟩, ⟨.punctuator, b!":", 1, 59⟩, ⟨.name, b!"String", 1, 60⟩, ⟨.punctuator, b!"}", 1, 66⟩, ⟨.eof, [], 1, 67⟩]) (by decide) rfl)]; rfl⟩, rfl⟩
  obtain ⟨r, b, h, hb⟩ := h
  exact ⟨r, b, h, hb, C65_partial h hb⟩

/-- And one that is rejected: the field of the interface is missing. -/
example : ∃ d r, parse pf b!"interface I{a:String}type Query implements I{b:String}" = .ok d ∧ sdlErrors none d = [] ∧
    SDLDocReturns pf plainOrders b!"interface I{a:String}type Query implements I{b:String}" none r ∧ r.schema = none :=
  ⟨_, _, (parse_eq (ts := [⟨.name, b!"interface", 1, 1⟩, ⟨.name, b!"I", 1, 11⟩, ⟨.punctuator, b!"{", 1, 12⟩, ⟨.name, b!"a", 1, 13⟩, ⟨.punctuator, b!":", 1, 14⟩, ⟨.name, b!"String", 1, 15⟩, ⟨.punctuator, b!"}", 1, 21⟩, ⟨.name, b!"type", 1, 22⟩, ⟨.name, b!"Query", 1, 27⟩, ⟨.name, b!"implements", 1, 33⟩, ⟨.name, b!"I", 1, 44⟩, ⟨.punctuator, b!"{", 1, 45⟩, ⟨.name, b!"b", 1, 46⟩, ⟨.punctuator, b!":", 1, 47⟩, ⟨.name, b!"String", 1, 48⟩, ⟨.punctuator, b!"}", 1, 54⟩, ⟨.eof, [], 1, 55⟩]) (by decide) rfl), sdlErrors_nil (c := _) rfl rfl, ⟨9, by unfold parseSDLDoc; rw [(parse_eq (ts := [⟨.name, b!"interface", 1, 1⟩, ⟨.name, b!"I", 1, 11⟩, ⟨.punctuator, b!"{", 1, 12⟩, ⟨.name, b!"a", 1, 13⟩, ⟨.punctuator, b!":", 1, 14⟩, ⟨.name, b!"String", 1, 15⟩, ⟨.punctuator, b!"}", 1, 21⟩, ⟨.name, b!"type", 1, 22⟩, ⟨.name, b!"Query", 1, 27⟩, ⟨.name, b!"implements", 1, 33⟩, ⟨.name, b!"I", 1, 44⟩, ⟨.punctuator, b!"{", 1, 45⟩, ⟨.name, b!"b", 1, 46⟩, ⟨.punctuator, b!":", 1, 47⟩, ⟨.name, b!"String", 1, 48⟩, ⟨.punctuator, b!"}", 1, 54⟩, ⟨.eof, [], 1, 55⟩]) (by decide) rfl)]; rfl⟩, rfl⟩

end

end GQL
