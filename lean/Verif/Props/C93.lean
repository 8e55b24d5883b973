/-
C93 Validation does not look at descriptions and literal values.
-/
import Verif.Proofs.OutlineSchema
import Verif.Props.C82

namespace GQL
open Spec

/-- The results of `ParseSDLDoc` are the same, up to the order of errors and map entries, but for descriptions and literal values in the schemas. -/
structure Spec.SameOutlineResult (r r' : SDLResult) : Prop where
  err : r.err = r'.err
  errors : (r.errors = none ∧ r'.errors = none) ∨ ∃ es es', r.errors = some es ∧ r'.errors = some es' ∧ es.Perm es'
  schema : (r.schema = none ∧ r'.schema = none) ∨ ∃ s s', r.schema = some s ∧ r'.schema = some s' ∧ Spec.Same (bareSchema s) (bareSchema s')
  after : (r.after = none ∧ r'.after = none) ∨ ∃ s s', r.after = some s ∧ r'.after = some s' ∧ Spec.Same (bareSchema s) (bareSchema s')

theorem bareDocument_same {d d' : Document} (h : SameOutline d d') (hc : CountsOperations d) (hc' : CountsOperations d') : bareDocument d = bareDocument d' := by
  have hd := sameOutline_bare h
  have ho := congrArg List.length (congrArg Spec.operations hd)
  rw [operations_bare, operations_bare, List.length_map, List.length_map] at ho
  unfold bareDocument
  rw [hd, show d.operations = d'.operations from hc.trans (ho.trans hc'.symm)]

theorem same_refl (s : Schema) : Spec.Same s s := ⟨.refl _, .refl _, rfl, rfl, rfl, rfl⟩

section
variable {pf : Bytes → Option Nat} {a a' : Bytes} {d d' : Document} {schema schema' : Option Schema}

/-- **C93, the rules**: `Validate` with any rules for queries, and `ValidateSDL` with any rules, report the same errors in the same order for two
parsed documents of the same outline and schemas of the same outline. -/
theorem C93_rules (ha : parse pf a = .ok d) (ha' : parse pf a' = .ok d') (h : SameOutline d d') (hs : schema.map bareSchema = schema'.map bareSchema)
    (rs : List Rule) :
    ((∀ r ∈ rs, r.sdlOnly = false) → ∃ c c', validate d schema (rulesWalker rs) = .ret c ∧ validate d' schema' (rulesWalker rs) = .ret c' ∧ c.errors = c'.errors) ∧
    ∃ c c', validateSDL d schema (rulesWalker rs) = .ret c ∧ validateSDL d' schema' (rulesWalker rs) = .ret c' ∧ c.errors = c'.errors := by
  have hd := bareDocument_same h (parsed_counts ha) (parsed_counts ha')
  refine ⟨fun hr => ?_, ?_⟩
  · obtain ⟨c, h1, h2⟩ := validate_bare d schema rs hr
    obtain ⟨c', h1', h2'⟩ := validate_bare d' schema' rs hr
    rw [hd, hs, h2'] at h2
    exact ⟨c, c', h1, h1', (congrArg Ctx.errors (Out.ret.inj h2)).symm⟩
  · obtain ⟨c, h1, h2⟩ := validateSDL_bare d schema rs
    obtain ⟨c', h1', h2'⟩ := validateSDL_bare d' schema' rs
    rw [hd, hs, h2'] at h2
    exact ⟨c, c', h1, h1', (congrArg Ctx.errors (Out.ret.inj h2)).symm⟩

/-- **C93, queries**: of two texts that differ in nothing but descriptions, literal values and layout, `ParseDoc` accepts both, or rejects both with the
same errors in the same order. -/
theorem C93_query (ha : parse pf a = .ok d) (ha' : parse pf a' = .ok d') (h : SameOutline d d') (hs : schema.map bareSchema = schema'.map bareSchema) :
    (parseDoc pf a schema = .ret ⟨some d, none, none⟩ ∧ parseDoc pf a' schema' = .ret ⟨some d', none, none⟩) ∨
    ∃ errs, errs ≠ [] ∧ parseDoc pf a schema = .ret ⟨none, some errs, none⟩ ∧ parseDoc pf a' schema' = .ret ⟨none, some errs, none⟩ := by
  obtain ⟨c, c', h1, h2, h3⟩ := (C93_rules ha ha' h hs specified).1 specified_query
  unfold parseDoc
  rw [ha, ha']
  dsimp only
  rw [h1, h2]
  cases he : c.errors with
  | nil => exact .inl ⟨by simp [Out.bind, he], by simp [Out.bind, ← h3, he]⟩
  | cons e es => exact .inr ⟨e :: es, by simp, by simp [Out.bind, he], by simp [Out.bind, ← h3, he]⟩

variable {ord ord' : Orders} {r r' : SDLResult}

/-- **C93, schemas**: of two texts that differ in nothing but descriptions, literal values and layout, `ParseSDLDoc` returns for both or for neither,
and the results are the same but for descriptions and literal values in the schemas (up to the order of errors and of map entries). -/
theorem C93_sdl (ha : parse pf a = .ok d) (ha' : parse pf a' = .ok d') (h : SameOutline d d') (hs : schema.map bareSchema = schema'.map bareSchema) :
    ((∃ r, SDLDocReturns pf ord a schema r) ↔ ∃ r, SDLDocReturns pf ord' a' schema' r) ∧
    (SDLDocReturns pf ord a schema r → SDLDocReturns pf ord' a' schema' r' → Spec.SameOutlineResult r r') := by
  obtain ⟨c, c', h1, h1', hce⟩ := (C93_rules ha ha' h hs specifiedSDL).2
  obtain ⟨c1, e1, p1, -⟩ := validateSDL_all d schema
  obtain ⟨c2, e2, p2, -⟩ := validateSDL_all d' schema'
  rw [h1] at e1
  rw [h1'] at e2
  cases e1; cases e2
  have hp : (Spec.sdlErrors schema d).Perm (Spec.sdlErrors schema' d') := p1.symm.trans (hce ▸ p2)
  by_cases he : Spec.sdlErrors schema d = []
  · have he' : Spec.sdlErrors schema' d' = [] := by rw [he] at hp; exact hp.symm.eq_nil
    obtain ⟨b, hB, hW, hr, -, hall⟩ := sdlDoc_cases (ord := ord) ha he
    obtain ⟨b', hB', hW', hr', -, hall'⟩ := sdlDoc_cases (ord := ord') ha' he'
    have hS := built_outline hs h hB hB'
    refine ⟨?_, fun h h' => ?_⟩
    · rw [hr, hr', ← complete_bare b, ← complete_bare b', ← settled_bare b, ← settled_bare b']
      exact ⟨fun h => ⟨complete_imp hS h.1, settled_imp hS (wellFormed_bare hW) h.2⟩,
        fun h => ⟨complete_imp hS.symm h.1, settled_imp hS.symm (wellFormed_bare hW') h.2⟩⟩
    · obtain ⟨a1, a2, a3⟩ := hall r h
      obtain ⟨b1, b2, b3⟩ := hall' r' h'
      have hE := schemaErrors_same hS (wellFormed_bare hW)
      rw [schemaErrors_bare, schemaErrors_bare] at hE
      have haft : (r.after = none ∧ r'.after = none) ∨ ∃ s s', r.after = some s ∧ r'.after = some s' ∧ Spec.Same (bareSchema s) (bareSchema s') := by
        rw [a2, b2]
        cases schema <;> cases schema'
        · exact .inl ⟨rfl, rfl⟩
        · cases hs
        · cases hs
        · exact .inr ⟨b, b', rfl, rfl, hS⟩
      rcases a3 with ⟨x1, x2, x3⟩ | ⟨x1, x2, es, x3, x4⟩ <;> rcases b3 with ⟨y1, y2, y3⟩ | ⟨y1, y2, es', y3, y4⟩
      · exact ⟨a1.trans b1.symm, .inl ⟨x3, y3⟩, .inr ⟨b, b', x2, y2, hS⟩, haft⟩
      · rw [x1] at hE; exact absurd hE.symm.eq_nil y1
      · rw [y1] at hE; exact absurd hE.eq_nil x1
      · exact ⟨a1.trans b1.symm, .inr ⟨es, es', x3, y3, x4.trans (hE.trans y4.symm)⟩, .inl ⟨x2, y2⟩, haft⟩
  · have he' : Spec.sdlErrors schema' d' ≠ [] := fun h0 => he (by rw [h0] at hp; exact hp.eq_nil)
    refine ⟨⟨fun _ => ?_, fun _ => ?_⟩, ?_⟩
    · obtain ⟨es, h1, -⟩ := sdlDoc_rejected (ord := ord') ha' he' 0; exact ⟨_, 0, h1⟩
    · obtain ⟨es, h1, -⟩ := sdlDoc_rejected (ord := ord) ha he 0; exact ⟨_, 0, h1⟩
    · rintro ⟨k, h⟩ ⟨k', h'⟩
      obtain ⟨es, h1, h2⟩ := sdlDoc_rejected (ord := ord) ha he k
      obtain ⟨es', h1', h2'⟩ := sdlDoc_rejected (ord := ord') ha' he' k'
      rw [h1] at h
      rw [h1'] at h'
      cases h; cases h'
      refine ⟨rfl, .inr ⟨_, _, rfl, rfl, h2.trans (hp.trans h2'.symm)⟩, .inl ⟨rfl, rfl⟩, ?_⟩
      cases hx : schema with
      | none =>
        cases hy : schema' with
        | none => exact .inl ⟨rfl, rfl⟩
        | some y => rw [hx, hy] at hs; cases hs
      | some x =>
        cases hy : schema' with
        | none => rw [hx, hy] at hs; cases hs
        | some y =>
          rw [hx, hy] at hs
          have : bareSchema x = bareSchema y := Option.some.inj hs
          exact .inr ⟨x, y, rfl, rfl, this ▸ same_refl _⟩

end

section
variable (pf : Bytes → Option Nat)

/-- Two queries of the same outline: the literals are a string and an enum value, a number and an object with a truth value.  Both are accepted. -/
example : ∃ d d', parse pf b!"query Q($v: Int = 1) { f(a: \"x\", b: [$v, {k: true}]) }" = .ok d ∧
    parse pf b!"query Q($v: Int = \"one\") { f(a: RED, b: [$v, {k: null}]) }" = .ok d' ∧ SameOutline d d' ∧ d.defs.length = 1 ∧
    parseDoc pf b!"query Q($v: Int = 1) { f(a: \"x\", b: [$v, {k: true}]) }" none = .ret ⟨some d, none, none⟩ := by
  refine ⟨_, _, (parse_eq (ts := [⟨.name, b!"query", 1, 1⟩, ⟨.name, b!"Q", 1, 7⟩, ⟨.punctuator, b!"(", 1, 8⟩, ⟨.punctuator, b!"$", 1, 9⟩, ⟨.name, b!"v", 1, 10⟩, ⟨.punctuator, b!":", 1, 11⟩, ⟨.name, b!"Int", 1, 13⟩, ⟨.punctuator, b!"=", 1, 17⟩, ⟨.intValue, b!"1", 1, 19⟩, ⟨.punctuator, b!")", 1, 20⟩, ⟨.punctuator, b!"{", 1, 22⟩, ⟨.name, b!"f", 1, 24⟩, ⟨.punctuator, b!"(", 1, 25⟩, ⟨.name, b!"a", 1, 26⟩, ⟨.punctuator, b!":", 1, 27⟩, ⟨.stringValue, b!"x", 1, 29⟩, ⟨.name, b!"b", 1, 34⟩, ⟨.punctuator, b!":", 1, 35⟩, ⟨.punctuator, b!"[", 1, 37⟩, ⟨.punctuator, b!"$", 1, 38⟩, ⟨.name, b!"v", 1, 39⟩, ⟨.punctuator, b!"{", 1, 42⟩, ⟨.name, b!"k", 1, 43⟩, ⟨.punctuator, b!":", 1, 44⟩, ⟨.name, b!"true", 1, 46⟩, ⟨.punctuator, b!"}", 1, 50⟩, ⟨.punctuator, b!"]", 1, 51⟩, ⟨.punctuator, b!")", 1, 52⟩, ⟨.punctuator, b!"}", 1, 54⟩, ⟨.eof, [], 1, 55⟩]) (by decide) rfl), (parse_eq (ts := [⟨.name, b!"query", 1, 1⟩, ⟨.name, b!"Q", 1, 7⟩, ⟨.punctuator, b!"(", 1, 8⟩, ⟨.punctuator, b!"$", 1, 9⟩, ⟨.name, b!"v", 1, 10⟩, ⟨.punctuator, b!":", 1, 11⟩, ⟨.name, b!"Int", 1, 13⟩, ⟨.punctuator, b!"=", 1, 17⟩, ⟨.stringValue, b!"one", 1, 19⟩, ⟨.punctuator, b!")", 1, 24⟩, ⟨.punctuator, b!"{", 1, 26⟩, ⟨.name, b!"f", 1, 28⟩, ⟨.punctuator, b!"(", 1, 29⟩, ⟨.name, b!"a", 1, 30⟩, ⟨.punctuator, b!":", 1, 31⟩, ⟨.name, b!"RED", 1, 33⟩, ⟨.name, b!"b", 1, 38⟩, ⟨.punctuator, b!":", 1, 39⟩, ⟨.punctuator, b!"[", 1, 41⟩, ⟨.punctuator, b!"$", 1, 42⟩, ⟨.name, b!"v", 1, 43⟩, ⟨.punctuator, b!"{", 1, 46⟩, ⟨.name, b!"k", 1, 47⟩, ⟨.punctuator, b!":", 1, 48⟩, ⟨.name, b!"null", 1, 50⟩, ⟨.punctuator, b!"}", 1, 54⟩, ⟨.punctuator, b!"]", 1, 55⟩, ⟨.punctuator, b!")", 1, 56⟩, ⟨.punctuator, b!"}", 1, 58⟩, ⟨.eof, [], 1, 59⟩]) (by decide) rfl), rfl, rfl, ?_⟩
  unfold parseDoc
  rw [(parse_eq (ts := [⟨.name, b!"query", 1, 1⟩, ⟨.name, b!"Q", 1, 7⟩, ⟨.punctuator, b!"(", 1, 8⟩, ⟨.punctuator, b!"$", 1, 9⟩, ⟨.name, b!"v", 1, 10⟩, ⟨.punctuator, b!":", 1, 11⟩, ⟨.name, b!"Int", 1, 13⟩, ⟨.punctuator, b!"=", 1, 17⟩, ⟨.intValue, b!"1", 1, 19⟩, ⟨.punctuator, b!")", 1, 20⟩, ⟨.punctuator, b!"{", 1, 22⟩, ⟨.name, b!"f", 1, 24⟩, ⟨.punctuator, b!"(", 1, 25⟩, ⟨.name, b!"a", 1, 26⟩, ⟨.punctuator, b!":", 1, 27⟩, ⟨.stringValue, b!"x", 1, 29⟩, ⟨.name, b!"b", 1, 34⟩, ⟨.punctuator, b!":", 1, 35⟩, ⟨.punctuator, b!"[", 1, 37⟩, ⟨.punctuator, b!"$", 1, 38⟩, ⟨.name, b!"v", 1, 39⟩, ⟨.punctuator, b!"{", 1, 42⟩, ⟨.name, b!"k", 1, 43⟩, ⟨.punctuator, b!":", 1, 44⟩, ⟨.name, b!"true", 1, 46⟩, ⟨.punctuator, b!"}", 1, 50⟩, ⟨.punctuator, b!"]", 1, 51⟩, ⟨.punctuator, b!")", 1, 52⟩, ⟨.punctuator, b!"}", 1, 54⟩, ⟨.eof, [], 1, 55⟩]) (by decide) rfl)]
  rfl

/-- Two schemas of the same outline, with and without descriptions; the literals differ. -/
example : ∃ d d', parse pf b!"\"the root\" type Query { \"a field\" f(\"an argument\" x: String = 1): ID @deprecated(reason: \"old\") }" = .ok d ∧
    parse pf b!"type Query { f(x: String = RED): ID @deprecated(reason: 7) }" = .ok d' ∧ SameOutline d d' ∧ d.defs.length = 1 ∧
    ∃ s, parseSDLDoc pf 5 plainOrders b!"\"the root\" type Query { \"a field\" f(\"an argument\" x: String = 1): ID @deprecated(reason: \"old\") }" none = .ret ⟨some s, none, none, none⟩ := by
  refine ⟨_, _, (parse_eq (ts := [⟨.stringValue, b!"the root", 1, 1⟩, ⟨.name, b!"type", 1, 12⟩, ⟨.name, b!"Query", 1, 17⟩, ⟨.punctuator, b!"{", 1, 23⟩, ⟨.stringValue, b!"a field", 1, 25⟩, ⟨.name, b!"f", 1, 35⟩, ⟨.punctuator, b!"(", 1, 36⟩, ⟨.stringValue, b!"an argument", 1, 37⟩, ⟨.name, b!"x", 1, 51⟩, ⟨.punctuator, b!":", 1, 52⟩, ⟨.name, b!"String", 1, 54⟩, ⟨.punctuator, b!"=", 1, 61⟩, ⟨.intValue, b!"1", 1, 63⟩, ⟨.punctuator, b!")", 1, 64⟩, ⟨.punctuator, b!":", 1, 65⟩, ⟨.name, b!"ID", 1, 67⟩, ⟨.punctuator, b!"@", 1, 70⟩, ⟨.name, b!"deprecated", 1, 71⟩, ⟨.punctuator, b!"(", 1, 81⟩, ⟨.name, b!"reason", 1, 82⟩, ⟨.punctuator, b!":", 1, 88⟩, ⟨.stringValue, b!"old", 1, 90⟩, ⟨.punctuator, b!")", 1, 95⟩, ⟨.punctuator, b!"}", 1, 97⟩, ⟨.eof, [], 1, 98⟩]) (by decide) rfl), (parse_eq (ts := [⟨.name, b!"type", 1, 1⟩, ⟨.name, b!"Query", 1, 6⟩, ⟨.punctuator, b!"{", 1, 12⟩, ⟨.name, b!"f", 1, 14⟩, ⟨.punctuator, b!"(", 1, 15⟩, ⟨.name, b!"x", 1, 16⟩, ⟨.punctuator, b!":", 1, 17⟩, ⟨.name, b!"String", 1, 19⟩, ⟨.punctuator, b!"=", 1, 26⟩, ⟨.name, b!"RED", 1, 28⟩, ⟨.punctuator, b!")", 1, 31⟩, ⟨.punctuator, b!":", 1, 32⟩, ⟨.name, b!"ID", 1, 34⟩, ⟨.punctuator, b!"@", 1, 37⟩, ⟨.name, b!"deprecated", 1, 38⟩, ⟨.punctuator, b!"(", 1, 48⟩, ⟨.name, b!"reason", 1, 49⟩, ⟨.punctuator, b!":", 1, 55⟩, ⟨.intValue, b!"7", 1, 57⟩, ⟨.punctuator, b!")", 1, 58⟩, ⟨.punctuator, b!"}", 1, 60⟩, ⟨.eof, [], 1, 61⟩]) (by decide) rfl), rfl, rfl, ?_⟩
  unfold parseSDLDoc
  rw [(parse_eq (ts := [⟨.stringValue, b!"the root", 1, 1⟩, ⟨.name, b!"type", 1, 12⟩, ⟨.name, b!"Query", 1, 17⟩, ⟨.punctuator, b!"{", 1, 23⟩, ⟨.stringValue, b!"a field", 1, 25⟩, ⟨.name, b!"f", 1, 35⟩, ⟨.punctuator, b!"(", 1, 36⟩, ⟨.stringValue, b!"an argument", 1, 37⟩, ⟨.name, b!"x", 1, 51⟩, ⟨.punctuator, b!":", 1, 52⟩, ⟨.name, b!"String", 1, 54⟩, ⟨.punctuator, b!"=", 1, 61⟩, ⟨.intValue, b!"1", 1, 63⟩, ⟨.punctuator, b!")", 1, 64⟩, ⟨.punctuator, b!":", 1, 65⟩, ⟨.name, b!"ID", 1, 67⟩, ⟨.punctuator, b!"@", 1, 70⟩, ⟨.name, b!"deprecated", 1, 71⟩, ⟨.punctuator, b!"(", 1, 81⟩, ⟨.name, b!"reason", 1, 82⟩, ⟨.punctuator, b!":", 1, 88⟩, ⟨.stringValue, b!"old", 1, 90⟩, ⟨.punctuator, b!")", 1, 95⟩, ⟨.punctuator, b!"}", 1, 97⟩, ⟨.eof, [], 1, 98⟩]) (by decide) rfl)]
  exact ⟨_, rfl⟩

end

end GQL
