/-
C95 New names for what a schema names change nothing else.
-/
import Verif.Proofs.RelabelSchema
import Verif.Proofs.RelabelQuery
import Verif.Props.C82
import Verif.Props.C93

namespace GQL
open Spec

/-- The second result of `ParseSDLDoc` is the first one with the new names; there are as many errors. -/
structure Spec.RelabelledResult (r : Relabelling) (x x' : SDLResult) : Prop where
  err : x.err = x'.err
  errors : (x.errors = none ∧ x'.errors = none) ∨ ∃ es es', x.errors = some es ∧ x'.errors = some es' ∧ es'.length = es.length
  schema : (x.schema = none ∧ x'.schema = none) ∨ ∃ s s', x.schema = some s ∧ x'.schema = some s' ∧ Spec.Same (r.schema s) s'
  after : (x.after = none ∧ x'.after = none) ∨ ∃ s s', x.after = some s ∧ x'.after = some s' ∧ Spec.Same (r.schema s) s'

theorem relabelled_bodies {r : Relabelling} {d e : Document} (h : Relabelled r d e) : e.defs.map (·.body) = (r.document d).defs.map (·.body) := by
  refine h.trans ?_
  show _ = (d.defs.map r.definition).map (·.body)
  rw [List.map_map]; rfl

theorem built_bodies {schema : Option Schema} {ds ds' : List Definition} {b : Schema} (h : ds'.map (·.body) = ds.map (·.body)) (hB : Built schema ds b) :
    Built schema ds' b := by
  have key : ∀ {α : Type} (f : Body → Option α), (ds'.filterMap fun d => f d.body) = ds.filterMap fun d => f d.body := by
    intro α f
    have e : ∀ l : List Definition, (l.filterMap fun d => f d.body) = (l.map (·.body)).filterMap f := by
      intro l; rw [List.filterMap_map]; rfl
    rw [e, e, h]
  have h1 : typeDefs ds' = typeDefs ds := key fun b => match b with | .type t => some t | _ => none
  have h2 : directiveDefs ds' = directiveDefs ds := key fun b => match b with | .directive t => some t | _ => none
  have h3 : schemaDefs ds' = schemaDefs ds := key fun b => match b with | .schema t => some t | _ => none
  have h4 : schemaExts ds' = schemaExts ds := key fun b => match b with | .schemaExt t => some t | _ => none
  have h5 : typeExts ds' = typeExts ds := key fun b => match b with | .typeExt t => some t | _ => none
  have h6 : schemaDefinition schema ds' = schemaDefinition schema ds := by unfold schemaDefinition; rw [h3, h4]
  have h7 : extensionsOf ds' = extensionsOf ds := by funext n; unfold extensionsOf; rw [h5]
  exact ⟨hB.typesOnce, hB.directivesOnce, by rw [h1, h7]; exact hB.types, by rw [h2]; exact hB.directives, by rw [h6]; exact hB.definition,
    by rw [h6]; exact hB.query, by rw [h6]; exact hB.mutation, by rw [h6]; exact hB.subscription⟩

theorem sdlErrors_bodies (schema : Option Schema) {d e : Document} (h : e.defs.map (·.body) = d.defs.map (·.body)) :
    (sdlErrors schema e).length = (sdlErrors schema d).length := by
  obtain ⟨c, D, h1, h2⟩ := validateSDL_bodies d e schema h
  obtain ⟨c1, e1, p1, -⟩ := validateSDL_all d schema
  obtain ⟨c2, e2, p2, -⟩ := validateSDL_all e schema
  rw [h1] at e1
  rw [h2] at e2
  cases e1; cases e2
  rw [← p1.length_eq, ← p2.length_eq]
  rfl

section
variable {pf : Bytes → Option Nat} {r : Relabelling} (hr : r.Faithful) {a b : Bytes} {d e : Document} {schema : Option Schema} {ord ord' : Orders} {x x' : SDLResult}
include hr

/-- **C95, schemas**: if the definitions of one text are those of another with new names, then `ParseSDLDoc` returns for both (the second time extending
the schema with the new names) or for neither; it rejects both, with as many errors, or accepts both, and then the second schema is the first one with
the new names. -/
theorem C95_sdl (ha : parse pf a = .ok d) (hb : parse pf b = .ok e) (h : Relabelled r d e) :
    ((∃ x, SDLDocReturns pf ord a schema x) ↔ ∃ x, SDLDocReturns pf ord' b (schema.map r.schema) x) ∧
    (SDLDocReturns pf ord a schema x → SDLDocReturns pf ord' b (schema.map r.schema) x' → Spec.RelabelledResult r x x') := by
  have hbod := relabelled_bodies h
  have hl : (sdlErrors (schema.map r.schema) e).length = (sdlErrors schema d).length :=
    (sdlErrors_bodies _ hbod).trans (sdlErrors_relabel hr schema d)
  by_cases he : sdlErrors schema d = []
  · have he' : sdlErrors (schema.map r.schema) e = [] := by rw [he] at hl; exact List.eq_nil_of_length_eq_zero hl
    obtain ⟨s, hB, hW, hx, -, hall⟩ := sdlDoc_cases (ord := ord) ha he
    obtain ⟨s', hB', hW', hx', -, hall'⟩ := sdlDoc_cases (ord := ord') hb he'
    have hS : Spec.Same (r.schema s) s' := (built_bodies hbod (built_relabel hr hB)).same hB'
    refine ⟨?_, fun h h' => ?_⟩
    · rw [hx, hx', ← complete_relabel (r := r) s, ← settled_relabel hr s]
      exact ⟨fun h => ⟨complete_imp hS h.1, settled_imp hS (wellFormed_relabel hr hW) h.2⟩, fun h => ⟨complete_imp hS.symm h.1, settled_imp hS.symm hW' h.2⟩⟩
    · obtain ⟨a1, a2, a3⟩ := hall x h
      obtain ⟨b1, b2, b3⟩ := hall' x' h'
      have hE := (schemaErrors_same hS (wellFormed_relabel hr hW)).length_eq
      rw [schemaErrors_relabel hr] at hE
      have haft : (x.after = none ∧ x'.after = none) ∨ ∃ s s', x.after = some s ∧ x'.after = some s' ∧ Spec.Same (r.schema s) s' := by
        rw [a2, b2]
        cases schema
        · exact .inl ⟨rfl, rfl⟩
        · exact .inr ⟨s, s', rfl, rfl, hS⟩
      rcases a3 with ⟨x1, x2, x3⟩ | ⟨x1, x2, es, x3, x4⟩ <;> rcases b3 with ⟨y1, y2, y3⟩ | ⟨y1, y2, es', y3, y4⟩
      · exact ⟨a1.trans b1.symm, .inl ⟨x3, y3⟩, .inr ⟨s, s', x2, y2, hS⟩, haft⟩
      · rw [x1] at hE; exact absurd (List.eq_nil_of_length_eq_zero hE.symm) y1
      · rw [y1] at hE; exact absurd (List.eq_nil_of_length_eq_zero hE) x1
      · exact ⟨a1.trans b1.symm, .inr ⟨es, es', x3, y3, by rw [y4.length_eq, x4.length_eq, hE]⟩, .inl ⟨x2, y2⟩, haft⟩
  · have he' : sdlErrors (schema.map r.schema) e ≠ [] := fun h0 => he (List.eq_nil_of_length_eq_zero (by rw [← hl, h0]; rfl))
    refine ⟨⟨fun _ => ?_, fun _ => ?_⟩, ?_⟩
    · obtain ⟨es, h1, -⟩ := sdlDoc_rejected (ord := ord') hb he' 0; exact ⟨_, 0, h1⟩
    · obtain ⟨es, h1, -⟩ := sdlDoc_rejected (ord := ord) ha he 0; exact ⟨_, 0, h1⟩
    · rintro ⟨k, h⟩ ⟨k', h'⟩
      obtain ⟨es, h1, h2⟩ := sdlDoc_rejected (ord := ord) ha he k
      obtain ⟨es', h1', h2'⟩ := sdlDoc_rejected (ord := ord') hb he' k'
      rw [h1] at h
      rw [h1'] at h'
      cases h; cases h'
      refine ⟨rfl, .inr ⟨_, _, rfl, rfl, by rw [h2'.length_eq, h2.length_eq, hl]⟩, .inl ⟨rfl, rfl⟩, ?_⟩
      cases schema with
      | none => exact .inl ⟨rfl, rfl⟩
      | some s => exact .inr ⟨s, r.schema s, rfl, rfl, same_refl _⟩

/-- **C95, queries**: `ParseDoc` accepts a text exactly if it accepts the text with the new names against the schema with the new names. -/
theorem C95_query (ha : parse pf a = .ok d) (hb : parse pf b = .ok e) (h : Relabelled r d e) :
    parseDoc pf a schema = .ret ⟨some d, none, none⟩ ↔ parseDoc pf b (schema.map r.schema) = .ret ⟨some e, none, none⟩ := by
  have p := (queryErrors_same (d := r.document d) (e := e) (schema.map r.schema) (by rw [SameDefinitions, relabelled_bodies h])).length_eq
  rw [queryErrors_relabel hr] at p
  rw [C39_accepts, C39_accepts]
  constructor
  · rintro ⟨-, h0⟩
    rw [h0] at p
    exact ⟨hb, List.eq_nil_of_length_eq_zero p.symm⟩
  · rintro ⟨-, h0⟩
    rw [h0] at p
    exact ⟨ha, List.eq_nil_of_length_eq_zero p⟩

/-- **C95, errors about queries**: a rejected text (without variables in type system definitions) is rejected with as many errors. -/
theorem C95_query_errors (ha : parse pf a = .ok d) (hb : parse pf b = .ok e) (h : Relabelled r d e) (hs : NoStrayVariables d) {es : List GErr}
    (he : parseDoc pf a schema = .ret ⟨none, some es, none⟩) :
    ∃ es', parseDoc pf b (schema.map r.schema) = .ret ⟨none, some es', none⟩ ∧ es'.length = es.length := by
  have hs' : NoStrayVariables e := by
    intro y hy hn v hv
    obtain ⟨x', hx', hb'⟩ := same_mem (d := e) (e := r.document d) (by rw [SameDefinitions, relabelled_bodies h]) hy
    refine strays_relabel (r := r) hs x' hx' ?_ v ((usesVar_body hb' v).2 hv)
    rw [← hn]
    unfold Definition.isExecutable
    rw [hb']
  have p := (queryErrors_same (d := r.document d) (e := e) (schema.map r.schema) (by rw [SameDefinitions, relabelled_bodies h])).length_eq
  rw [queryErrors_relabel hr] at p
  obtain ⟨es1, p1, q1⟩ := C39_errors_partial pf a schema ha hs
  obtain ⟨es2, p2, q2⟩ := C39_errors_partial pf b (schema.map r.schema) hb hs'
  have hl : es2.length = es1.length := by rw [p2.length_eq, ← p, p1.length_eq]
  rw [he] at q1
  by_cases h1 : es1 = []
  · rw [if_pos h1] at q1; cases q1
  · rw [if_neg h1] at q1
    cases q1
    have h2 : es2 ≠ [] := fun h0 => h1 (List.eq_nil_of_length_eq_zero (by rw [← hl, h0]; rfl))
    rw [if_neg h2] at q2
    exact ⟨es2, q2, hl⟩

end

/-! ### An example: two names change places -/

/-- `a` becomes `b` and `b` becomes `a`. -/
def swapNames (a b n : Bytes) : Bytes := if n = a then b else if n = b then a else n

theorem swapNames_twice (a b n : Bytes) : swapNames a b (swapNames a b n) = n := by
  unfold swapNames
  by_cases h1 : n = a
  · by_cases h2 : b = a
    · simp [h1, h2]
    · simp [h1, h2]
  · by_cases h2 : n = b
    · simp [h2]
    · simp [h1, h2]

theorem swapNames_inj (a b : Bytes) {m n : Bytes} (h : swapNames a b m = swapNames a b n) : m = n := by
  rw [← swapNames_twice a b m, h, swapNames_twice]

theorem swapNames_style {a b : Bytes} (h : SameStyle a b) (n : Bytes) : SameStyle (swapNames a b n) n := by
  unfold swapNames
  split
  · next e => subst e; exact ⟨h.early.symm, h.reserved.symm, h.valid.symm⟩
  · split
    · next e => subst e; exact h
    · exact ⟨Iff.rfl, Iff.rfl, Iff.rfl⟩

theorem swapNames_other {a b n : Bytes} (h1 : n ≠ a) (h2 : n ≠ b) : swapNames a b n = n := by unfold swapNames; rw [if_neg h1, if_neg h2]

/-- Two types change names, two fields, two arguments and two directives; enum values lose their names. -/
def swaps (t t' f f' i i' d d' : Bytes) : Relabelling := ⟨swapNames t t', swapNames f f', swapNames i i', swapNames d d', fun _ => b!"E"⟩

/-- It is enough that the names have the same style and no meaning of their own. -/
theorem swaps_faithful {t t' f f' i i' d d' : Bytes} (h1 : SameStyle t t') (h2 : SameStyle f f') (h3 : SameStyle i i') (h4 : SameStyle d d')
    (ht : t ∉ [] :: reservedTypes) (ht' : t' ∉ [] :: reservedTypes) (hi : i ∉ [b!"if", b!"reason"]) (hi' : i' ∉ [b!"if", b!"reason"])
    (hd : d ∉ [b!"skip", b!"include", b!"deprecated"]) (hd' : d' ∉ [b!"skip", b!"include", b!"deprecated"]) : (swaps t t' f f' i i' d d').Faithful where
  type _ _ := swapNames_inj _ _
  field _ _ := swapNames_inj _ _
  input _ _ := swapNames_inj _ _
  directive _ _ := swapNames_inj _ _
  typeStyle := swapNames_style h1
  fieldStyle := swapNames_style h2
  inputStyle := swapNames_style h3
  directiveStyle := swapNames_style h4
  noType := swapNames_other (fun e => ht (e ▸ .head _)) (fun e => ht' (e ▸ .head _))
  types _ hn := swapNames_other (fun e => ht (e ▸ .tail _ hn)) (fun e => ht' (e ▸ .tail _ hn))
  directives _ hn := swapNames_other (fun e => hd (e ▸ hn)) (fun e => hd' (e ▸ hn))
  inputs _ hn := swapNames_other (fun e => hi (e ▸ hn)) (fun e => hi' (e ▸ hn))

/-- Names of letters only. -/
def letters (n : Bytes) : Bool := n != [] && n.all fun b => (97 ≤ b && b ≤ 122) || (65 ≤ b && b ≤ 90)

theorem letters_style {a b : Bytes} (ha : letters a = true) (hb : letters b = true) : SameStyle a b := by
  have key : ∀ {n : Bytes}, letters n = true → ¬ UnderscoreEarly n ∧ ¬ Reserved n ∧ ValidName n := by
    intro n hn
    simp only [letters, Bool.and_eq_true, bne_iff_ne, List.all_eq_true, Bool.or_eq_true, decide_eq_true_eq] at hn
    obtain ⟨h0, h⟩ := hn
    cases n with
    | nil => exact absurd rfl h0
    | cons x l =>
      have hx := h x (.head _)
      refine ⟨?_, ?_, x, l, rfl, ?_, fun y hy => ?_⟩
      · rintro ⟨-, e | e⟩
        · rw [List.getElem?_cons_zero, Option.some.injEq] at e; omega
        · have := h 95 (List.mem_of_getElem? e); omega
      · rintro ⟨m, e⟩
        injection e with e1 e2
        rw [← e1] at hx
        revert hx
        decide
      · rcases hx with hx | hx
        · exact .inl hx
        · exact .inr (.inl hx)
      · rcases h y (.tail _ hy) with hy | hy
        · exact .inl (.inl hy)
        · exact .inl (.inr (.inl hy))
  obtain ⟨a1, a2, a3⟩ := key ha
  obtain ⟨b1, b2, b3⟩ := key hb
  exact ⟨iff_of_false a1 b1, iff_of_false a2 b2, iff_of_true a3 b3⟩

/-- `Dog` and `Cat`, `dog` and `cat`, `size` and `weight`, `tag` and `mark` change places. -/
def petNames : Relabelling := swaps b!"Dog" b!"Cat" b!"dog" b!"cat" b!"size" b!"weight" b!"tag" b!"mark"

theorem petNames_faithful : petNames.Faithful :=
  swaps_faithful (letters_style (by decide) (by decide)) (letters_style (by decide) (by decide)) (letters_style (by decide) (by decide))
    (letters_style (by decide) (by decide)) (by decide) (by decide) (by decide) (by decide) (by decide) (by decide)

section
variable (pf : Bytes → Option Nat)

/-- Two schemas, the second with the new names; the first one is accepted. -/
example : petNames.Faithful ∧ ∃ d e, parse pf b!"directive @tag(size: String) on FIELD_DEFINITION type Query { dog(size: ID): Dog @tag(size: RED) } type Dog { name: ID }" = .ok d ∧
    parse pf b!"directive @mark(weight: String) on FIELD_DEFINITION type Query { cat(weight: ID): Cat @mark(weight: E) } type Cat { name: ID }" = .ok e ∧
    Relabelled petNames d e ∧ d.defs.length = 3 ∧
    ∃ s, SDLDocReturns pf plainOrders b!"directive @tag(size: String) on FIELD_DEFINITION type Query { dog(size: ID): Dog @tag(size: RED) } type Dog { name: ID }" none ⟨some s, none, none, none⟩ := by
  refine ⟨petNames_faithful, _, _, (parse_eq (ts := [⟨.name, b!"directive", 1, 1⟩, ⟨.punctuator, b!"@", 1, 11⟩, ⟨.name, b!"tag", 1, 12⟩, ⟨.punctuator, b!"(", 1, 15⟩, ⟨.name, b!"size", 1, 16⟩, ⟨.punctuator, b!":", 1, 20⟩, ⟨.name, b!"String", 1, 22⟩, ⟨.punctuator, b!")", 1, 28⟩, ⟨.name, b!"on", 1, 30⟩, ⟨.name, b!"FIELD_DEFINITION", 1, 33⟩, ⟨.name, b!"type", 1, 50⟩, ⟨.name, b!"Query", 1, 55⟩, ⟨.punctuator, b!"{", 1, 61⟩, ⟨.name, b!"dog", 1, 63⟩, ⟨.punctuator, b!"(", 1, 66⟩, ⟨.name, b!"size", 1, 67⟩, ⟨.punctuator, b!":", 1, 71⟩, ⟨.name, b!"ID", 1, 73⟩, ⟨.punctuator, b!")", 1, 75⟩, ⟨.punctuator, b!":", 1, 76⟩, ⟨.name, b!"Dog", 1, 78⟩, ⟨.punctuator, b!"@", 1, 82⟩, ⟨.name, b!"tag", 1, 83⟩, ⟨.punctuator, b!"(", 1, 86⟩, ⟨.name, b!"size", 1, 87⟩, ⟨.punctuator, b!":", 1, 91⟩, ⟨.name, b!"RED", 1, 93⟩, ⟨.punctuator, b!")", 1, 96⟩, ⟨.punctuator, b!"}", 1, 98⟩, ⟨.name, b!"type", 1, 100⟩, ⟨.name, b!"Dog", 1, 105⟩, ⟨.punctuator, b!"{", 1, 109⟩, ⟨.name, b!"name", 1, 111⟩, ⟨.punctuator, b!":", 1, 115⟩, ⟨.name, b!"ID", 1, 117⟩, ⟨.punctuator, b!"}", 1, 120⟩, ⟨.eof, [], 1, 121⟩]) (by decide) rfl), (parse_eq (ts := [⟨.name, b!"directive", 1, 1⟩, ⟨.punctuator, b!"@", 1, 11⟩, ⟨.name, b!"mark", 1, 12⟩, ⟨.punctuator, b!"(", 1, 16⟩, ⟨.name, b!"weight", 1, 17⟩, ⟨.punctuator, b!":", 1, 23⟩, ⟨.name, b!"String", 1, 25⟩, ⟨.punctuator, b!")", 1, 31⟩, ⟨.name, b!"on", 1, 33⟩, ⟨.name, b!"FIELD_DEFINITION", 1, 36⟩, ⟨.name, b!"type", 1, 53⟩, ⟨.name, b!"Query", 1, 58⟩, ⟨.punctuator, b!"{", 1, 64⟩, ⟨.name, b!"cat", 1, 66⟩, ⟨.punctuator, b!"(", 1, 69⟩, ⟨.name, b!"weight", 1, 70⟩, ⟨.punctuator, b!":", 1, 76⟩, ⟨.name, b!"ID", 1, 78⟩, ⟨.punctuator, b!")", 1, 80⟩, ⟨.punctuator, b!":", 1, 81⟩, ⟨.name, b!"Cat", 1, 83⟩, ⟨.punctuator, b!"@", 1, 87⟩, ⟨.name, b!"mark", 1, 88⟩, ⟨.punctuator, b!"(", 1, 92⟩, ⟨.name, b!"weight", 1, 93⟩, ⟨.punctuator, b!":", 1, 99⟩, ⟨.name, b!"E", 1, 101⟩, ⟨.punctuator, b!")", 1, 102⟩, ⟨.punctuator, b!"}", 1, 104⟩, ⟨.name, b!"type", 1, 106⟩, ⟨.name, b!"Cat", 1, 111⟩, ⟨.punctuator, b!"{", 1, 115⟩, ⟨.name, b!"name", 1, 117⟩, ⟨.punctuator, b!":", 1, 121⟩, ⟨.name, b!"ID", 1, 123⟩, ⟨.punctuator, b!"}", 1, 126⟩, ⟨.eof, [], 1, 127⟩]) (by decide) rfl), ?_, rfl, ?_⟩
  · unfold Relabelled; rfl
  · refine Exists.imp (fun _ h => ⟨5, h⟩) ?_
    unfold parseSDLDoc
    rw [(parse_eq (ts := [⟨.name, b!"directive", 1, 1⟩, ⟨.punctuator, b!"@", 1, 11⟩, ⟨.name, b!"tag", 1, 12⟩, ⟨.punctuator, b!"(", 1, 15⟩, ⟨.name, b!"size", 1, 16⟩, ⟨.punctuator, b!":", 1, 20⟩, ⟨.name, b!"String", 1, 22⟩, ⟨.punctuator, b!")", 1, 28⟩, ⟨.name, b!"on", 1, 30⟩, ⟨.name, b!"FIELD_DEFINITION", 1, 33⟩, ⟨.name, b!"type", 1, 50⟩, ⟨.name, b!"Query", 1, 55⟩, ⟨.punctuator, b!"{", 1, 61⟩, ⟨.name, b!"dog", 1, 63⟩, ⟨.punctuator, b!"(", 1, 66⟩, ⟨.name, b!"size", 1, 67⟩, ⟨.punctuator, b!":", 1, 71⟩, ⟨.name, b!"ID", 1, 73⟩, ⟨.punctuator, b!")", 1, 75⟩, ⟨.punctuator, b!":", 1, 76⟩, ⟨.name, b!"Dog", 1, 78⟩, ⟨.punctuator, b!"@", 1, 82⟩, ⟨.name, b!"tag", 1, 83⟩, ⟨.punctuator, b!"(", 1, 86⟩, ⟨.name, b!"size", 1, 87⟩, ⟨.punctuator, b!":", 1, 91⟩, ⟨.name, b!"RED", 1, 93⟩, ⟨.punctuator, b!")", 1, 96⟩, ⟨.punctuator, b!"}", 1, 98⟩, ⟨.name, b!"type", 1, 100⟩, ⟨.name, b!"Dog", 1, 105⟩, ⟨.punctuator, b!"{", 1, 109⟩, ⟨.name, b!"name", 1, 111⟩, ⟨.punctuator, b!":", 1, 115⟩, ⟨.name, b!"ID", 1, 117⟩, ⟨.punctuator, b!"}", 1, 120⟩, ⟨.eof, [], 1, 121⟩]) (by decide) rfl)]
    exact ⟨_, rfl⟩

/-- Two schemas, the second with the new names; the first one is rejected with two errors: there is no type `Dog`, and no argument `weight` of the directive. -/
example : ∃ d e, parse pf b!"directive @tag(size: String) on FIELD_DEFINITION type Query { dog(size: ID): Dog @tag(weight: RED) }" = .ok d ∧ parse pf b!"directive @mark(weight: String) on FIELD_DEFINITION type Query { cat(weight: ID): Cat @mark(size: E) }" = .ok e ∧ Relabelled petNames d e ∧
    ∃ e1 e2, SDLDocReturns pf plainOrders b!"directive @tag(size: String) on FIELD_DEFINITION type Query { dog(size: ID): Dog @tag(weight: RED) }" none ⟨none, some [e1, e2], none, none⟩ := by
  refine ⟨_, _, (parse_eq (ts := [⟨.name, b!"directive", 1, 1⟩, ⟨.punctuator, b!"@", 1, 11⟩, ⟨.name, b!"tag", 1, 12⟩, ⟨.punctuator, b!"(", 1, 15⟩, ⟨.name, b!"size", 1, 16⟩, ⟨.punctuator, b!":", 1, 20⟩, ⟨.name, b!"String", 1, 22⟩, ⟨.punctuator, b!")", 1, 28⟩, ⟨.name, b!"on", 1, 30⟩, ⟨.name, b!"FIELD_DEFINITION", 1, 33⟩, ⟨.name, b!"type", 1, 50⟩, ⟨.name, b!"Query", 1, 55⟩, ⟨.punctuator, b!"{", 1, 61⟩, ⟨.name, b!"dog", 1, 63⟩, ⟨.punctuator, b!"(", 1, 66⟩, ⟨.name, b!"size", 1, 67⟩, ⟨.punctuator, b!":", 1, 71⟩, ⟨.name, b!"ID", 1, 73⟩, ⟨.punctuator, b!")", 1, 75⟩, ⟨.punctuator, b!":", 1, 76⟩, ⟨.name, b!"Dog", 1, 78⟩, ⟨.punctuator, b!"@", 1, 82⟩, ⟨.name, b!"tag", 1, 83⟩, ⟨.punctuator, b!"(", 1, 86⟩, ⟨.name, b!"weight", 1, 87⟩, ⟨.punctuator, b!":", 1, 93⟩, ⟨.name, b!"RED", 1, 95⟩, ⟨.punctuator, b!")", 1, 98⟩, ⟨.punctuator, b!"}", 1, 100⟩, ⟨.eof, [], 1, 101⟩]) (by decide) rfl), (parse_eq (ts := [⟨.name, b!"directive", 1, 1⟩, ⟨.punctuator, b!"@", 1, 11⟩, ⟨.name, b!"mark", 1, 12⟩, ⟨.punctuator, b!"(", 1, 16⟩, ⟨.name, b!"weight", 1, 17⟩, ⟨.punctuator, b!":", 1, 23⟩, ⟨.name, b!"String", 1, 25⟩, ⟨.punctuator, b!")", 1, 31⟩, ⟨.name, b!"on", 1, 33⟩, ⟨.name, b!"FIELD_DEFINITION", 1, 36⟩, ⟨.name, b!"type", 1, 53⟩, ⟨.name, b!"Query", 1, 58⟩, ⟨.punctuator, b!"{", 1, 64⟩, ⟨.name, b!"cat", 1, 66⟩, ⟨.punctuator, b!"(", 1, 69⟩, ⟨.name, b!"weight", 1, 70⟩, ⟨.punctuator, b!":", 1, 76⟩, ⟨.name, b!"ID", 1, 78⟩, ⟨.punctuator, b!")", 1, 80⟩, ⟨.punctuator, b!":", 1, 81⟩, ⟨.name, b!"Cat", 1, 83⟩, ⟨.punctuator, b!"@", 1, 87⟩, ⟨.name, b!"mark", 1, 88⟩, ⟨.punctuator, b!"(", 1, 92⟩, ⟨.name, b!"size", 1, 93⟩, ⟨.punctuator, b!":", 1, 97⟩, ⟨.name, b!"E", 1, 99⟩, ⟨.punctuator, b!")", 1, 100⟩, ⟨.punctuator, b!"}", 1, 102⟩, ⟨.eof, [], 1, 103⟩]) (by decide) rfl), ?_, ?_⟩
  · unfold Relabelled; rfl
  · refine Exists.imp (fun _ => Exists.imp fun _ h => ⟨5, h⟩) ?_
    unfold parseSDLDoc
    rw [(parse_eq (ts := [⟨.name, b!"directive", 1, 1⟩, ⟨.punctuator, b!"@", 1, 11⟩, ⟨.name, b!"tag", 1, 12⟩, ⟨.punctuator, b!"(", 1, 15⟩, ⟨.name, b!"size", 1, 16⟩, ⟨.punctuator, b!":", 1, 20⟩, ⟨.name, b!"String", 1, 22⟩, ⟨.punctuator, b!")", 1, 28⟩, ⟨.name, b!"on", 1, 30⟩, ⟨.name, b!"FIELD_DEFINITION", 1, 33⟩, ⟨.name, b!"type", 1, 50⟩, ⟨.name, b!"Query", 1, 55⟩, ⟨.punctuator, b!"{", 1, 61⟩, ⟨.name, b!"dog", 1, 63⟩, ⟨.punctuator, b!"(", 1, 66⟩, ⟨.name, b!"size", 1, 67⟩, ⟨.punctuator, b!":", 1, 71⟩, ⟨.name, b!"ID", 1, 73⟩, ⟨.punctuator, b!")", 1, 75⟩, ⟨.punctuator, b!":", 1, 76⟩, ⟨.name, b!"Dog", 1, 78⟩, ⟨.punctuator, b!"@", 1, 82⟩, ⟨.name, b!"tag", 1, 83⟩, ⟨.punctuator, b!"(", 1, 86⟩, ⟨.name, b!"weight", 1, 87⟩, ⟨.punctuator, b!":", 1, 93⟩, ⟨.name, b!"RED", 1, 95⟩, ⟨.punctuator, b!")", 1, 98⟩, ⟨.punctuator, b!"}", 1, 100⟩, ⟨.eof, [], 1, 101⟩]) (by decide) rfl)]
    exact ⟨_, _, rfl⟩

/-- Two queries, the second with the new names, against a schema with the type `Dog`; the first one is accepted. -/
example : ∃ d e, parse pf b!"{ dog(size: 1) { ... on Dog { name } } }" = .ok d ∧ parse pf b!"{ cat(weight: 1) { ... on Cat { name } } }" = .ok e ∧
    Relabelled petNames d e ∧ NoStrayVariables d ∧
    parseDoc pf b!"{ dog(size: 1) { ... on Dog { name } } }" (some { types := [(b!"Dog", { desc := [], name := b!"Dog", kind := .object })] }) = .ret ⟨some d, none, none⟩ := by
  refine ⟨_, _, (parse_eq (ts := [⟨.punctuator, b!"{", 1, 1⟩, ⟨.name, b!"dog", 1, 3⟩, ⟨.punctuator, b!"(", 1, 6⟩, ⟨.name, b!"size", 1, 7⟩, ⟨.punctuator, b!":", 1, 11⟩, ⟨.intValue, b!"1", 1, 13⟩, ⟨.punctuator, b!")", 1, 14⟩, ⟨.punctuator, b!"{", 1, 16⟩, ⟨.punctuator, b!"...", 1, 18⟩, ⟨.name, b!"on", 1, 22⟩, ⟨.name, b!"Dog", 1, 25⟩, ⟨.punctuator, b!"{", 1, 29⟩, ⟨.name, b!"name", 1, 31⟩, ⟨.punctuator, b!"}", 1, 36⟩, ⟨.punctuator, b!"}", 1, 38⟩, ⟨.punctuator, b!"}", 1, 40⟩, ⟨.eof, [], 1, 41⟩]) (by decide) rfl), (parse_eq (ts := [⟨.punctuator, b!"{", 1, 1⟩, ⟨.name, b!"cat", 1, 3⟩, ⟨.punctuator, b!"(", 1, 6⟩, ⟨.name, b!"weight", 1, 7⟩, ⟨.punctuator, b!":", 1, 13⟩, ⟨.intValue, b!"1", 1, 15⟩, ⟨.punctuator, b!")", 1, 16⟩, ⟨.punctuator, b!"{", 1, 18⟩, ⟨.punctuator, b!"...", 1, 20⟩, ⟨.name, b!"on", 1, 24⟩, ⟨.name, b!"Cat", 1, 27⟩, ⟨.punctuator, b!"{", 1, 31⟩, ⟨.name, b!"name", 1, 33⟩, ⟨.punctuator, b!"}", 1, 38⟩, ⟨.punctuator, b!"}", 1, 40⟩, ⟨.punctuator, b!"}", 1, 42⟩, ⟨.eof, [], 1, 43⟩]) (by decide) rfl), ?_, ?_, ?_⟩
  · unfold Relabelled; rfl
  · intro x hx he
    rcases List.mem_singleton.1 hx with rfl
    cases he
  · unfold parseDoc
    rw [(parse_eq (ts := [⟨.punctuator, b!"{", 1, 1⟩, ⟨.name, b!"dog", 1, 3⟩, ⟨.punctuator, b!"(", 1, 6⟩, ⟨.name, b!"size", 1, 7⟩, ⟨.punctuator, b!":", 1, 11⟩, ⟨.intValue, b!"1", 1, 13⟩, ⟨.punctuator, b!")", 1, 14⟩, ⟨.punctuator, b!"{", 1, 16⟩, ⟨.punctuator, b!"...", 1, 18⟩, ⟨.name, b!"on", 1, 22⟩, ⟨.name, b!"Dog", 1, 25⟩, ⟨.punctuator, b!"{", 1, 29⟩, ⟨.name, b!"name", 1, 31⟩, ⟨.punctuator, b!"}", 1, 36⟩, ⟨.punctuator, b!"}", 1, 38⟩, ⟨.punctuator, b!"}", 1, 40⟩, ⟨.eof, [], 1, 41⟩]) (by decide) rfl)]
    rfl

/-- The name of the query type has to stay: another one is as good a name, but the schema without `Query` is rejected. -/
theorem C95_query_needed : ∃ d e, parse pf b!"type Query { dog: ID }" = .ok d ∧ parse pf b!"type Root { dog: ID }" = .ok e ∧
    Relabelled (swaps b!"Query" b!"Root" b!"a" b!"b" b!"a" b!"b" b!"a" b!"b") d e ∧
    (∃ s, SDLDocReturns pf plainOrders b!"type Query { dog: ID }" none ⟨some s, none, none, none⟩) ∧
    ∃ es, SDLDocReturns pf plainOrders b!"type Root { dog: ID }" none ⟨none, some es, none, none⟩ := by
  refine ⟨_, _, (parse_eq (ts := [⟨.name, b!"type", 1, 1⟩, ⟨.name, b!"Query", 1, 6⟩, ⟨.punctuator, b!"{", 1, 12⟩, ⟨.name, b!"dog", 1, 14⟩, ⟨.punctuator, b!":", 1, 17⟩, ⟨.name, b!"ID", 1, 19⟩, ⟨.punctuator, b!"}", 1, 22⟩, ⟨.eof, [], 1, 23⟩]) (by decide) rfl), (parse_eq (ts := [⟨.name, b!"type", 1, 1⟩, ⟨.name, b!"Root", 1, 6⟩, ⟨.punctuator, b!"{", 1, 11⟩, ⟨.name, b!"dog", 1, 13⟩, ⟨.punctuator, b!":", 1, 16⟩, ⟨.name, b!"ID", 1, 18⟩, ⟨.punctuator, b!"}", 1, 21⟩, ⟨.eof, [], 1, 22⟩]) (by decide) rfl), ?_, ?_, ?_⟩
  · unfold Relabelled; rfl
  · refine Exists.imp (fun _ h => ⟨5, h⟩) ?_
    unfold parseSDLDoc
    rw [(parse_eq (ts := [⟨.name, b!"type", 1, 1⟩, ⟨.name, b!"Query", 1, 6⟩, ⟨.punctuator, b!"{", 1, 12⟩, ⟨.name, b!"dog", 1, 14⟩, ⟨.punctuator, b!":", 1, 17⟩, ⟨.name, b!"ID", 1, 19⟩, ⟨.punctuator, b!"}", 1, 22⟩, ⟨.eof, [], 1, 23⟩]) (by decide) rfl)]
    exact ⟨_, rfl⟩
  · refine Exists.imp (fun _ h => ⟨5, h⟩) ?_
    unfold parseSDLDoc
    rw [(parse_eq (ts := [⟨.name, b!"type", 1, 1⟩, ⟨.name, b!"Root", 1, 6⟩, ⟨.punctuator, b!"{", 1, 11⟩, ⟨.name, b!"dog", 1, 13⟩, ⟨.punctuator, b!":", 1, 16⟩, ⟨.name, b!"ID", 1, 18⟩, ⟨.punctuator, b!"}", 1, 21⟩, ⟨.eof, [], 1, 22⟩]) (by decide) rfl)]
    exact ⟨_, rfl⟩

/-- Different types have to keep different names. -/
theorem C95_distinct_needed : ∃ d e, parse pf b!"type Query { dog: ID } type Dog { name: ID } type Cat { name: ID }" = .ok d ∧
    parse pf b!"type Query { dog: ID } type Cat { name: ID } type Cat { name: ID }" = .ok e ∧
    Relabelled ⟨fun n => if n = b!"Dog" then b!"Cat" else n, id, id, id, id⟩ d e ∧
    (∃ s, SDLDocReturns pf plainOrders b!"type Query { dog: ID } type Dog { name: ID } type Cat { name: ID }" none ⟨some s, none, none, none⟩) ∧
    ∃ es, SDLDocReturns pf plainOrders b!"type Query { dog: ID } type Cat { name: ID } type Cat { name: ID }" none ⟨none, some es, none, none⟩ := by
  refine ⟨_, _, (parse_eq (ts := [⟨.name, b!"type", 1, 1⟩, ⟨.name, b!"Query", 1, 6⟩, ⟨.punctuator, b!"{", 1, 12⟩, ⟨.name, b!"dog", 1, 14⟩, ⟨.punctuator, b!":", 1, 17⟩, ⟨.name, b!"ID", 1, 19⟩, ⟨.punctuator, b!"}", 1, 22⟩, ⟨.name, b!"type", 1, 24⟩, ⟨.name, b!"Dog", 1, 29⟩, ⟨.punctuator, b!"{", 1, 33⟩, ⟨.name, b!"name", 1, 35⟩, ⟨.punctuator, b!":", 1, 39⟩, ⟨.name, b!"ID", 1, 41⟩, ⟨.punctuator, b!"}", 1, 44⟩, ⟨.name, b!"type", 1, 46⟩, ⟨.name, b!"Cat", 1, 51⟩, ⟨.punctuator, b!"{", 1, 55⟩, ⟨.name, b!"name", 1, 57⟩, ⟨.punctuator, b!":", 1, 61⟩, ⟨.name, b!"ID", 1, 63⟩, ⟨.punctuator, b!"}", 1, 66⟩, ⟨.eof, [], 1, 67⟩]) (by decide) rfl), (parse_eq (ts := [⟨.name, b!"type", 1, 1⟩, ⟨.name, b!"Query", 1, 6⟩, ⟨.punctuator, b!"{", 1, 12⟩, ⟨.name, b!"dog", 1, 14⟩, ⟨.punctuator, b!":", 1, 17⟩, ⟨.name, b!"ID", 1, 19⟩, ⟨.punctuator, b!"}", 1, 22⟩, ⟨.name, b!"type", 1, 24⟩, ⟨.name, b!"Cat", 1, 29⟩, ⟨.punctuator, b!"{", 1, 33⟩, ⟨.name, b!"name", 1, 35⟩, ⟨.punctuator, b!":", 1, 39⟩, ⟨.name, b!"ID", 1, 41⟩, ⟨.punctuator, b!"}", 1, 44⟩, ⟨.name, b!"type", 1, 46⟩, ⟨.name, b!"Cat", 1, 51⟩, ⟨.punctuator, b!"{", 1, 55⟩, ⟨.name, b!"name", 1, 57⟩, ⟨.punctuator, b!":", 1, 61⟩, ⟨.name, b!"ID", 1, 63⟩, ⟨.punctuator, b!"}", 1, 66⟩, ⟨.eof, [], 1, 67⟩]) (by decide) rfl), ?_, ?_, ?_⟩
  · unfold Relabelled; rfl
  · refine Exists.imp (fun _ h => ⟨5, h⟩) ?_
    unfold parseSDLDoc
    rw [(parse_eq (ts := [⟨.name, b!"type", 1, 1⟩, ⟨.name, b!"Query", 1, 6⟩, ⟨.punctuator, b!"{", 1, 12⟩, ⟨.name, b!"dog", 1, 14⟩, ⟨.punctuator, b!":", 1, 17⟩, ⟨.name, b!"ID", 1, 19⟩, ⟨.punctuator, b!"}", 1, 22⟩, ⟨.name, b!"type", 1, 24⟩, ⟨.name, b!"Dog", 1, 29⟩, ⟨.punctuator, b!"{", 1, 33⟩, ⟨.name, b!"name", 1, 35⟩, ⟨.punctuator, b!":", 1, 39⟩, ⟨.name, b!"ID", 1, 41⟩, ⟨.punctuator, b!"}", 1, 44⟩, ⟨.name, b!"type", 1, 46⟩, ⟨.name, b!"Cat", 1, 51⟩, ⟨.punctuator, b!"{", 1, 55⟩, ⟨.name, b!"name", 1, 57⟩, ⟨.punctuator, b!":", 1, 61⟩, ⟨.name, b!"ID", 1, 63⟩, ⟨.punctuator, b!"}", 1, 66⟩, ⟨.eof, [], 1, 67⟩]) (by decide) rfl)]
    exact ⟨_, rfl⟩
  · refine Exists.imp (fun _ h => ⟨5, h⟩) ?_
    unfold parseSDLDoc
    rw [(parse_eq (ts := [⟨.name, b!"type", 1, 1⟩, ⟨.name, b!"Query", 1, 6⟩, ⟨.punctuator, b!"{", 1, 12⟩, ⟨.name, b!"dog", 1, 14⟩, ⟨.punctuator, b!":", 1, 17⟩, ⟨.name, b!"ID", 1, 19⟩, ⟨.punctuator, b!"}", 1, 22⟩, ⟨.name, b!"type", 1, 24⟩, ⟨.name, b!"Cat", 1, 29⟩, ⟨.punctuator, b!"{", 1, 33⟩, ⟨.name, b!"name", 1, 35⟩, ⟨.punctuator, b!":", 1, 39⟩, ⟨.name, b!"ID", 1, 41⟩, ⟨.punctuator, b!"}", 1, 44⟩, ⟨.name, b!"type", 1, 46⟩, ⟨.name, b!"Cat", 1, 51⟩, ⟨.punctuator, b!"{", 1, 55⟩, ⟨.name, b!"name", 1, 57⟩, ⟨.punctuator, b!":", 1, 61⟩, ⟨.name, b!"ID", 1, 63⟩, ⟨.punctuator, b!"}", 1, 66⟩, ⟨.eof, [], 1, 67⟩]) (by decide) rfl)]
    exact ⟨_, rfl⟩

end

end GQL
