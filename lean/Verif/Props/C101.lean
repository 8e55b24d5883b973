/-
C101: a call has exactly one outcome, and syntax errors are the same for everybody.
-/
import Verif.Props.C100

namespace GQL

/-- What `ParseDoc` returns: a document, or errors (at least one), or a syntax error, and nothing beside it. -/
inductive Spec.DocOutcome : DocResult → Prop
  | document (d : Document) : DocOutcome ⟨some d, none, none⟩
  | errors {es : List GErr} : es ≠ [] → DocOutcome ⟨none, some es, none⟩
  | syntaxError (e : PErr) : DocOutcome ⟨none, none, some e⟩

/-- What `ParseSDLDoc` returns when it is called with the schema (or nil), and what becomes of that schema: with a result, the schema it was called
with is that result; after a syntax error it is as before; a nil pointer stays one. -/
inductive Spec.SDLOutcome (before : Option Schema) : SDLResult → Prop
  | schema (s : Schema) : SDLOutcome before ⟨some s, none, none, before.map fun _ => s⟩
  | errors {es : List GErr} {after : Option Schema} : es ≠ [] → after.isSome = before.isSome → SDLOutcome before ⟨none, some es, none, after⟩
  | syntaxError (e : PErr) : SDLOutcome before ⟨none, none, some e, before⟩

theorem ne_nil_of_length {α : Type} {l : List α} (h : l.length > 0) : l ≠ [] := by rintro rfl; simp at h

/-- **C101 for `ParseDoc`**. -/
theorem C101_query {pf : Bytes → Option Nat} {input : Bytes} {schema : Option Schema} {r : DocResult} (h : parseDoc pf input schema = .ret r) :
    Spec.DocOutcome r := by
  unfold parseDoc at h
  split at h
  · cases h
  · cases h
  · cases h; exact .syntaxError _
  · obtain ⟨c, -, h⟩ := Out.bind_eq h
    split at h
    · rename_i hl; cases h; exact .errors (ne_nil_of_length hl)
    · cases h; exact .document _

/-- The schema of a context is this one: `ValidateSchema` leaves it alone. -/
def Ctx.Has (s : Schema) (c : Ctx) : Prop := c.schema = s

theorem Ctx.Has.add {s : Schema} {c : Ctx} (h : c.Has s) (e : GErr) : (c.addError e).Has s := h

theorem validateName_has {s : Schema} {c : Ctx} (h : c.Has s) (n : Bytes) : (validateName c n).Has s := by
  unfold validateName
  split
  · exact h
  · split
    · exact h
    · split <;> exact h

theorem validateQueryRoot_has {t : Schema} {c : Ctx} (h : c.Has t) (s : Schema) : (validateQueryRoot c s).Has t := by
  unfold validateQueryRoot
  split
  · exact h
  · split
    · split <;> exact h
    · exact h

theorem validateOptionalRoot_has {t : Schema} {c : Ctx} (h : c.Has t) (s : Schema) (r : Option Ty) (m : Bytes) : (validateOptionalRoot c s r m).Has t := by
  unfold validateOptionalRoot
  split
  · exact h
  · split
    · split <;> exact h
    · exact h

theorem directiveArgs_has {t : Schema} (n : Bytes) : ∀ (l : List InputVal) (p : Ctx × List Bytes), p.1.Has t → (l.foldl (directiveArgStep n) p).1.Has t
  | [], _, h => h
  | a :: l, p, h => directiveArgs_has n l _ (by
      unfold directiveArgStep
      split
      · exact h
      · exact validateName_has h _)

theorem validateDirectives_has {t : Schema} (ord : Order DirDef) {c : Ctx} (h : c.Has t) (s : Schema) : (validateDirectives ord c s).Has t := by
  unfold validateDirectives
  generalize ord.arrange s.directives = l
  induction l generalizing c with
  | nil => exact h
  | cons p l ih => exact ih (directiveArgs_has _ _ _ (validateName_has h _))

theorem fieldArgStep_has {u s : Schema} {t f : Bytes} {p : Ctx × List Bytes} {a : InputVal} {p' : Ctx × List Bytes} (h : p.1.Has u)
    (e : fieldArgStep s t f p a = .ret p') : p'.1.Has u := by
  unfold fieldArgStep at e
  obtain ⟨ok, -, e⟩ := Out.bind_eq e
  cases e
  have h1 := validateName_has h a.name
  dsimp only
  split <;> split <;> exact h1

theorem fieldStep_has {u s : Schema} {t : Bytes} {c : Ctx} {f : FieldDef} {c' : Ctx} (h : c.Has u) (e : fieldStep s t c f = .ret c') : c'.Has u := by
  unfold fieldStep at e
  obtain ⟨ok, -, e⟩ := Out.bind_eq e
  obtain ⟨p, hp, h2⟩ := Out.bind_eq e
  cases h2
  refine foldOut_only (P := fun p : Ctx × List Bytes => p.1.Has u) (fun _ _ _ hq he => fieldArgStep_has hq he) _ _ _ ?_ hp
  have h1 := validateName_has h f.name
  dsimp only
  split <;> exact h1

theorem validateFields_has {u : Schema} {c : Ctx} (h : c.Has u) {s : Schema} {t : TypeDef} {c' : Ctx} (e : validateFields c s t = .ret c') : c'.Has u := by
  unfold validateFields at e
  refine foldOut_only (P := Ctx.Has u) (fun _ _ _ hp he => fieldStep_has hp he) _ _ _ ?_ e
  split <;> exact h

theorem interfaceFieldStep_has {u : Schema} {fuel : Nat} {run : RunOrders} {s : Schema} {t i : TypeDef} {c : Ctx} {f : FieldDef} {c' : Ctx} (h : c.Has u)
    (e : interfaceFieldStep fuel run s t i c f = .ret c') : c'.Has u := by
  unfold interfaceFieldStep at e
  split at e
  · cases e; exact h
  · obtain ⟨ok, -, e⟩ := Out.bind_eq e
    cases e
    split <;> exact h

theorem objectInterfaceStep_has {u : Schema} {fuel : Nat} {run : RunOrders} {s : Schema} {t : TypeDef} {p : Ctx × List Bytes} {i : Ty}
    {p' : Ctx × List Bytes} (h : p.1.Has u) (e : objectInterfaceStep fuel run s t p i = .ret p') : p'.1.Has u := by
  unfold objectInterfaceStep at e
  split at e
  · cases e; exact h
  · split at e
    · cases e; exact h
    · split at e
      · cases e
      · obtain ⟨c, hc, e⟩ := Out.bind_eq e
        cases e
        exact foldOut_only (P := Ctx.Has u) (fun _ _ _ hp he => interfaceFieldStep_has hp he) _ _ _ h hc

theorem typeStep_has {u : Schema} {fuel : Nat} {run : RunOrders} {s : Schema} {c : Ctx} {p : Bytes × TypeDef} {c' : Ctx} (h : c.Has u)
    (e : typeStep fuel run s c p = .ret c') : c'.Has u := by
  unfold typeStep at e
  have h1 : (if !isIntrospectionTypeName p.1 then validateName c p.1 else c).Has u := by
    split
    · exact validateName_has h _
    · exact h
  revert e
  generalize (if !isIntrospectionTypeName p.1 then validateName c p.1 else c) = c1 at h1
  intro e
  dsimp only at e
  split at e
  · obtain ⟨c2, h2, e⟩ := Out.bind_eq e
    unfold validateObjectInterfaces at e
    obtain ⟨q, hq, e⟩ := Out.bind_eq e
    cases e
    exact foldOut_only (P := fun p : Ctx × List Bytes => p.1.Has u) (fun _ _ _ hp he => objectInterfaceStep_has hp he) _ _ _ (validateFields_has h1 h2) hq
  · exact validateFields_has h1 e
  · cases e; exact h1

theorem validateSchema_has {fuel : Nat} {run : RunOrders} {c : Ctx} {s : Schema} {c' : Ctx} (e : validateSchema fuel run c s = .ret c') :
    c'.schema = c.schema :=
  foldOut_only (P := Ctx.Has c.schema) (fun _ _ _ hp he => typeStep_has hp he) _ _ _ (validateDirectives_has _ (by
    unfold validateRootTypes
    exact validateOptionalRoot_has (validateOptionalRoot_has (validateQueryRoot_has rfl s) s _ _) s _ _) s) e

/-- **C101 for `ParseSDLDoc`**. -/
theorem C101_sdl {pf : Bytes → Option Nat} {fuel : Nat} {ord : Orders} {input : Bytes} {schema : Option Schema} {r : SDLResult}
    (h : parseSDLDoc pf fuel ord input schema = .ret r) : Spec.SDLOutcome schema r := by
  unfold parseSDLDoc at h
  split at h
  · cases h
  · cases h
  · cases h; exact .syntaxError _
  · obtain ⟨c, -, h⟩ := Out.bind_eq h
    split at h
    · rename_i hl; cases h; exact .errors (ne_nil_of_length hl) rfl
    · obtain ⟨c2, -, h⟩ := Out.bind_eq h
      obtain ⟨c3, hv, h⟩ := Out.bind_eq h
      split at h
      · rename_i hl; cases h
        exact .errors (ne_nil_of_length hl) (by cases schema <;> rfl)
      · cases h
        have : (if schema.isSome then some c2.schema else none) = schema.map fun _ => c3.schema := by
          rw [validateSchema_has hv]; cases schema <;> rfl
        rw [this]
        exact .schema _

/-- **C101, syntax errors**: `ParseDoc`, `ParseSDLDoc` and `Parse` report the same syntax errors, whatever the schema and the orders of iteration; if there is one,
nothing else is done. -/
theorem C101_syntax (pf : Bytes → Option Nat) (fuel : Nat) (ord : Orders) (input : Bytes) (schema schema' : Option Schema) (e : PErr) :
    (parseDoc pf input schema = .ret ⟨none, none, some e⟩ ↔ parse pf input = .err e) ∧
    (parseSDLDoc pf fuel ord input schema' = .ret ⟨none, none, some e, schema'⟩ ↔ parse pf input = .err e) := by
  constructor
  · constructor
    · intro h
      unfold parseDoc at h
      split at h
      · cases h
      · cases h
      · rename_i he; cases h; exact he
      · obtain ⟨c, -, h⟩ := Out.bind_eq h
        split at h <;> cases h
    · intro h; unfold parseDoc; rw [h]
  · constructor
    · intro h
      unfold parseSDLDoc at h
      split at h
      · cases h
      · cases h
      · rename_i he; cases h; exact he
      · obtain ⟨c, -, h⟩ := Out.bind_eq h
        split at h
        · cases h
        · obtain ⟨c2, -, h⟩ := Out.bind_eq h
          obtain ⟨c3, -, h⟩ := Out.bind_eq h
          split at h <;> cases h
    · intro h; unfold parseSDLDoc; rw [h]

/-- Each outcome occurs for `ParseDoc`: a document, errors (`C100_refuted`), a syntax error.  (For `ParseSDLDoc` there is one with errors in Props/C100, and
there are some with a schema in Props/C92, C93 and C94.) -/
example (pf : Bytes → Option Nat) : (∃ d, parseDoc pf b!"{a}" none = .ret ⟨some d, none, none⟩) ∧
    (∃ e, parseDoc pf b!"{a(x:1 x:2)b(x:1 y:2)}" none = .ret ⟨none, some [e], none⟩) ∧
    (∃ e, parseDoc pf b!"{" none = .ret ⟨none, none, some e⟩) := by
  refine ⟨?_, ?_, ?_⟩
  · apply Exists.intro
    unfold parseDoc
    rw [(parse_eq (ts := [⟨.punctuator, b!"{", 1, 1⟩, ⟨.name, b!"a", 1, 2⟩, ⟨.punctuator, b!"}", 1, 3⟩, ⟨.eof, [], 1, 4⟩]) (by decide) rfl)]
    rfl
  · obtain ⟨e, h, -⟩ := C100_refuted pf
    exact ⟨e, h⟩
  · apply Exists.intro
    unfold parseDoc
    rw [(parse_eq (ts := [⟨.punctuator, b!"{", 1, 1⟩, ⟨.eof, [], 1, 2⟩]) (by decide) rfl)]
    rfl

end GQL
