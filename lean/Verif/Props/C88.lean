/-
C88 A query document that is accepted with a schema is accepted with every larger one; and the verdict depends on the schema only through the names of its types
and the places its directives are allowed in.
-/
import Verif.Props.C70

namespace GQL
open Spec

/-- The second schema knows the types and directives of the first, and allows the directives wherever the first does. -/
structure Spec.Grows (s s' : Option Schema) : Prop where
  types : ∀ n, KnownType s [] n → KnownType s' [] n
  directives : ∀ n dd, directiveDef s [] n = some dd → ∃ dd', directiveDef s' [] n = some dd' ∧ ∀ l, inMask l dd.locs → inMask l dd'.locs

theorem soundQuery_grows {s s' : Option Schema} (hg : Grows s s') {d : Document} (h : SoundQuery s d) : SoundQuery s' d :=
  { h with
    types := fun n hn => hg.types n (h.types n hn)
    directives := fun x hx => by
      obtain ⟨dd, h1, h2⟩ := h.directives x hx
      obtain ⟨dd', k1, k2⟩ := hg.directives _ _ h1
      exact ⟨dd', k1, k2 _ h2⟩ }

section
variable (pf : Bytes → Option Nat)

/-- **C88** What `ParseDoc` accepts with a schema it accepts, with the same document, with every schema that knows more. -/
theorem C88_monotone (input : Bytes) (s s' : Option Schema) (hg : Grows s s') (d : Document) (h : parseDoc pf input s = .ret ⟨some d, none, none⟩) :
    parseDoc pf input s' = .ret ⟨some d, none, none⟩ := by
  rw [C70_partial] at h ⊢
  exact ⟨h.1, soundQuery_grows hg h.2⟩

/-- **C88, what of the schema matters** Two schemas with the same type names, and directives of the same names allowed in the same places, give the same verdict. -/
theorem C88_relevant (input : Bytes) (s s' : Option Schema) (ht : ∀ n, KnownType s [] n ↔ KnownType s' [] n)
    (hd : ∀ n, (directiveDef s [] n).map (·.locs) = (directiveDef s' [] n).map (·.locs)) (d : Document) :
    parseDoc pf input s = .ret ⟨some d, none, none⟩ ↔ parseDoc pf input s' = .ret ⟨some d, none, none⟩ := by
  have key : ∀ {s s' : Option Schema}, (∀ n, KnownType s [] n ↔ KnownType s' [] n) →
      (∀ n, (directiveDef s [] n).map (·.locs) = (directiveDef s' [] n).map (·.locs)) → Grows s s' := by
    intro s s' ht hd
    refine ⟨fun n => (ht n).1, fun n dd h => ?_⟩
    have := hd n
    rw [h] at this
    cases e : directiveDef s' [] n with
    | none => rw [e] at this; cases this
    | some dd' =>
      rw [e] at this
      have e2 : dd.locs = dd'.locs := Option.some.inj this
      exact ⟨dd', rfl, fun l hl => e2 ▸ hl⟩
  exact ⟨C88_monotone pf input s s' (key ht hd) d, C88_monotone pf input s' s (key (fun n => (ht n).symm) fun n => (hd n).symm) d⟩

/-- A schema with any types, and without directives of its own, knows more than no schema. -/
theorem grows_none (s : Schema) (h : s.directives = []) : Grows none (some s) := by
  refine ⟨?_, ?_⟩
  · rintro n (h0 | h0 | h0)
    · cases h0
    · exact .inr (.inl h0)
    · exact .inr (.inr h0)
  · intro n dd hd
    refine ⟨dd, ?_, fun l hl => hl⟩
    unfold directiveDef schemaDirectives at hd ⊢
    dsimp only at hd ⊢
    rw [h]
    exact hd

/-- A document with a variable and a fragment, accepted without a schema, to which the theorem applies. -/
example : ∃ (s : Schema) (d : Document), s.types ≠ [] ∧ d.defs.length = 2 ∧ Grows none (some s) ∧
    parseDoc pf b!"query Q($v: ID) {...F} fragment F on ID {a(x: $v)}" none = .ret ⟨some d, none, none⟩ := by
  refine ⟨{ types := [(b!"T", { kind := .scalar, name := b!"T" })] }, _, by simp, ?_, grows_none _ rfl, parseDoc_ok (parse_eq (ts := [⟨.name, b!"query", 1, 1⟩, ⟨.name, b!"Q", 1, 7⟩, ⟨.punctuator, b!"(", 1, 8⟩, ⟨.punctuator, b!"$", 1, 9⟩, ⟨.name, b!"v", 1, 10⟩, ⟨.punctuator, b!":", 1, 11⟩, ⟨.name, b!"ID", 1, 13⟩, ⟨.punctuator, b!")", 1, 15⟩, ⟨.punctuator, b!"{", 1, 17⟩, ⟨.punctuator, b!"...", 1, 18⟩, ⟨.name, b!"F", 1, 21⟩, ⟨.punctuator, b!"}", 1, 22⟩, ⟨.name, b!"fragment", 1, 24⟩, ⟨.name, b!"F", 1, 33⟩, ⟨.name, b!"on", 1, 35⟩, ⟨.name, b!"ID", 1, 38⟩, ⟨.punctuator, b!"{", 1, 41⟩, ⟨.name, b!"a", 1, 42⟩, ⟨.punctuator, b!"(", 1, 43⟩, ⟨.name, b!"x", 1, 44⟩, ⟨.punctuator, b!":", 1, 45⟩, ⟨.punctuator, b!"$", 1, 47⟩, ⟨.name, b!"v", 1, 48⟩, ⟨.punctuator, b!")", 1, 49⟩, ⟨.punctuator, b!"}", 1, 50⟩, ⟨.eof, [], 1, 51⟩]) (by decide) rfl) rfl⟩
  rfl

/-- The condition on directives is needed: a schema that has its own `skip`, allowed nowhere, makes an accepted document a rejected one. -/
theorem C88_directives_needed : ∃ (input : Bytes) (s : Schema) (d : Document) (es : List GErr), (∀ n, KnownType none [] n → KnownType (some s) [] n) ∧
    parseDoc pf input none = .ret ⟨some d, none, none⟩ ∧ parseDoc pf input (some s) = .ret ⟨none, some es, none⟩ := by
  refine ⟨b!"{a @skip(if: true)}", { directives := [(b!"skip", { skipDirective with locs := 0 })] }, _, [Says.misplacedDirective b!"skip" .field], ?_,
    parseDoc_ok (parse_eq (ts := [⟨.punctuator, b!"{", 1, 1⟩, ⟨.name, b!"a", 1, 2⟩, ⟨.punctuator, b!"@", 1, 4⟩, ⟨.name, b!"skip", 1, 5⟩, ⟨.punctuator, b!"(", 1, 9⟩, ⟨.name, b!"if", 1, 10⟩, ⟨.punctuator, b!":", 1, 12⟩, ⟨.name, b!"true", 1, 14⟩, ⟨.punctuator, b!")", 1, 18⟩, ⟨.punctuator, b!"}", 1, 19⟩, ⟨.eof, [], 1, 20⟩]) (by decide) rfl) rfl, ?_⟩
  · rintro n (h0 | h0 | h0)
    · cases h0
    · exact .inr (.inl h0)
    · exact .inr (.inr h0)
  · unfold parseDoc
    rw [(parse_eq (ts := [⟨.punctuator, b!"{", 1, 1⟩, ⟨.name, b!"a", 1, 2⟩, ⟨.punctuator, b!"@", 1, 4⟩, ⟨.name, b!"skip", 1, 5⟩, ⟨.punctuator, b!"(", 1, 9⟩, ⟨.name, b!"if", 1, 10⟩, ⟨.punctuator, b!":", 1, 12⟩, ⟨.name, b!"true", 1, 14⟩, ⟨.punctuator, b!")", 1, 18⟩, ⟨.punctuator, b!"}", 1, 19⟩, ⟨.eof, [], 1, 20⟩]) (by decide) rfl)]
    rfl

end

end GQL
