/-
C92 Formatting changes neither what a query document is worth nor what an SDL document makes.
-/
import Verif.Props.C72
import Verif.Props.C69
import Verif.Props.C82

namespace GQL
open Spec

section
variable (pf : Bytes → Option Nat) (fmtG : Nat → Bytes)

/-- **C92, in part**: the formatted text of an accepted query document is accepted, that of a rejected one rejected, for documents that
are `DocOk` (Spec/Dump; see C23).  Missing for the full property: the documents that the printer does not print right
(`C92_refuted_query`). -/
theorem C92_query_partial (input : Bytes) (hc : CleanText input) (d : Document) (h : parse pf input = .ok d) (ho : DocOk fmtG pf d) :
    ∃ t d', sdump fmtG d = .ret t ∧ parse pf t = .ok d' ∧
      ∀ schema, parseDoc pf input schema = .ret ⟨some d, none, none⟩ ↔ parseDoc pf t schema = .ret ⟨some d', none, none⟩ := by
  obtain ⟨t, ht, d', hd', hn⟩ := C23_partial pf fmtG input hc d h ho
  exact ⟨t, d', ht, hd', fun schema => C69_verdict pf schema _ _ d d' h hd' (noLoc_same hn)⟩

/-- **C92, in part**: of a rejected query document the formatted text gets the same errors, each as often (see C69 for the condition on
variables). -/
theorem C92_errors_partial (input : Bytes) (hc : CleanText input) (d : Document) (h : parse pf input = .ok d) (ho : DocOk fmtG pf d)
    (hs : NoStrayVariables d) : ∃ t, sdump fmtG d = .ret t ∧
      ∀ schema es, parseDoc pf input schema = .ret ⟨none, some es, none⟩ → ∃ es', parseDoc pf t schema = .ret ⟨none, some es', none⟩ ∧ es'.Perm es := by
  obtain ⟨t, ht, d', hd', hn⟩ := C23_partial pf fmtG input hc d h ho
  exact ⟨t, ht, fun schema es he => C69_errors pf schema _ _ d d' h hd' (noLoc_same hn) hs es he⟩

/-- **C92, in part**: from the formatted text of an SDL document `ParseSDLDoc` makes the same schema, or the same errors in the same
order, and it leaves the same in the schema passed in. -/
theorem C92_sdl_partial (input : Bytes) (hc : CleanText input) (d : Document) (h : parse pf input = .ok d) (ho : DocOk fmtG pf d) :
    ∃ t, sdump fmtG d = .ret t ∧ ∀ fuel ord schema, parseSDLDoc pf fuel ord t schema = parseSDLDoc pf fuel ord input schema := by
  obtain ⟨t, ht, d', hd', hn⟩ := C23_partial pf fmtG input hc d h ho
  exact ⟨t, ht, fun fuel ord schema => parseSDLDoc_bodies h hd' (noLoc_bodies hn) fuel ord schema⟩

/-- An SDL document of which a schema is made meets the hypotheses. -/
example : ∃ d, parse pf b!"type Query{a(b:ID=1):T!}type T{c:Query}" = .ok d ∧ CleanText b!"type Query{a(b:ID=1):T!}type T{c:Query}" ∧ DocOk fmtG pf d ∧
    ∃ s, parseSDLDoc pf 9 plainOrders b!"type Query{a(b:ID=1):T!}type T{c:Query}" none = .ret ⟨some s, none, none, none⟩ := by
  have hp : ∃ d, parse pf b!"type Query{a(b:ID=1):T!}type T{c:Query}" = .ok d ∧
      d.defs = [⟨⟨1, 1⟩, .type ⟨[], b!"Query", .object, [], [], [⟨[], b!"a", [⟨[], b!"b", .named b!"ID" false, [], some (.int 1)⟩], .named b!"T" true, []⟩], [], [], []⟩⟩,
        ⟨⟨1, 25⟩, .type ⟨[], b!"T", .object, [], [], [⟨[], b!"c", [], .named b!"Query" false, []⟩], [], [], []⟩⟩] ∧
      ∃ s, parseSDLDoc pf 9 plainOrders b!"type Query{a(b:ID=1):T!}type T{c:Query}" none = .ret ⟨some s, none, none, none⟩ := by
    refine ⟨_, (parse_eq (ts := [⟨.name, b!"type", 1, 1⟩, ⟨.name, b!"Query", 1, 6⟩, ⟨.punctuator, b!"{", 1, 11⟩, ⟨.name, b!"a", 1, 12⟩, ⟨.punctuator, b!"(", 1, 13⟩, ⟨.name, b!"b", 1, 14⟩, ⟨.punctuator, b!":", 1, 15⟩, ⟨.name, b!"ID", 1, 16⟩, ⟨.punctuator, b!"=", 1, 18⟩, ⟨.intValue, b!"1", 1, 19⟩, ⟨.punctuator, b!")", 1, 20⟩, ⟨.punctuator, b!":", 1, 21⟩, ⟨.name, b!"T", 1, 22⟩, ⟨.punctuator, b!"!", 1, 23⟩, ⟨.punctuator, b!"}", 1, 24⟩, ⟨.name, b!"type", 1, 25⟩, ⟨.name, b!"T", 1, 30⟩, ⟨.punctuator, b!"{", 1, 31⟩, ⟨.name, b!"c", 1, 32⟩, ⟨.punctuator, b!":", 1, 33⟩, ⟨.name, b!"Query", 1, 34⟩, ⟨.punctuator, b!"}", 1, 39⟩, ⟨.eof, [], 1, 40⟩]) (by decide) rfl), rfl, ?_⟩
    unfold parseSDLDoc
    rw [(parse_eq (ts := [⟨.name, b!"type", 1, 1⟩, ⟨.name, b!"Query", 1, 6⟩, ⟨.punctuator, b!"{", 1, 11⟩, ⟨.name, b!"a", 1, 12⟩, ⟨.punctuator, b!"(", 1, 13⟩, ⟨.name, b!"b", 1, 14⟩, ⟨.punctuator, b!":", 1, 15⟩, ⟨.name, b!"ID", 1, 16⟩, ⟨.punctuator, b!"=", 1, 18⟩, ⟨.intValue, b!"1", 1, 19⟩, ⟨.punctuator, b!")", 1, 20⟩, ⟨.punctuator, b!":", 1, 21⟩, ⟨.name, b!"T", 1, 22⟩, ⟨.punctuator, b!"!", 1, 23⟩, ⟨.punctuator, b!"}", 1, 24⟩, ⟨.name, b!"type", 1, 25⟩, ⟨.name, b!"T", 1, 30⟩, ⟨.punctuator, b!"{", 1, 31⟩, ⟨.name, b!"c", 1, 32⟩, ⟨.punctuator, b!":", 1, 33⟩, ⟨.name, b!"Query", 1, 34⟩, ⟨.punctuator, b!"}", 1, 39⟩, ⟨.eof, [], 1, 40⟩]) (by decide) rfl)]
    exact ⟨_, rfl⟩
  obtain ⟨d, h1, h2, h3⟩ := hp
  refine ⟨d, h1, ⟨by decide, .inl (by decide)⟩, ⟨?_, ?_⟩, h3⟩
  · have nodesc : DescriptionOk [] := ⟨[], rfl, by simp, .inl rfl⟩
    rw [h2]
    simp [BodyOk, DefaultOk, DirsOk, TypeOk, FieldOk, InputOk, Plain1, Plain2, nodesc, ValOk]
  · rintro ⟨l, vs, dirs, sels, e, -⟩
    rw [h2] at e
    simp at e

/-- A query document that is accepted meets the hypotheses. -/
example : ∃ d, parse pf b!"query Q{a{b}}" = .ok d ∧ CleanText b!"query Q{a{b}}" ∧ DocOk fmtG pf d ∧ parseDoc pf b!"query Q{a{b}}" none = .ret ⟨some d, none, none⟩ := by
  have hp : ∃ d, parse pf b!"query Q{a{b}}" = .ok d ∧ d.defs = [⟨⟨1, 1⟩, .op ⟨.query, b!"Q", [], [], [.field [] b!"a" [] [] [.field [] b!"b" [] [] []]]⟩⟩] ∧
      parseDoc pf b!"query Q{a{b}}" none = .ret ⟨some d, none, none⟩ := by
    refine ⟨_, (parse_eq (ts := [⟨.name, b!"query", 1, 1⟩, ⟨.name, b!"Q", 1, 7⟩, ⟨.punctuator, b!"{", 1, 8⟩, ⟨.name, b!"a", 1, 9⟩, ⟨.punctuator, b!"{", 1, 10⟩, ⟨.name, b!"b", 1, 11⟩, ⟨.punctuator, b!"}", 1, 12⟩, ⟨.punctuator, b!"}", 1, 13⟩, ⟨.eof, [], 1, 14⟩]) (by decide) rfl), rfl, ?_⟩
    unfold parseDoc
    rw [(parse_eq (ts := [⟨.name, b!"query", 1, 1⟩, ⟨.name, b!"Q", 1, 7⟩, ⟨.punctuator, b!"{", 1, 8⟩, ⟨.name, b!"a", 1, 9⟩, ⟨.punctuator, b!"{", 1, 10⟩, ⟨.name, b!"b", 1, 11⟩, ⟨.punctuator, b!"}", 1, 12⟩, ⟨.punctuator, b!"}", 1, 13⟩, ⟨.eof, [], 1, 14⟩]) (by decide) rfl)]
    rfl
  obtain ⟨d, h1, h2, h3⟩ := hp
  refine ⟨d, h1, ⟨by decide, .inl (by decide)⟩, ⟨?_, ?_⟩, h3⟩
  · rw [h2]
    simp [BodyOk, OpOk, DirsOk, ArgsOk, SelsOk, SelOk]
  · rintro ⟨l, vs, dirs, sels, e, -⟩
    rw [h2] at e
    simp at e

/-- **C92 as stated fails**: the document makes a schema, but it is printed without the list type, and the text that is printed is not
GraphQL. -/
theorem C92_refuted_sdl : ∃ d t, parse pf b!"type Query{a:[ID]}" = .ok d ∧ sdump fmtG d = .ret t ∧
    (∃ s, parseSDLDoc pf 9 plainOrders b!"type Query{a:[ID]}" none = .ret ⟨some s, none, none, none⟩) ∧ ∀ d', parse pf t ≠ .ok d' := by
  refine ⟨_, b!"type Query {\n  a: \n}", (parse_eq (ts := [⟨.name, b!"type", 1, 1⟩, ⟨.name, b!"Query", 1, 6⟩, ⟨.punctuator, b!"{", 1, 11⟩, ⟨.name, b!"a", 1, 12⟩, ⟨.punctuator, b!":", 1, 13⟩, ⟨.punctuator, b!"[", 1, 14⟩, ⟨.name, b!"ID", 1, 15⟩, ⟨.punctuator, b!"]", 1, 17⟩, ⟨.punctuator, b!"}", 1, 18⟩, ⟨.eof, [], 1, 19⟩]) (by decide) rfl), rfl, ?_, ?_⟩
  · unfold parseSDLDoc
    rw [(parse_eq (ts := [⟨.name, b!"type", 1, 1⟩, ⟨.name, b!"Query", 1, 6⟩, ⟨.punctuator, b!"{", 1, 11⟩, ⟨.name, b!"a", 1, 12⟩, ⟨.punctuator, b!":", 1, 13⟩, ⟨.punctuator, b!"[", 1, 14⟩, ⟨.name, b!"ID", 1, 15⟩, ⟨.punctuator, b!"]", 1, 17⟩, ⟨.punctuator, b!"}", 1, 18⟩, ⟨.eof, [], 1, 19⟩]) (by decide) rfl)]
    exact ⟨_, rfl⟩
  · intro d' h
    rw [(parse_eq (ts := [⟨.name, b!"type", 1, 1⟩, ⟨.name, b!"Query", 1, 6⟩, ⟨.punctuator, b!"{", 1, 12⟩, ⟨.name, b!"a", 2, 3⟩, ⟨.punctuator, b!":", 2, 4⟩, ⟨.punctuator, b!"}", 3, 1⟩, ⟨.eof, [], 3, 2⟩]) (by decide) rfl)] at h
    cases h

/-- **C92 as stated fails**: a query without a name but with variables is printed without its keyword. -/
theorem C92_refuted_query : ∃ d t, sdump fmtG d = .ret t ∧
    parseDoc pf b!"query($a:Int){b(c:$a)}" none = .ret ⟨some d, none, none⟩ ∧ ∀ d', parse pf t ≠ .ok d' := by
  have hd : ∃ d, sdump fmtG d = .ret b!"($a: Int){\n  b(c: $a)\n}" ∧ parseDoc pf b!"query($a:Int){b(c:$a)}" none = .ret ⟨some d, none, none⟩ := by
    unfold parseDoc
    rw [(parse_eq (ts := [⟨.name, b!"query", 1, 1⟩, ⟨.punctuator, b!"(", 1, 6⟩, ⟨.punctuator, b!"$", 1, 7⟩, ⟨.name, b!"a", 1, 8⟩, ⟨.punctuator, b!":", 1, 9⟩, ⟨.name, b!"Int", 1, 10⟩, ⟨.punctuator, b!")", 1, 13⟩, ⟨.punctuator, b!"{", 1, 14⟩, ⟨.name, b!"b", 1, 15⟩, ⟨.punctuator, b!"(", 1, 16⟩, ⟨.name, b!"c", 1, 17⟩, ⟨.punctuator, b!":", 1, 18⟩, ⟨.punctuator, b!"$", 1, 19⟩, ⟨.name, b!"a", 1, 20⟩, ⟨.punctuator, b!")", 1, 21⟩, ⟨.punctuator, b!"}", 1, 22⟩, ⟨.eof, [], 1, 23⟩]) (by decide) rfl)]
    exact ⟨_, rfl, rfl⟩
  obtain ⟨d, h1, h2⟩ := hd
  refine ⟨d, _, h1, h2, ?_⟩
  intro d' h
  rw [(parse_eq (ts := [⟨.punctuator, b!"(", 1, 1⟩, ⟨.punctuator, b!"$", 1, 2⟩, ⟨.name, b!"a", 1, 3⟩, ⟨.punctuator, b!":", 1, 4⟩, ⟨.name, b!"Int", 1, 6⟩, ⟨.punctuator, b!")", 1, 9⟩, ⟨.punctuator, b!"{", 1, 10⟩, ⟨.name, b!"b", 2, 3⟩, ⟨.punctuator, b!"(", 2, 4⟩, ⟨.name, b!"c", 2, 5⟩, ⟨.punctuator, b!":", 2, 6⟩, ⟨.punctuator, b!"$", 2, 8⟩, ⟨.name, b!"a", 2, 9⟩, ⟨.punctuator, b!")", 2, 10⟩, ⟨.punctuator, b!"}", 3, 1⟩, ⟨.eof, [], 3, 2⟩]) (by decide) rfl)] at h
  cases h

end

end GQL
