/-
C72 Formatting is idempotent, and tells documents apart.
-/
import Verif.Props.C23

namespace GQL
open Spec

section
variable (pf : Bytes → Option Nat) (fmtG : Nat → Bytes)

/-- What is printed depends on the definitions only. -/
theorem sdump_bodies {d e : Document} (h : d.defs.map (·.body) = e.defs.map (·.body)) : sdump fmtG d = sdump fmtG e := by
  have hl : d.defs.length = e.defs.length := by simpa using congrArg List.length h
  have key : ∀ (n i : Nat) (l m : List Definition), l.map (·.body) = m.map (·.body) →
      forEachFrom (fun (d : Definition) i => (if i ≠ 0 then write b!"\n" else skipOut) +++ dumpDefinition fmtG n d.body +++ (if i < n - 1 then write b!"\n" else skipOut)) i l =
      forEachFrom (fun (d : Definition) i => (if i ≠ 0 then write b!"\n" else skipOut) +++ dumpDefinition fmtG n d.body +++ (if i < n - 1 then write b!"\n" else skipOut)) i m := by
    intro n i l
    induction l generalizing i with
    | nil =>
      intro m h
      cases m with
      | nil => rfl
      | cons => simp at h
    | cons x l ih =>
      intro m h
      cases m with
      | nil => simp at h
      | cons y m =>
        simp only [List.map_cons, List.cons.injEq] at h
        unfold forEachFrom
        rw [h.1, ih _ _ h.2]
  unfold sdump dumpDefinitions forEach
  rw [hl]
  exact key _ _ _ _ h

theorem noLoc_bodies {d e : Document} (h : noLoc d = noLoc e) : d.defs.map (·.body) = e.defs.map (·.body) := by
  have := congrArg (fun x => x.defs.map (·.body)) h
  simpa [noLoc, List.map_map, Function.comp_def] using this

/-- **C72** for documents that are `DocOk` (Spec/Dump; see C23): formatting a formatted text changes nothing. -/
theorem C72_idempotent_partial (input : Bytes) (hc : CleanText input) (d : Document) (h : parse pf input = .ok d) (ho : DocOk fmtG pf d) :
    ∃ t d', sdump fmtG d = .ret t ∧ parse pf t = .ok d' ∧ sdump fmtG d' = .ret t := by
  obtain ⟨t, ht, d', hd', hn⟩ := C23_partial pf fmtG input hc d h ho
  exact ⟨t, d', ht, hd', by rw [← ht]; exact sdump_bodies fmtG (noLoc_bodies hn)⟩

/-- **C72**: two such documents print the same if and only if they have the same definitions. -/
theorem C72_exact_partial (i j : Bytes) (hi : CleanText i) (hj : CleanText j) (d e : Document) (h1 : parse pf i = .ok d) (h2 : parse pf j = .ok e)
    (ho1 : DocOk fmtG pf d) (ho2 : DocOk fmtG pf e) : sdump fmtG d = sdump fmtG e ↔ d.defs.map (·.body) = e.defs.map (·.body) := by
  refine ⟨fun h => ?_, sdump_bodies fmtG⟩
  obtain ⟨t, ht, d', hd', hn⟩ := C23_partial pf fmtG i hi d h1 ho1
  obtain ⟨u, hu, e', he', hm⟩ := C23_partial pf fmtG j hj e h2 ho2
  rw [ht, hu] at h
  cases h
  rw [hd'] at he'
  cases he'
  exact noLoc_bodies (hn.symm.trans hm)

/-- The hypotheses are those of `C23_partial`, which Props/C23 shows for a document with most constructs; here is a small one. -/
example : ∃ t d', parse pf t = .ok d' ∧ sdump fmtG d' = .ret t := by
  have none : ∀ {α : Type} {P : α → Prop}, ∀ v ∈ ([] : List α), P v := by
    intro α P v hv
    cases hv
  have ok : ∀ l, DocOk fmtG pf { defs := [⟨l, .op ⟨.query, b!"Q", [], [], [.field [] b!"a" [] [] [.field [] b!"b" [] [] [], .spread b!"F" []]]⟩⟩] } := by
    intro l
    constructor
    · intro x hx
      cases hx with
      | head => exact ⟨none, none, ⟨none, none, ⟨none, none, trivial⟩, none, trivial⟩, trivial⟩
      | tail _ hx => cases hx
    · rintro ⟨l, vs, dirs, sels, e, -⟩
      cases e
  obtain ⟨t, d', -, h1, h2⟩ := C72_idempotent_partial pf fmtG b!"query Q{a{b ...F}}" ⟨by decide, .inl (by decide)⟩ _ (parse_eq (ts := [⟨.name, b!"query", 1, 1⟩, ⟨.name, b!"Q", 1, 7⟩, ⟨.punctuator, b!"{", 1, 8⟩, ⟨.name, b!"a", 1, 9⟩, ⟨.punctuator, b!"{", 1, 10⟩, ⟨.name, b!"b", 1, 11⟩, ⟨.punctuator, b!"...", 1, 13⟩, ⟨.name, b!"F", 1, 16⟩, ⟨.punctuator, b!"}", 1, 17⟩, ⟨.punctuator, b!"}", 1, 18⟩, ⟨.eof, [], 1, 19⟩]) (by decide) rfl) (ok _)
  exact ⟨t, d', h1, h2⟩

/-- **C72 fails as stated**: the indentation of the lines of a string is lost when the printed text is read; printed again, the text is another. -/
theorem C72_refuted : ∃ d t d' t', parse pf b!"{a(x:\"  b\\n  c\")}" = .ok d ∧ sdump fmtG d = .ret t ∧ parse pf t = .ok d' ∧ sdump fmtG d' = .ret t' ∧ t' ≠ t :=
  ⟨_, b!"{\n  a(x: \"\"\"\n      b\n      c\n  \"\"\")\n}", _, b!"{\n  a(x: \"\"\"\n    b\n    c\n  \"\"\")\n}", (parse_eq (ts := [⟨.punctuator, b!"{", 1, 1⟩, ⟨.name, b!"a", 1, 2⟩, ⟨.punctuator, b!"(", 1, 3⟩, ⟨.name, b!"x", 1, 4⟩, ⟨.punctuator, b!":", 1, 5⟩, ⟨.stringValue, b!"  b\n  c", 1, 6⟩, ⟨.punctuator, b!")", 1, 16⟩, ⟨.punctuator, b!"}", 1, 17⟩, ⟨.eof, [], 1, 18⟩]) (by decide) rfl), rfl, (parse_eq (ts := [⟨.punctuator, b!"{", 1, 1⟩, ⟨.name, b!"a", 2, 3⟩, ⟨.punctuator, b!"(", 2, 4⟩, ⟨.name, b!"x", 2, 5⟩, ⟨.punctuator, b!":", 2, 6⟩, ⟨.stringValue, b!"b\nc", 2, 8⟩, ⟨.punctuator, b!")", 5, 33⟩, ⟨.punctuator, b!"}", 6, 1⟩, ⟨.eof, [], 6, 2⟩]) (by decide) rfl), rfl, by decide⟩

end

end GQL
