/-
C97: the name of a constant identifies it.
-/
import Verif.Model.Names
import Verif.Model.Errors
import Verif.Spec.Names
import Verif.Props.C17

namespace GQL

open Names Spec

/-! A function that looks up a table calls the keys of the table by their entries. -/

/-- Looking up a table whose keys differ. -/
theorem Names.find_mem {t : Table} {k : Int} {s : Bytes} (h : Table.find t k = some s) : (k, s) ∈ t := by
  unfold Table.find at h
  cases hf : t.find? (fun e => e.1 == k) with
  | none => rw [hf] at h; cases h
  | some e =>
    rw [hf] at h
    have h1 := List.mem_of_find?_eq_some hf
    have h2 := List.find?_some hf
    simp only [Option.map_some, Option.some.injEq] at h
    simp only [beq_iff_eq] at h2
    obtain ⟨a, b⟩ := e
    simp only at h h2
    subst h; subst h2
    exact h1

theorem Names.find_none {t : Table} {k : Int} (h : Table.find t k = none) : ∀ e ∈ t, e.1 ≠ k := by
  unfold Table.find at h
  intro e he hk
  cases hf : t.find? (fun e => e.1 == k) with
  | some _ => rw [hf] at h; cases h
  | none =>
    have := List.find?_eq_none.1 hf e he
    simp [hk] at this

/-- If the entries of a table are the words with the numbers of the constants, looking it up calls the constants by the words. -/
theorem Names.called {name : Int → Bytes} {number : Nat → Int} {words : List Bytes} {other : Bytes} (t : Table)
    (hn : ∀ k, name k = (match Table.find t k with | some s => s | none => other))
    (hin : ∀ i, i < words.length → name (number i) = words[i]?.getD [])
    (hlen : ∀ e ∈ t, ∃ i, i < words.length ∧ e.1 = number i) : Called name number words other := by
  refine ⟨?_, ?_⟩
  · intro i w h
    have hl : i < words.length := by
      rcases Nat.lt_or_ge i words.length with hl | hl
      · exact hl
      · rw [List.getElem?_eq_none hl] at h; cases h
    rw [hin i hl, h]; rfl
  · intro k h
    rw [hn]
    cases hf : Table.find t k with
    | none => rfl
    | some s =>
      obtain ⟨i, hi, he⟩ := hlen _ (Names.find_mem hf)
      exact absurd he (h i hi)

/-- Constants called by different words, none of them the word for everything else, are identified by them. -/
theorem Names.identifies {name : Int → Bytes} {number : Nat → Int} {words : List Bytes} {other : Bytes}
    (h : Called name number words other) (hnd : words.Nodup) (ho : other ∉ words) : Identifies name number words.length := by
  intro i hi k hk
  have e1 := h.1 i words[i] (List.getElem?_eq_getElem hi)
  by_cases hex : ∃ j, j < words.length ∧ k = number j
  · obtain ⟨j, hj, rfl⟩ := hex
    have e2 := h.1 j words[j] (List.getElem?_eq_getElem hj)
    rw [e1, e2] at hk
    rw [(List.getElem_inj (h₀ := hj) (h₁ := hi) hnd).1 hk]
  · have e2 := h.2 k (fun j hj e => hex ⟨j, hj, e⟩)
    rw [e2, e1] at hk
    exact absurd (hk ▸ List.getElem_mem hi) ho

/-- Every number is called by exactly one word, and a word that is not the fallback is the name of exactly one number. -/
def Spec.Named (name : Int → Bytes) (number : Nat → Int) (words : List Bytes) (other : Bytes) : Prop :=
  Called name number words other ∧ Identifies name number words.length

/-- C97: each of the `String` methods of the kinds, for every number that a kind can hold and more: the constants are called by these
words in the order of their declaration, no other number is called by one of these words, and all other numbers get the same answer. -/
theorem C97_kinds :
    Named definitionKindString counted [b!"executable", b!"type system", b!"type system extension"] b!"invalid" ∧
    Named executableKindString counted [b!"operation", b!"fragment"] b!"invalid" ∧
    Named operationKindString counted [b!"query", b!"mutation", b!"subscription"] b!"invalid" ∧
    Named selectionKindString counted [b!"field", b!"fragment spread", b!"inline fragment"] b!"unknown" ∧
    Named valueKindString counted
      [b!"variable value", b!"int8 value", b!"float value", b!"string value", b!"boolean value", b!"null value", b!"enum value",
       b!"list value", b!"object value"] b!"unknown value" ∧
    Named typeRefKindString counted [b!"NamedType", b!"ListType"] b!"InvalidType" ∧
    Named typeSystemKindString counted [b!"schema", b!"type", b!"directive"] b!"invalid" ∧
    Named typeDefinitionKindString counted
      [b!"scalar", b!"object", b!"interface", b!"union", b!"enum", b!"input object"] b!"unknown" ∧
    Named tokenKindString countedFromMinusOne
      [b!"Illegal", b!"EOF", b!"Punctuator", b!"Name", b!"IntValue", b!"FloatValue", b!"StringValue", b!"UnicodeBOM",
       b!"WhiteSpace", b!"LineTerminator", b!"Comment", b!"Comma"] [] ∧
    Named directiveLocationString bit locationWords [] := by
  refine ⟨?_, ?_, ?_, ?_, ?_, ?_, ?_, ?_, ?_, ?_⟩
  · have h : Called definitionKindString counted [b!"executable", b!"type system", b!"type system extension"] b!"invalid" :=
      Names.called definitionKind (fun _ => rfl) (by decide) (by decide)
    exact ⟨h, Names.identifies h (by decide) (by decide)⟩
  · have h : Called executableKindString counted [b!"operation", b!"fragment"] b!"invalid" :=
      Names.called executableKind (fun _ => rfl) (by decide) (by decide)
    exact ⟨h, Names.identifies h (by decide) (by decide)⟩
  · have h : Called operationKindString counted [b!"query", b!"mutation", b!"subscription"] b!"invalid" :=
      Names.called operationKind (fun _ => rfl) (by decide) (by decide)
    exact ⟨h, Names.identifies h (by decide) (by decide)⟩
  · have h : Called selectionKindString counted [b!"field", b!"fragment spread", b!"inline fragment"] b!"unknown" :=
      Names.called selectionKind (fun _ => rfl) (by decide) (by decide)
    exact ⟨h, Names.identifies h (by decide) (by decide)⟩
  · have h : Called valueKindString counted
      [b!"variable value", b!"int8 value", b!"float value", b!"string value", b!"boolean value", b!"null value", b!"enum value",
       b!"list value", b!"object value"] b!"unknown value" :=
      Names.called valueKind (fun _ => rfl) (by decide) (by decide)
    exact ⟨h, Names.identifies h (by decide) (by decide)⟩
  · have h : Called typeRefKindString counted [b!"NamedType", b!"ListType"] b!"InvalidType" :=
      Names.called typeRefKind (fun _ => rfl) (by decide) (by decide)
    exact ⟨h, Names.identifies h (by decide) (by decide)⟩
  · have h : Called typeSystemKindString counted [b!"schema", b!"type", b!"directive"] b!"invalid" :=
      Names.called typeSystemKind (fun _ => rfl) (by decide) (by decide)
    exact ⟨h, Names.identifies h (by decide) (by decide)⟩
  · have h : Called typeDefinitionKindString counted
      [b!"scalar", b!"object", b!"interface", b!"union", b!"enum", b!"input object"] b!"unknown" :=
      Names.called typeDefinitionKind (fun _ => rfl) (by decide) (by decide)
    exact ⟨h, Names.identifies h (by decide) (by decide)⟩
  · have h : Called tokenKindString countedFromMinusOne
      [b!"Illegal", b!"EOF", b!"Punctuator", b!"Name", b!"IntValue", b!"FloatValue", b!"StringValue", b!"UnicodeBOM",
       b!"WhiteSpace", b!"LineTerminator", b!"Comment", b!"Comma"] [] :=
      Names.called tokenKind (fun _ => rfl) (by decide) (by decide)
    exact ⟨h, Names.identifies h (by decide) (by decide)⟩
  · have h : Called directiveLocationString bit locationWords [] :=
      Names.called directiveLocation (fun _ => rfl) (by decide) (by decide)
    exact ⟨h, Names.identifies h (by decide) (by decide)⟩

/-- C97: the words in error messages (and in the output of the printer) are the ones of these methods. -/
theorem C97_used :
    (∀ k : OpKind, k.str = operationKindString k.code) ∧ (∀ k : TypeKind, k.str = typeDefinitionKindString k.code) ∧
    (∀ k : TokenKind, k.str = tokenKindString k.code) ∧ (∀ l : DirLoc, l.name = directiveLocationString l.bit) := by
  refine ⟨?_, ?_, ?_, ?_⟩
  · intro k; cases k <;> decide
  · intro k; cases k <;> decide
  · intro k; cases k <;> decide
  · intro k; cases k <;> decide

/-- C97: `DirectiveLocationsByName` and `NamesByDirectiveLocations` are inverse to each other: for every string and every number, the
one has the string with the number if and only if the other has the number with the string. -/
theorem C97_inverse (s : Bytes) (k : Int) :
    (directiveLocationsByName s = k ∧ k ≠ 0) ↔ (directiveLocationString k = s ∧ s ≠ []) := by
  have hname : ∀ e ∈ directiveLocation, directiveLocationString e.1 = e.2 ∧ directiveLocationsByName e.2 = e.1 ∧ e.1 ≠ 0 ∧ e.2 ≠ [] := by
    decide
  constructor
  · rintro ⟨h, hk⟩
    unfold directiveLocationsByName at h
    cases hf : directiveLocation.find? (fun e => e.2 == s) with
    | none => rw [hf] at h; exact absurd h.symm hk
    | some e =>
      rw [hf] at h
      have h1 := hname e (List.mem_of_find?_eq_some hf)
      have h2 := List.find?_some hf
      simp only [beq_iff_eq] at h2
      subst h; subst h2
      exact ⟨h1.1, h1.2.2.2⟩
  · rintro ⟨h, hs⟩
    unfold directiveLocationString at h
    cases hf : directiveLocation.find k with
    | none => rw [hf] at h; exact absurd h.symm hs
    | some w =>
      rw [hf] at h
      have h1 := hname _ (Names.find_mem hf)
      simp only at h
      subst h
      exact ⟨h1.2.1, h1.2.2.1⟩

/-- What the parser looks up is that table. -/
theorem C97_lookup (s : Bytes) : (locByName s : Int) = directiveLocationsByName s := by
  by_cases h : ∃ l : DirLoc, l.name = s
  · obtain ⟨l, rfl⟩ := h
    cases l <;> decide
  · have h1 : locByName s = 0 := by
      unfold locByName
      cases hf : DirLoc.all.find? (fun l => l.name == s) with
      | none => rfl
      | some l =>
        have := List.find?_some hf
        simp only [beq_iff_eq] at this
        exact absurd ⟨l, this⟩ h
    rw [h1]
    by_cases h0 : directiveLocationsByName s = 0
    · rw [h0]; rfl
    · have := (C97_inverse s _).1 ⟨rfl, h0⟩
      have hs : directiveLocationString (directiveLocationsByName s) = s := this.1
      unfold directiveLocationString at hs
      cases hf : directiveLocation.find (directiveLocationsByName s) with
      | none => rw [hf] at hs; exact absurd hs.symm this.2
      | some w =>
        rw [hf] at hs
        have hm := Names.find_mem hf
        simp only at hs
        subst hs
        have key : ∀ e ∈ directiveLocation, ∃ l ∈ DirLoc.all, l.name = e.2 := by decide
        obtain ⟨l, _, hl⟩ := key _ hm
        exact absurd ⟨l, hl⟩ h

theorem Names.mask_one {l : DirLoc} : ∀ {ls : List DirLoc}, ls ≠ [] → (∀ a ∈ ls, a = l) → locMask ls = l.bit := by
  have key : ∀ (ls : List DirLoc) m, (∀ a ∈ ls, a = l) → m = 0 ∨ m = l.bit →
      ls.foldl (fun m l => m ||| l.bit) m = if ls = [] then m else l.bit := by
    intro ls
    induction ls with
    | nil => intro m _ _; simp
    | cons a as ih =>
      intro m h hm
      have ha := h a List.mem_cons_self
      subst ha
      rw [List.foldl_cons, ih _ (fun b hb => h b (List.mem_cons_of_mem _ hb))
        (by rcases hm with rfl | rfl <;> simp)]
      rcases hm with rfl | rfl <;> simp
  intro ls hne h
  unfold locMask
  rw [key ls 0 h (Or.inl rfl)]
  simp [hne]

/-- C97: a set of directive locations has a name exactly if it consists of one location, the name of that one. -/
theorem C97_sets (ls : List DirLoc) (l : DirLoc) :
    directiveLocationString (locMask ls) = l.name ↔ l ∈ ls ∧ ∀ a ∈ ls, a = l := by
  constructor
  · intro h
    have hid := (C97_kinds.2.2.2.2.2.2.2.2.2).2
    have hl : ∃ i, i < locationWords.length ∧ (l.bit : Int) = bit i := by
      cases l <;> decide
    obtain ⟨i, hi, e⟩ := hl
    have h2 : directiveLocationString (locMask ls) = directiveLocationString (bit i) := by
      rw [h, ← e]; exact C97_used.2.2.2 l
    have h3 := hid i hi _ h2
    rw [← e] at h3
    have h4 : locMask ls = l.bit := by omega
    have h5 : ∀ a, inMask a l.bit ↔ a = l := by
      intro a; cases a <;> cases l <;> (unfold inMask; decide)
    refine ⟨?_, ?_⟩
    · rw [← C22_mask, h4]; exact (h5 l).2 rfl
    · intro a ha
      rw [← C22_mask, h4] at ha
      exact (h5 a).1 ha
  · rintro ⟨h1, h2⟩
    rw [Names.mask_one (List.ne_nil_of_mem h1) h2]
    exact (C97_used.2.2.2 l).symm

/-- C97: the tests for the kind of a type definition or extension: for a definition of a constant kind exactly the one test of that
name holds, and for any other number none. -/
theorem C97_tests (k : Int) :
    (isScalar k = true ↔ typeDefinitionKindString k = b!"scalar") ∧
    (isObject k = true ↔ typeDefinitionKindString k = b!"object") ∧
    (isInterface k = true ↔ typeDefinitionKindString k = b!"interface") ∧
    (isUnion k = true ↔ typeDefinitionKindString k = b!"union") ∧
    (isEnum k = true ↔ typeDefinitionKindString k = b!"enum") ∧
    (isInputObject k = true ↔ typeDefinitionKindString k = b!"input object") := by
  have h := C97_kinds.2.2.2.2.2.2.2.1
  have hw : ∀ (i : Nat) (w : Bytes), i < 6 →
      [b!"scalar", b!"object", b!"interface", b!"union", b!"enum", b!"input object"][i]? = some w →
      ((k == (i : Int)) = true ↔ typeDefinitionKindString k = w) := by
    intro i w hi hx
    rw [beq_iff_eq]
    constructor
    · intro e; subst e; exact h.1.1 i w hx
    · intro e
      exact h.2 i hi k (e.trans (h.1.1 i w hx).symm)
  exact ⟨hw 0 _ (by decide) rfl, hw 1 _ (by decide) rfl, hw 2 _ (by decide) rfl, hw 3 _ (by decide) rfl, hw 4 _ (by decide) rfl,
    hw 5 _ (by decide) rfl⟩

/-- C97: `String` of the executable definitions of a parsed document returns the name in the text (empty for an operation without a
name); it panics for no definition that the parser makes. -/
theorem C97_definitions (d : Body) (e : Executable) (h : executable d = some e) :
    (∃ o, d = .op o ∧ e.string = .ret o.name) ∨ (∃ f, d = .frag f ∧ e.string = .ret f.name) := by
  cases d with
  | op o => cases h; exact Or.inl ⟨o, rfl, rfl⟩
  | frag f => cases h; exact Or.inr ⟨f, rfl, rfl⟩
  | schema _ => cases h
  | type _ => cases h
  | directive _ => cases h
  | schemaExt _ => cases h
  | typeExt _ => cases h

/-- C97: for a value that a program made itself it panics exactly if the kind says what the pointers do not hold. -/
theorem C97_panics (e : Executable) :
    (e.string = .panic ↔ (e.kind = 1 ∧ e.fragment = none) ∨ (e.kind = 0 ∧ e.operation = none)) ∧ e.string ≠ .oof := by
  unfold Executable.string
  by_cases h1 : e.kind = 1
  · simp only [h1]
    cases e.fragment <;> simp
  · by_cases h0 : e.kind = 0
    · simp only [h0]
      cases e.operation <;> simp
    · simp [h1, h0]

/-- The hypotheses are met: names of sets, of a number that is no constant, of a parsed operation. -/
example : directiveLocationString (locMask [.field, .field]) = b!"FIELD" ∧ directiveLocationString (locMask [.field, .query]) = [] ∧
    operationKindString 77 = b!"invalid" ∧ tokenKindString (-1) = b!"Illegal" ∧ directiveLocationsByName b!"field" = 0 ∧
    ∃ e, executable (.op { kind := .query, name := b!"Q", vars := [], dirs := [], sels := [] }) = some e ∧ e.string = .ret b!"Q" :=
  ⟨by decide, by decide, by decide, by decide, by decide, _, rfl, rfl⟩

end GQL
