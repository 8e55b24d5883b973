/-
C39: `ParseDoc`.
-/
import Verif.Model.Api
import Verif.Props.C33
import Verif.Props.C12

namespace GQL
open Classical

/-- The errors of all enabled rules. -/
noncomputable def Spec.queryErrors (schema : Option Schema) (doc : Document) : List GErr :=
  nonExecutableErrors doc ++ anonymousErrors doc ++ unknownTypeErrors schema [] doc ++ unusedVariableErrors doc ++
    directiveErrors schema [] doc ++ repeatedDirectiveErrors doc ++ repeatedArgumentErrors doc ++ repeatedInputFieldErrors doc

theorem ret_inj {α : Type} {a b : α} (h : Out.ret a = .ret b) : a = b := by cases h; rfl

theorem specified_query : ∀ r ∈ specified, r.sdlOnly = false := by decide

/-- The errors of `Validate` with the enabled rules, whatever the errors about unused variables are. -/
theorem validate_specified (doc : Document) (schema : Option Schema) (hc : CountsOperations doc) {unused : List GErr}
    (hu : QueryErrors .noUnusedVariables doc schema unused) :
    ∃ c : Ctx, validate doc schema (rulesWalker specified) = .ret c ∧
      c.errors.Perm (Spec.nonExecutableErrors doc ++ Spec.anonymousErrors doc ++ Spec.unknownTypeErrors schema [] doc ++ unused ++
        Spec.directiveErrors schema [] doc ++ Spec.repeatedDirectiveErrors doc ++ Spec.repeatedArgumentErrors doc ++
        Spec.repeatedInputFieldErrors doc) := by
  obtain ⟨c, alone, h1, h2, h3⟩ := C29_query doc schema specified specified_query
  refine ⟨c, h1, h3.trans ?_⟩
  have key : ∀ {r : Rule} {l : List GErr}, r ∈ specified → QueryErrors r doc schema l → (alone r).errors.Perm l := by
    intro r l hr ⟨c, h, hp⟩
    have := ret_inj ((h2 r hr).symm.trans h)
    rw [this]; exact hp
  have k1 := key (by decide) (C30_query doc schema)
  have k2 := key (by decide) (C31_query doc schema hc)
  have k3 := key (by decide) (C32_query doc schema)
  have k4 := key (by decide) hu
  have k5 := key (by decide) (C35_query doc schema)
  have k6 := key (by decide) (C36_query doc schema)
  have k7 := key (by decide) (C37_query doc schema)
  have k8 := key (by decide) (C38_query doc schema)
  simp only [specified, List.flatMap_cons, List.flatMap_nil, List.append_nil, List.append_assoc]
  exact k1.append (k2.append (k3.append (k4.append (k5.append (k6.append (k7.append k8))))))

section
variable (pf : Bytes → Option Nat) (input : Bytes) (schema : Option Schema)

/-- **C30 - C38 for `ParseDoc`**: if the text parses and `ParseDoc` returns errors, they are together those of the rules.  (The premise about type-system
definitions is needed because of `C33_refuted`.) -/
theorem C39_errors_partial {d : Document} (h : parse pf input = .ok d) (hs : NoStrayVariables d) :
    ∃ errs : List GErr, errs.Perm (Spec.queryErrors schema d) ∧
      parseDoc pf input schema = .ret (if errs = [] then ⟨some d, none, none⟩ else ⟨none, some errs, none⟩) := by
  obtain ⟨c, h1, h2⟩ := validate_specified d schema (parsed_counts h) (C33_partial d schema hs)
  refine ⟨c.errors, h2, ?_⟩
  unfold parseDoc
  rw [h]
  dsimp only
  rw [h1]
  cases hc : c.errors <;> simp [Out.bind, hc]

theorem stray_of_executable {d : Document} (h : Spec.nonExecutableErrors d = []) : NoStrayVariables d := by
  intro x hx he
  have : Spec.definitionName x.body = none := by
    unfold Spec.nonExecutableErrors at h
    rw [List.map_eq_nil_iff, List.filterMap_eq_nil_iff] at h
    exact h x hx
  obtain ⟨loc, b⟩ := x
  cases b <;> first | (cases he; done) | (cases this; done)

/-- **C39, acceptance**: for every text and schema, `ParseDoc` returns a document exactly if the text parses (to that document) and no enabled rule
is violated; then it returns nothing else. -/
theorem C39_accepts (d : Document) :
    parseDoc pf input schema = .ret ⟨some d, none, none⟩ ↔ parse pf input = .ok d ∧ Spec.queryErrors schema d = [] := by
  constructor
  · intro h
    rcases e : parse pf input with d' | er | _ | _
    · obtain ⟨c, h1, h2⟩ := validate_specified d' schema (parsed_counts e) (C33_exact d' schema)
      unfold parseDoc at h
      rw [e] at h
      dsimp only at h
      rw [h1] at h
      simp only [Out.bind] at h
      split at h
      · cases h
      · rename_i hl
        cases h
        refine ⟨rfl, ?_⟩
        have hn : c.errors = [] := List.eq_nil_of_length_eq_zero (by omega)
        rw [hn] at h2
        have h3 := h2.symm.eq_nil
        simp only [List.append_eq_nil_iff] at h3
        have hs := stray_of_executable h3.1.1.1.1.1.1.1
        obtain ⟨c2, h4, h5⟩ := validate_specified d schema (parsed_counts e) (C33_partial d schema hs)
        cases ret_inj (h4.symm.trans h1)
        rw [hn] at h5
        exact h5.symm.eq_nil
    all_goals (unfold parseDoc at h; rw [e] at h; cases h)
  · rintro ⟨h, hq⟩
    have hs : NoStrayVariables d := by
      refine stray_of_executable ?_
      unfold Spec.queryErrors at hq
      simp only [List.append_eq_nil_iff] at hq
      exact hq.1.1.1.1.1.1.1
    obtain ⟨errs, h1, h2⟩ := C39_errors_partial pf input schema h hs
    rw [hq] at h1
    rw [h2, if_pos h1.eq_nil]

/-- **C39, otherwise**: unless the parser panics, a text that is not accepted gives no document and either a parse error or a list of at least
one error.  Missing for the full property: the texts on which the parser panics (`C12_refuted`). -/
theorem C39_otherwise_partial (h : parse pf input ≠ .panic) :
    (∃ d, parseDoc pf input schema = .ret ⟨some d, none, none⟩) ∨
    (∃ e, parse pf input = .err e ∧ parseDoc pf input schema = .ret ⟨none, none, some e⟩) ∨
    (∃ d es, parse pf input = .ok d ∧ es ≠ [] ∧ parseDoc pf input schema = .ret ⟨none, some es, none⟩) := by
  rcases e : parse pf input with d | er | _ | _
  · obtain ⟨c, h1, h2⟩ := validate_specified d schema (parsed_counts e) (C33_exact d schema)
    unfold parseDoc
    rw [e]
    dsimp only
    rw [h1]
    simp only [Out.bind]
    by_cases hc : c.errors = []
    · exact .inl ⟨d, by simp [hc]⟩
    · refine .inr (.inr ⟨d, c.errors, rfl, hc, ?_⟩)
      rw [if_pos (List.length_pos_iff.2 hc)]
  · exact .inr (.inl ⟨er, rfl, by unfold parseDoc; rw [e]⟩)
  · exact absurd e h
  · exact absurd e (C13_terminates pf input)

end

/-- C39 as stated fails: on this text `ParseDoc` does not return. -/
theorem C39_refuted (pf : Bytes → Option Nat) (schema : Option Schema) : parseDoc pf b!"fragment {a}" schema = .panic := by
  unfold parseDoc; rw [C12_refuted]

theorem parseDoc_ok {pf : Bytes → Option Nat} {input : Bytes} {schema : Option Schema} {d : Document} (h : parse pf input = .ok d)
    (hv : (validate d schema (rulesWalker specified)).errors? = some []) : parseDoc pf input schema = .ret ⟨some d, none, none⟩ := by
  unfold parseDoc
  rw [h]
  dsimp only
  cases hc : validate d schema (rulesWalker specified) <;> rw [hc] at hv
  · simp only [Out.errors?, Option.some.injEq] at hv
    simp [Out.bind, hv]
  all_goals cases hv

/-- A text that is accepted, so that the conditions of `C39_accepts` hold of its document. -/
example : ∃ d, parseDoc (fun _ => none) b!"query Q($v: Int) { a(x: $v) @include(if: $v) }" none = .ret ⟨some d, none, none⟩ ∧ d.defs.length = 1 :=
  ⟨_, parseDoc_ok (parse_eq (ts := [⟨.name, b!"query", 1, 1⟩, ⟨.name, b!"Q", 1, 7⟩, ⟨.punctuator, b!"(", 1, 8⟩, ⟨.punctuator, b!"$", 1, 9⟩, ⟨.name, b!"v", 1, 10⟩, ⟨.punctuator, b!":", 1, 11⟩, ⟨.name, b!"Int", 1, 13⟩, ⟨.punctuator, b!")", 1, 16⟩, ⟨.punctuator, b!"{", 1, 18⟩, ⟨.name, b!"a", 1, 20⟩, ⟨.punctuator, b!"(", 1, 21⟩, ⟨.name, b!"x", 1, 22⟩, ⟨.punctuator, b!":", 1, 23⟩, ⟨.punctuator, b!"$", 1, 25⟩, ⟨.name, b!"v", 1, 26⟩, ⟨.punctuator, b!")", 1, 27⟩, ⟨.punctuator, b!"@", 1, 29⟩, ⟨.name, b!"include", 1, 30⟩, ⟨.punctuator, b!"(", 1, 37⟩, ⟨.name, b!"if", 1, 38⟩, ⟨.punctuator, b!":", 1, 40⟩, ⟨.punctuator, b!"$", 1, 42⟩, ⟨.name, b!"v", 1, 43⟩, ⟨.punctuator, b!")", 1, 44⟩, ⟨.punctuator, b!"}", 1, 46⟩, ⟨.eof, [], 1, 47⟩]) (by decide) rfl) rfl, rfl⟩

set_option maxRecDepth 4000 in
/-- A text that violates every rule; the error found last is the first of the list. -/
example : ∃ d, parse (fun _ => none) b!"query ($v: T) { a(x: {f: 1, f: 2}, x: 1) @d @d @deprecated } { b } type X { a: Int }" = .ok d ∧
    (validate d none (rulesWalker specified)).errors? = some [
      nonExecutableDefinitionError b!"X",
      anonOperationNotAloneError,
      unusedVariableError b!"v" [],
      misplacedDirectiveError b!"deprecated" .field,
      unknownDirectiveError b!"d",
      unknownDirectiveError b!"d",
      duplicateDirectiveError b!"d",
      duplicateInputFieldError b!"f",
      duplicateArgError b!"x",
      unknownTypeError b!"T",
      anonOperationNotAloneError] :=
  ⟨_, (parse_eq (ts := [⟨.name, b!"query", 1, 1⟩, ⟨.punctuator, b!"(", 1, 7⟩, ⟨.punctuator, b!"$", 1, 8⟩, ⟨.name, b!"v", 1, 9⟩, ⟨.punctuator, b!":", 1, 10⟩, ⟨.name, b!"T", 1, 12⟩, ⟨.punctuator, b!")", 1, 13⟩, ⟨.punctuator, b!"{", 1, 15⟩, ⟨.name, b!"a", 1, 17⟩, ⟨.punctuator, b!"(", 1, 18⟩, ⟨.name, b!"x", 1, 19⟩, ⟨.punctuator, b!":", 1, 20⟩, ⟨.punctuator, b!"{", 1, 22⟩, ⟨.name, b!"f", 1, 23⟩, ⟨.punctuator, b!":", 1, 24⟩, ⟨.intValue, b!"1", 1, 26⟩, ⟨.name, b!"f", 1, 29⟩, ⟨.punctuator, b!":", 1, 30⟩, ⟨.intValue, b!"2", 1, 32⟩, ⟨.punctuator, b!"}", 1, 33⟩, ⟨.name, b!"x", 1, 36⟩, ⟨.punctuator, b!":", 1, 37⟩, ⟨.intValue, b!"1", 1, 39⟩, ⟨.punctuator, b!")", 1, 40⟩, ⟨.punctuator, b!"@", 1, 42⟩, ⟨.name, b!"d", 1, 43⟩, ⟨.punctuator, b!"@", 1, 45⟩, ⟨.name, b!"d", 1, 46⟩, ⟨.punctuator, b!"@", 1, 48⟩, ⟨.name, b!"deprecated", 1, 49⟩, ⟨.punctuator, b!"}", 1, 60⟩, ⟨.punctuator, b!"{", 1, 62⟩, ⟨.name, b!"b", 1, 64⟩, ⟨.punctuator, b!"}", 1, 66⟩, ⟨.name, b!"type", 1, 68⟩, ⟨.name, b!"X", 1, 73⟩, ⟨.punctuator, b!"{", 1, 75⟩, ⟨.name, b!"a", 1, 77⟩, ⟨.punctuator, b!":", 1, 78⟩, ⟨.name, b!"Int", 1, 80⟩, ⟨.punctuator, b!"}", 1, 84⟩, ⟨.eof, [], 1, 85⟩]) (by decide) rfl), rfl⟩

end GQL
