/-
C50–C56, the part about `ValidateSchema`: root types, the sorts of types, subtypes, termination, interfaces, names, order of iteration.
-/
import Verif.Proofs.SchemaFuel

namespace GQL
open Classical

/-- `ValidateSchema` returns, and the context is `c'` then. -/
def ValidatesTo (run : RunOrders) (c : Ctx) (s : Schema) (c' : Ctx) : Prop := ∃ fuel, validateSchema fuel run c s = .ret c'

theorem validates_unique {run : RunOrders} {c c1 c2 : Ctx} {s : Schema} (h1 : ValidatesTo run c s c1) (h2 : ValidatesTo run c s c2) : c1 = c2 := by
  obtain ⟨k1, h1⟩ := h1
  obtain ⟨k2, h2⟩ := h2
  have a := Out.le_ret (validateSchema_mono run c s (Nat.le_max_left k1 k2)) h1
  have b := Out.le_ret (validateSchema_mono run c s (Nat.le_max_right k1 k2)) h2
  exact Out.ret.inj (a.symm.trans b)

/-! ### Everything -/

/-- **All errors of `ValidateSchema`**: when it returns, it has added the errors of the specification, each as often as the specification has it,
and changed nothing else. -/
theorem C50_all_errors {run : RunOrders} {c c' : Ctx} {s : Schema} (hs : Spec.WellFormed s) (h : ValidatesTo run c s c') :
    c'.errors.Perm (Spec.schemaErrors s ++ c.errors) ∧ { c' with errors := c.errors } = c := by
  obtain ⟨k, h⟩ := h
  obtain ⟨x, hx, hm⟩ := validateSchema_means run s hs
  have hr : (x k).returns := by
    rw [hx] at h
    cases hk : x k with
    | ret l => exact ⟨l, rfl⟩
    | panic => rw [hk] at h; cases h
    | oof => rw [hk] at h; cases h
  have hok : Spec.Complete s ∧ Spec.Settled s := Decidable.byContradiction fun hn => hm.2 hn k hr
  obtain ⟨N, hN⟩ := hm.1 hok
  have h' := Out.le_ret (validateSchema_mono run c s (Nat.le_max_left k N)) h
  obtain ⟨l, hl, hp⟩ := hN (max k N) (Nat.le_max_right k N)
  rw [hx, hl] at h'
  have := Out.ret.inj h'
  subst this
  rw [Ctx.addErrors_eq]
  exact ⟨((List.reverse_perm l).trans hp).append_right _, rfl⟩

/-- **C53, exactly**, for `ValidateSchema`: it returns if and only if no list type lacks its item type and no field of an object type is compared with
a field of abstract type that it is not a possible type of. -/
theorem C53_exact {s : Schema} (hs : Spec.WellFormed s) (run : RunOrders) (c : Ctx) :
    (∃ c', ValidatesTo run c s c') ↔ Spec.Complete s ∧ Spec.Settled s := by
  obtain ⟨x, hx, hm⟩ := validateSchema_means run s hs
  constructor
  · rintro ⟨c', k, h⟩
    refine Decidable.byContradiction fun hn => hm.2 hn k ?_
    rw [hx] at h
    cases hk : x k with
    | ret l => exact ⟨l, rfl⟩
    | panic => rw [hk] at h; cases h
    | oof => rw [hk] at h; cases h
  · intro h
    obtain ⟨N, hN⟩ := hm.1 h
    obtain ⟨l, hl, _⟩ := hN N (Nat.le_refl _)
    exact ⟨c.addErrors l, N, by rw [hx, hl]; rfl⟩

/-- When types are complete but a comparison is stuck, `ValidateSchema` runs for ever: it does not panic, and no number of steps is enough. -/
theorem C53_hangs {s : Schema} (hs : Spec.WellFormed s) (hc : Spec.Complete s) (hn : ¬ Spec.Settled s) (run : RunOrders) (c : Ctx) (fuel : Nat) :
    validateSchema fuel run c s = .oof := by
  cases h : validateSchema fuel run c s with
  | ret c' => exact absurd ((C53_exact hs run c).1 ⟨c', fuel, h⟩).2 hn
  | panic => exact absurd h (validateSchema_safe run s hs hc fuel c)
  | oof => rfl

/-- No panic when types are complete. -/
theorem C62_validateSchema_safe {s : Schema} (hs : Spec.WellFormed s) (hc : Spec.Complete s) (run : RunOrders) (c : Ctx) (fuel : Nat) :
    validateSchema fuel run c s ≠ .panic := validateSchema_safe run s hs hc fuel c

/-- **C56** for `ValidateSchema`: whatever the orders of iteration and the sharing of item types, either both runs return, with the same errors up
to order, or neither does. -/
theorem C56_validate {s : Schema} (hs : Spec.WellFormed s) (run run' : RunOrders) (c : Ctx) :
    (∃ d d', ValidatesTo run c s d ∧ ValidatesTo run' c s d' ∧ d.errors.Perm d'.errors) ∨
    ((∀ d, ¬ ValidatesTo run c s d) ∧ ∀ d, ¬ ValidatesTo run' c s d) := by
  by_cases h : Spec.Complete s ∧ Spec.Settled s
  · obtain ⟨d, hd⟩ := (C53_exact hs run c).2 h
    obtain ⟨d', hd'⟩ := (C53_exact hs run' c).2 h
    exact .inl ⟨d, d', hd, hd', (C50_all_errors hs hd).1.trans (C50_all_errors hs hd').1.symm⟩
  · exact .inr ⟨fun d hd => h ((C53_exact hs run c).1 ⟨d, hd⟩), fun d hd => h ((C53_exact hs run' c).1 ⟨d, hd⟩)⟩

/-! ### Errors by their messages -/

/-- The message begins so. -/
def Spec.about (pre : Bytes) (e : GErr) : Bool := pre.isPrefixOf e.message

theorem filter_none {α : Type} {q : α → Bool} {l : List α} (h : ∀ a ∈ l, q a = false) : l.filter q = [] :=
  List.filter_eq_nil_iff.2 fun a ha => by rw [h a ha]; exact Bool.false_ne_true

theorem filter_every {α : Type} {q : α → Bool} {l : List α} (h : ∀ a ∈ l, q a = true) : l.filter q = l := List.filter_eq_self.2 h

theorem mem_nameErrors {n : Bytes} {e : GErr} (h : e ∈ Spec.nameErrors n) : e = reservedNameError n ∨ e = invalidNameError n := by
  unfold Spec.nameErrors at h
  rw [says_reservedName, says_invalidName] at h
  split at h
  · exact .inl (by simpa using h)
  · split at h
    · cases h
    · exact .inr (by simpa using h)

theorem mem_rootTypeErrs {s : Schema} {e : GErr} (h : e ∈ Spec.rootTypeErrs s) : e = newError b!"Query root type must be provided." ∨
    e = newError b!"Query root type must be Object type." ∨ e = newError b!"Mutation root type must be Object type if provided." ∨
    e = newError b!"Subscription root type must be Object type if provided." := by
  unfold Spec.rootTypeErrs at h
  have key : ∀ {p : Prop} {x : GErr}, e ∈ (if p then [x] else []) → e = x := by
    intro p x h
    split at h
    · simpa using h
    · cases h
  rcases List.mem_append.1 h with h | h
  · rcases List.mem_append.1 h with h | h
    · rcases List.mem_append.1 h with h | h
      · exact .inl (key h)
      · exact .inr (.inl (key h))
    · exact .inr (.inr (.inl (key h)))
  · exact .inr (.inr (.inr (key h)))

theorem mem_interfaceErrors {s : Schema} {t : TypeDef} {e : GErr} (h : e ∈ Spec.interfaceErrors s t) :
    (∃ x, e = newError (b!"Type " ++ x)) ∨ ∃ x, e = newError (b!"Interface field " ++ x) := by
  unfold Spec.interfaceErrors at h
  rcases List.mem_append.1 h with h | h
  · refine .inl ?_
    rcases List.mem_append.1 h with h | h
    · obtain ⟨n, _, rfl⟩ := List.mem_map.1 h
      exact ⟨_, by rw [List.append_assoc, List.append_assoc]⟩
    · obtain ⟨n, _, rfl⟩ := List.mem_map.1 h
      exact ⟨_, by rw [List.append_assoc, List.append_assoc, List.append_assoc]⟩
  · refine .inr ?_
    obtain ⟨n, _, h⟩ := List.mem_flatMap.1 h
    split at h
    · unfold Spec.implementationErrors at h
      obtain ⟨f, _, h⟩ := List.mem_flatMap.1 h
      split at h
      · rw [List.mem_singleton] at h
        exact ⟨_, by rw [h]; simp only [List.append_assoc]; rfl⟩
      · split at h
        · cases h
        · rw [List.mem_singleton] at h
          exact ⟨_, by rw [h]; simp only [List.append_assoc]; rfl⟩
    · cases h

theorem mem_directiveDefErrors {p : Bytes × DirDef} {e : GErr} (h : e ∈ Spec.directiveDefErrors p) :
    (∃ n, e ∈ Spec.nameErrors n) ∨ ∃ x, e = newError (b!"Argument @" ++ x) := by
  unfold Spec.directiveDefErrors at h
  rcases List.mem_append.1 h with h | h
  · rcases List.mem_append.1 h with h | h
    · exact .inl ⟨_, h⟩
    · obtain ⟨n, _, h⟩ := List.mem_flatMap.1 h; exact .inl ⟨n, h⟩
  · obtain ⟨n, _, rfl⟩ := List.mem_map.1 h
    exact .inr ⟨_, by simp only [List.append_assoc]; rfl⟩

theorem mem_fieldErrors {s : Schema} {t : TypeDef} {e : GErr} (h : e ∈ Spec.fieldErrors s t) : (∃ n, e ∈ Spec.nameErrors n) ∨
    (∃ x, e = newError (b!"Type " ++ x)) ∨ (∃ x, e = newError (b!"The type of " ++ x)) ∨ ∃ x, e = newError (b!"Field argument " ++ x) := by
  unfold Spec.fieldErrors at h
  rcases List.mem_append.1 h with h | h
  · split at h
    · rw [List.mem_singleton] at h
      exact .inr (.inl ⟨_, by rw [h, List.append_assoc]⟩)
    · cases h
  · obtain ⟨f, _, h⟩ := List.mem_flatMap.1 h
    rcases List.mem_append.1 h with h | h
    · rcases List.mem_append.1 h with h | h
      · rcases List.mem_append.1 h with h | h
        · exact .inl ⟨_, h⟩
        · split at h
          · cases h
          · rw [List.mem_singleton] at h
            exact .inr (.inr (.inl ⟨_, by rw [h]; simp only [List.append_assoc]; rfl⟩))
      · obtain ⟨a, _, h⟩ := List.mem_flatMap.1 h
        rcases List.mem_append.1 h with h | h
        · exact .inl ⟨_, h⟩
        · split at h
          · cases h
          · rw [List.mem_singleton] at h
            exact .inr (.inr (.inl ⟨_, by rw [h]; simp only [List.append_assoc]; rfl⟩))
    · obtain ⟨a, _, rfl⟩ := List.mem_map.1 h
      exact .inr (.inr (.inr ⟨_, by simp only [List.append_assoc]; rfl⟩))

/-- The errors about types other than the root types begin so. -/
theorem mem_typeErrors {s : Schema} {p : Bytes × TypeDef} {e : GErr} (h : e ∈ Spec.typeErrors s p) : (∃ n, e ∈ Spec.nameErrors n) ∨
    (∃ x, e = newError (b!"Type " ++ x)) ∨ (∃ x, e = newError (b!"The type of " ++ x)) ∨ (∃ x, e = newError (b!"Field argument " ++ x)) ∨
    ∃ x, e = newError (b!"Interface field " ++ x) := by
  unfold Spec.typeErrors at h
  rcases List.mem_append.1 h with h | h
  · rcases List.mem_append.1 h with h | h
    · split at h
      · cases h
      · exact .inl ⟨_, h⟩
    · split at h
      · rcases mem_fieldErrors h with h | h | h | h
        · exact .inl h
        · exact .inr (.inl h)
        · exact .inr (.inr (.inl h))
        · exact .inr (.inr (.inr (.inl h)))
      · cases h
  · split at h
    · rcases mem_interfaceErrors h with h | h
      · exact .inr (.inl h)
      · exact .inr (.inr (.inr (.inr h)))
    · cases h

theorem name_head {n : Bytes} {e : GErr} (h : e ∈ Spec.nameErrors n) : ∃ x, e = newError (b!"Name " ++ x) := by
  rcases mem_nameErrors h with rfl | rfl
  · exact ⟨_, by unfold reservedNameError; simp only [List.append_assoc]; rfl⟩
  · exact ⟨_, by unfold invalidNameError; simp only [List.append_assoc]; rfl⟩

/-! ### C50 -/

/-- An error about root types. -/
def Spec.aboutRoots (e : GErr) : Bool := about b!"Query root" e || about b!"Mutation root" e || about b!"Subscription root" e

theorem rootErrors_filter (s : Schema) : (Spec.schemaErrors s).filter Spec.aboutRoots = Spec.rootTypeErrs s := by
  unfold Spec.schemaErrors
  rw [List.filter_append, List.filter_append, filter_every, filter_none, filter_none, List.append_nil, List.append_nil]
  · intro e he
    obtain ⟨p, _, he⟩ := List.mem_flatMap.1 he
    rcases mem_typeErrors he with ⟨n, h⟩ | ⟨x, rfl⟩ | ⟨x, rfl⟩ | ⟨x, rfl⟩ | ⟨x, rfl⟩
    · obtain ⟨x, rfl⟩ := name_head h; rfl
    all_goals rfl
  · intro e he
    obtain ⟨p, _, he⟩ := List.mem_flatMap.1 he
    rcases mem_directiveDefErrors he with ⟨n, h⟩ | ⟨x, rfl⟩
    · obtain ⟨x, rfl⟩ := name_head h; rfl
    · rfl
  · intro e he
    rcases mem_rootTypeErrs he with rfl | rfl | rfl | rfl <;> rfl

/-- **C50**: when `ValidateSchema` returns, the errors about root types that it has added are exactly: one if the query root type is missing, and one for
each root type that exists and is not an object type. -/
theorem C50 {run : RunOrders} {c c' : Ctx} {s : Schema} (hs : Spec.WellFormed s) (h : ValidatesTo run c s c') :
    (c'.errors.filter Spec.aboutRoots).Perm (Spec.rootTypeErrs s ++ c.errors.filter Spec.aboutRoots) := by
  have := (C50_all_errors hs h).1.filter Spec.aboutRoots
  rwa [List.filter_append, rootErrors_filter] at this

/-! ### C51 -/

/-- The errors about the types of fields and arguments: one for each field whose type is not an output type, and for each argument whose type is not an
input type. -/
noncomputable def Spec.sortErrors (s : Schema) : List GErr :=
  s.types.flatMap fun p => if p.2.kind = .object ∨ p.2.kind = .interface then
    p.2.fields.flatMap fun f =>
      (if OutputType s f.type then [] else [newError (b!"The type of " ++ p.2.name ++ b!"." ++ f.name ++ b!" must be Output Type.")]) ++
      f.args.flatMap fun a => if InputType s a.type then []
        else [newError (b!"The type of " ++ p.2.name ++ b!"." ++ f.name ++ b!"(" ++ a.name ++ b!":) must be Input Type.")]
  else []

theorem filter_flatMap' {α β : Type} (q : β → Bool) (f g : α → List β) (l : List α) (h : ∀ a ∈ l, (f a).filter q = g a) :
    (l.flatMap f).filter q = l.flatMap g := by
  rw [List.filter_flatMap, List.flatMap_def, List.flatMap_def]
  exact congrArg List.flatten (List.map_congr_left h)

theorem sortErrors_filter (s : Schema) : (Spec.schemaErrors s).filter (Spec.about b!"The type of") = Spec.sortErrors s := by
  have hn : ∀ n, (Spec.nameErrors n).filter (Spec.about b!"The type of") = [] := fun n => filter_none fun e he => by
    obtain ⟨x, rfl⟩ := name_head he; rfl
  unfold Spec.schemaErrors
  rw [List.filter_append, List.filter_append, filter_none, filter_none, List.nil_append, List.nil_append]
  · refine filter_flatMap' _ _ _ _ fun p _ => ?_
    unfold Spec.typeErrors
    rw [List.filter_append, List.filter_append]
    have e1 : (if p.1 ∈ Spec.introspectionNames then [] else Spec.nameErrors p.1).filter (Spec.about b!"The type of") = [] := by
      split
      · rfl
      · exact hn _
    have e3 : (if p.2.kind = .object then Spec.interfaceErrors s p.2 else []).filter (Spec.about b!"The type of") = [] := by
      split
      · exact filter_none fun e he => by rcases mem_interfaceErrors he with ⟨x, rfl⟩ | ⟨x, rfl⟩ <;> rfl
      · rfl
    rw [e1, e3, List.nil_append, List.append_nil]
    split
    · unfold Spec.fieldErrors
      rw [List.filter_append, filter_none, List.nil_append]
      · refine filter_flatMap' _ _ _ _ fun f _ => ?_
        rw [List.filter_append, List.filter_append, List.filter_append, hn, List.nil_append]
        rw [filter_none (l := List.map _ (Spec.repeated _)) (fun e he => by obtain ⟨a, _, rfl⟩ := List.mem_map.1 he; rfl), List.append_nil]
        congr 1
        · refine filter_every fun e he => ?_
          split at he
          · cases he
          · rw [List.mem_singleton] at he; subst he; rfl
        · refine filter_flatMap' _ _ _ _ fun a _ => ?_
          rw [List.filter_append, hn, List.nil_append]
          refine filter_every fun e he => ?_
          split at he
          · cases he
          · rw [List.mem_singleton] at he; subst he; rfl
      · intro e he; split at he
        · rw [List.mem_singleton] at he; subst he; rfl
        · cases he
    · rfl
  · intro e he
    obtain ⟨p, _, he⟩ := List.mem_flatMap.1 he
    rcases mem_directiveDefErrors he with ⟨n, h⟩ | ⟨x, rfl⟩
    · obtain ⟨x, rfl⟩ := name_head h; rfl
    · rfl
  · intro e he
    rcases mem_rootTypeErrs he with rfl | rfl | rfl | rfl <;> rfl

/-- **C51, exactly**: when `ValidateSchema` returns, the errors about the types of fields and arguments that it has added are exactly these. -/
theorem C51_exact {run : RunOrders} {c c' : Ctx} {s : Schema} (hs : Spec.WellFormed s) (h : ValidatesTo run c s c') :
    (c'.errors.filter (Spec.about b!"The type of")).Perm (Spec.sortErrors s ++ c.errors.filter (Spec.about b!"The type of")) := by
  have := (C50_all_errors hs h).1.filter (Spec.about b!"The type of")
  rwa [List.filter_append, sortErrors_filter] at this

/-- Wrappers do not matter. -/
theorem C51_wrappers (s : Schema) (t : Ty) (x : Bool) : (Spec.InputType s (.list t x) ↔ Spec.InputType s t) ∧
    (Spec.OutputType s (.list t x) ↔ Spec.OutputType s t) ∧ ∀ n, (Spec.InputType s (.named n x) ↔ Spec.InputType s (.named n (!x))) ∧
    (Spec.OutputType s (.named n x) ↔ Spec.OutputType s (.named n (!x))) :=
  ⟨Iff.rfl, Iff.rfl, fun _ => ⟨Iff.rfl, Iff.rfl⟩⟩

/-! ### C55 -/

/-- **C55**: the error for a name, or none, is all that `validateName` adds. -/
theorem C55 (c : Ctx) (n : Bytes) : validateName c n = { c with errors := (Spec.nameErrors n).reverse ++ c.errors } := by
  rw [validateName_eq, Ctx.addErrors_eq]

/-- A name is reported, once, if and only if it is empty, begins with two underscores or is not of the form `[_a-zA-Z][_a-zA-Z0-9]*`. -/
theorem C55_iff (c : Ctx) (n : Bytes) :
    ((n = [] ∨ Spec.Reserved n ∨ ¬ Spec.ValidName n) → ∃ e, (validateName c n).errors = e :: c.errors) ∧
    (¬ (n = [] ∨ Spec.Reserved n ∨ ¬ Spec.ValidName n) → (validateName c n).errors = c.errors) := by
  rw [C55]
  unfold Spec.nameErrors
  constructor
  · intro h
    by_cases hr : Spec.Reserved n
    · exact ⟨reservedNameError n, by rw [if_pos hr]; rfl⟩
    · have hv : ¬ Spec.ValidName n := by
        rcases h with rfl | h | h
        · rintro ⟨b, t, h, _⟩; cases h
        · exact absurd h hr
        · exact h
      exact ⟨invalidNameError n, by rw [if_neg hr, if_neg hv]; rfl⟩
  · intro h
    rw [not_or, not_or, Classical.not_not] at h
    rw [if_neg h.2.1, if_pos h.2.2]; rfl

example (d : Document) : (validateName { doc := d, schema := {} } b!"a_1").errors = [] := rfl
example (d : Document) : (validateName { doc := d, schema := {} } b!"1a").errors = [invalidNameError b!"1a"] := rfl
example (d : Document) : (validateName { doc := d, schema := {} } b!"é").errors = [invalidNameError b!"é"] := rfl
example (d : Document) : (validateName { doc := d, schema := {} } b!"__x").errors = [reservedNameError b!"__x"] := rfl
example (d : Document) : (validateName { doc := d, schema := {} } []).errors = [invalidNameError []] := rfl
example : Spec.ValidName b!"_a1" := ⟨95, b!"a1", rfl, by simp [Spec.nameStartByte], by simp [Spec.nameByte, Spec.nameStartByte]⟩

/-- The names of a schema that are checked: those of directives, of their arguments (once each), of types (but for the introspection types), of fields and
their arguments.  The names of enum values and of input fields are not. -/
noncomputable def Spec.checkedNames (s : Schema) : List Bytes :=
  (s.directives.flatMap fun p => p.1 :: (p.2.args.map (·.name)).eraseDups) ++
  s.types.flatMap fun p => (if p.1 ∈ introspectionNames then [] else [p.1]) ++
    if p.2.kind = .object ∨ p.2.kind = .interface then p.2.fields.flatMap fun f => f.name :: f.args.map (·.name) else []

theorem nameErrors_filter (s : Schema) : (Spec.schemaErrors s).filter (Spec.about b!"Name ") = (Spec.checkedNames s).flatMap Spec.nameErrors := by
  have hn : ∀ n, (Spec.nameErrors n).filter (Spec.about b!"Name ") = Spec.nameErrors n := fun n => filter_every fun e he => by
    obtain ⟨x, rfl⟩ := name_head he; rfl
  have hone : ∀ {p : Prop} [Decidable p] {x : GErr}, Spec.about b!"Name " x = false → (if p then [] else [x]).filter (Spec.about b!"Name ") = [] := by
    intro p _ x hx
    split
    · rfl
    · simp [hx]
  have hm : ∀ {α : Type} (l : List α) (f : α → GErr), (∀ a, Spec.about b!"Name " (f a) = false) → (l.map f).filter (Spec.about b!"Name ") = [] := by
    intro α l f hf
    exact filter_none fun e he => by obtain ⟨a, _, rfl⟩ := List.mem_map.1 he; exact hf a
  unfold Spec.schemaErrors Spec.checkedNames
  rw [List.filter_append, List.filter_append, List.flatMap_append, filter_none (l := Spec.rootTypeErrs s), List.nil_append]
  · congr 1
    · rw [List.flatMap_assoc]
      refine filter_flatMap' _ _ _ _ fun p _ => ?_
      unfold Spec.directiveDefErrors
      rw [List.filter_append, List.filter_append, hm _ _ fun _ => rfl, List.append_nil, hn, List.flatMap_cons,
        filter_flatMap' _ _ _ _ fun n _ => hn n]
    · rw [List.flatMap_assoc]
      refine filter_flatMap' _ _ _ _ fun p _ => ?_
      unfold Spec.typeErrors
      rw [List.filter_append, List.filter_append, List.flatMap_append]
      have e3 : (if p.2.kind = .object then Spec.interfaceErrors s p.2 else []).filter (Spec.about b!"Name ") = [] := by
        split
        · exact filter_none fun e he => by rcases mem_interfaceErrors he with ⟨x, rfl⟩ | ⟨x, rfl⟩ <;> rfl
        · rfl
      rw [e3, List.append_nil]
      congr 1
      · split
        · rfl
        · rw [hn]; simp
      · split
        · unfold Spec.fieldErrors
          rw [List.filter_append, List.flatMap_assoc, filter_none (l := if p.2.fields = [] then _ else _), List.nil_append]
          · refine filter_flatMap' _ _ _ _ fun f _ => ?_
            rw [List.filter_append, List.filter_append, List.filter_append, hn, hm _ _ fun _ => rfl, hone rfl, List.append_nil, List.append_nil,
              List.flatMap_cons]
            congr 1
            rw [List.flatMap_map]
            refine filter_flatMap' _ _ _ _ fun a _ => ?_
            rw [List.filter_append, hn, hone rfl, List.append_nil]
          · intro e he; split at he
            · rw [List.mem_singleton] at he; subst he; rfl
            · cases he
        · rfl
  · intro e he
    rcases mem_rootTypeErrs he with rfl | rfl | rfl | rfl <;> rfl

/-- **C55 for a whole schema**: the errors about names are those for the names that are checked. -/
theorem C55_schema {run : RunOrders} {c c' : Ctx} {s : Schema} (hs : Spec.WellFormed s) (h : ValidatesTo run c s c') :
    (c'.errors.filter (Spec.about b!"Name ")).Perm ((Spec.checkedNames s).flatMap Spec.nameErrors ++ c.errors.filter (Spec.about b!"Name ")) := by
  have := (C50_all_errors hs h).1.filter (Spec.about b!"Name ")
  rwa [List.filter_append, nameErrors_filter] at this

/-! ### C54 -/

/-- The schema without its `implements` clauses. -/
def Spec.withoutInterfaces (s : Schema) : Schema := { s with types := s.types.map fun p => (p.1, { p.2 with ifaces := [] }) }

theorem lookup_without (s : Schema) (n : Bytes) :
    (Spec.withoutInterfaces s).types.lookup n = (s.types.lookup n).map fun d => { d with ifaces := [] } := by
  unfold Spec.withoutInterfaces
  dsimp only
  induction s.types with
  | nil => rfl
  | cons p l ih =>
    rw [List.map_cons, List.lookup_cons, List.lookup_cons]
    cases n == p.1 with
    | true => rfl
    | false => exact ih

theorem isKind_without (s : Schema) (n : Bytes) (k : TypeKind) : Spec.IsKind (Spec.withoutInterfaces s) n k ↔ Spec.IsKind s n k := by
  unfold Spec.IsKind
  rw [lookup_without]
  cases s.types.lookup n <;> simp

theorem rootErrs_without (s : Schema) : Spec.rootTypeErrs (Spec.withoutInterfaces s) = Spec.rootTypeErrs s := by
  have h1 : ∀ r, Spec.RootNotObject (Spec.withoutInterfaces s) r = Spec.RootNotObject s r := fun r => by
    unfold Spec.RootNotObject; simp only [isKind_without]
  have h2 : ∀ r, Spec.RootMissing (Spec.withoutInterfaces s) r = Spec.RootMissing s r := fun r => by
    unfold Spec.RootMissing; simp only [lookup_without, Option.map_eq_none_iff]
  unfold Spec.rootTypeErrs
  rw [h1, h1, h1, h2]
  rfl

theorem perm_flatMap_append {α β : Type} (f g : α → List β) : ∀ l : List α, (l.flatMap fun a => f a ++ g a).Perm (l.flatMap f ++ l.flatMap g)
  | [] => .refl _
  | a :: l => by
    rw [List.flatMap_cons, List.flatMap_cons, List.flatMap_cons, List.append_assoc, List.append_assoc]
    refine List.Perm.append_left _ ?_
    refine ((perm_flatMap_append f g l).append_left _).trans ?_
    rw [← List.append_assoc, ← List.append_assoc]
    exact List.perm_append_comm.append_right _

/-- The errors about interfaces. -/
noncomputable def Spec.allInterfaceErrors (s : Schema) : List GErr :=
  s.types.flatMap fun p => if p.2.kind = .object then interfaceErrors s p.2 else []

theorem schemaErrors_split (s : Schema) : (Spec.schemaErrors s).Perm (Spec.allInterfaceErrors s ++ Spec.schemaErrors (Spec.withoutInterfaces s)) := by
  have hk : ∀ n k, Spec.IsKind (Spec.withoutInterfaces s) n k = Spec.IsKind s n k := fun n k => propext (isKind_without s n k)
  have hin : ∀ t, Spec.InputType (Spec.withoutInterfaces s) t = Spec.InputType s t := fun t => by unfold Spec.InputType; simp only [hk]
  have hout : ∀ t, Spec.OutputType (Spec.withoutInterfaces s) t = Spec.OutputType s t := fun t => by unfold Spec.OutputType; simp only [hk]
  have ht : (Spec.withoutInterfaces s).types.flatMap (Spec.typeErrors (Spec.withoutInterfaces s)) =
      s.types.flatMap fun p => (if p.1 ∈ Spec.introspectionNames then [] else Spec.nameErrors p.1) ++
        (if p.2.kind = .object ∨ p.2.kind = .interface then Spec.fieldErrors s p.2 else []) := by
    show (s.types.map _).flatMap _ = _
    rw [List.flatMap_map]
    congr 1
    funext p
    unfold Spec.typeErrors
    dsimp only
    have e3 : Spec.interfaceErrors (Spec.withoutInterfaces s) { p.2 with ifaces := [] } = [] := rfl
    rw [e3, ite_self, List.append_nil]
    unfold Spec.fieldErrors
    simp only [hin, hout]
  unfold Spec.schemaErrors
  rw [ht, rootErrs_without]
  show (_ ++ s.directives.flatMap _ ++ _).Perm (_ ++ (_ ++ s.directives.flatMap _ ++ _))
  refine List.Perm.trans ?_ List.perm_append_comm
  rw [List.append_assoc (Spec.rootTypeErrs s ++ _)]
  exact List.Perm.append_left _ (perm_flatMap_append _ _ _)

/-- **C54, when the comparisons end**: `ValidateSchema` returns; its errors are those of the same schema without `implements` clauses, and the errors about
interfaces: for each object type one for each implemented type that is no interface, one for each repetition of an interface, and one for each
field of an interface that is missing or not of a subtype.
Missing for the full property: schemas with a stuck comparison, on which `ValidateSchema` does not return (`C54_refuted`). -/
theorem C54_partial {s : Schema} (hs : Spec.WellFormed s) (hc : Spec.Complete s) (hst : Spec.Settled s) (run : RunOrders) (c : Ctx) :
    ∃ c', ValidatesTo run c s c' ∧ c'.errors.Perm (Spec.allInterfaceErrors s ++ (Spec.schemaErrors (Spec.withoutInterfaces s) ++ c.errors)) := by
  obtain ⟨c', h⟩ := (C53_exact hs run c).2 ⟨hc, hst⟩
  refine ⟨c', h, (C50_all_errors hs h).1.trans ?_⟩
  rw [← List.append_assoc]
  exact (schemaErrors_split s).append_right _

/-! ### Concrete schemas -/

/-- A field without arguments. -/
def plainField (n : Bytes) (t : Ty) : FieldDef := { name := n, desc := [], args := [], type := t, dirs := [] }

/-- `interface Node { id: ID }  type User implements Node { id: ID }  type Query implements Node & Node & Nope { node: Node }` with `scalar ID`. -/
def sampleSchema : Schema where
  queryType := some (.named b!"Query" false)
  mutationType := some (.named b!"Node" false)
  types := [
    (b!"ID", idType),
    (b!"Node", { name := b!"Node", kind := .interface, fields := [plainField b!"id" (.named b!"ID" false)] }),
    (b!"User", { name := b!"User", kind := .object, ifaces := [.named b!"Node" false], fields := [plainField b!"id" (.named b!"ID" true)] }),
    (b!"Query", { name := b!"Query", kind := .object, ifaces := [.named b!"Node" false, .named b!"Node" false, .named b!"Nope" false],
                  fields := [plainField b!"node" (.named b!"Int" false)] })]

theorem sample_wellFormed : Spec.WellFormed sampleSchema := ⟨by decide, by decide, rfl⟩

/-- The orders of the entries as they are; no item type is shared. -/
def plainRun : RunOrders := { dirs := .id, types := .id, impls := fun _ _ => .id, ptr := ⟨fun _ _ => false, fun _ _ h => by cases h⟩ }

/-- The hypothesis of `C50`, `C51_exact` and `C55_schema` holds of a schema with errors of several sorts. -/
example (d : Document) : ∃ c', ValidatesTo plainRun { doc := d, schema := sampleSchema } sampleSchema c' ∧ c'.errors =
    [newError b!"Type Query must only implement Interface types, it cannot implement Nope",
     newError b!"Type Query can only implement Node once.",
     newError b!"Interface field Node.id expected but Query does not provide it.",
     newError b!"The type of Query.node must be Output Type.",
     newError b!"Mutation root type must be Object type if provided."] := ⟨_, ⟨5, rfl⟩, rfl⟩

/-- The hypotheses of `C54_partial` hold of it, too. -/
example (d : Document) : Spec.Complete sampleSchema ∧ Spec.Settled sampleSchema :=
  (C53_exact sample_wellFormed plainRun { doc := d, schema := sampleSchema }).1 ⟨_, 5, rfl⟩

/-- `interface Node { peer: Node }  type Thing { peer: Thing }  type Query implements Node { peer: Thing }` -/
def hangSchema : Schema where
  queryType := some (.named b!"Query" false)
  types := [
    (b!"Node", { name := b!"Node", kind := .interface, fields := [plainField b!"peer" (.named b!"Node" false)] }),
    (b!"Thing", { name := b!"Thing", kind := .object, fields := [plainField b!"peer" (.named b!"Thing" false)] }),
    (b!"Query", { name := b!"Query", kind := .object, ifaces := [.named b!"Node" false], fields := [plainField b!"peer" (.named b!"Thing" false)] })]

theorem hang_wellFormed : Spec.WellFormed hangSchema := ⟨by decide, by decide, rfl⟩

theorem hang_possible : ¬ Spec.PossibleType hangSchema b!"Node" b!"Thing" := by
  rintro ⟨d, t, hd, ht, _, h⟩
  cases hd
  cases ht
  rcases h with ⟨h, _⟩ | ⟨_, i, hi, _⟩
  · cases h
  · cases hi

theorem hang_stuck : Spec.StuckSub hangSchema (.named b!"Thing" false) (.named b!"Node" false) :=
  .named (fun h => h) (by decide) ⟨_, rfl, rfl⟩ (.inl ⟨_, rfl, rfl⟩) hang_possible

theorem hang_complete : Spec.Complete hangSchema := by
  intro p hp _ f hf
  simp only [hangSchema, List.mem_cons, List.not_mem_nil, or_false] at hp
  rcases hp with rfl | rfl | rfl <;> simp only [List.mem_singleton] at hf <;> subst hf <;> exact ⟨rfl, fun a ha => by cases ha⟩

/-- **C53 as stated fails** for `ValidateSchema`: on this schema it runs for ever, whatever the orders of iteration. -/
theorem C53_refuted (run : RunOrders) (c : Ctx) (fuel : Nat) : validateSchema fuel run c hangSchema = .oof := by
  refine C53_hangs hang_wellFormed hang_complete (fun h => ?_) run c fuel
  exact h (b!"Query", _) (by simp [hangSchema]; rfl) rfl (.named b!"Node" false) (by simp) _ rfl rfl _ (by simp; rfl) _ rfl hang_stuck

/-- **C54 as stated fails**: `Query.peer` is not of a subtype of `Node.peer`, and this is not reported. -/
theorem C54_refuted (run : RunOrders) (c : Ctx) :
    newError b!"Interface field Node.peer expects type Node but Query.peer is type Thing" ∈ Spec.allInterfaceErrors hangSchema ∧
    ¬ ∃ c', ValidatesTo run c hangSchema c' := by
  constructor
  · refine List.mem_flatMap.2 ⟨(b!"Query", _), by simp [hangSchema]; rfl, ?_⟩
    rw [if_pos rfl]
    refine List.mem_append.2 (.inr (List.mem_flatMap.2 ⟨b!"Node", ?_, ?_⟩))
    · rw [List.mem_eraseDups]
      refine List.mem_filter.2 ⟨by simp [Spec.tyName], ?_⟩
      exact decide_eq_true ⟨_, rfl, rfl⟩
    · show _ ∈ Spec.implementationErrors hangSchema _ { name := b!"Node", kind := .interface, fields := [plainField b!"peer" (.named b!"Node" false)] }
      refine List.mem_flatMap.2 ⟨_, by simp; rfl, ?_⟩
      show _ ∈ (if Spec.Subtype hangSchema (.named b!"Thing" false) (.named b!"Node" false) then [] else _)
      rw [if_neg hang_stuck.not_subtype]
      simp
      rfl
  · rintro ⟨c', k, h⟩
    rw [C53_refuted] at h
    cases h

/-! ### C52 -/

/-- `IsTypeSubTypeOf` returns `r`. -/
def SubTypeOf (ptr : Pointers) (ord : Order TypeDef) (s : Schema) (a b : Ty) (r : Bool) : Prop := ∃ fuel, isTypeSubTypeOf ptr ord s fuel a b = .ret r

/-- **C52, exactly**: for types that are complete, `IsTypeSubTypeOf` returns unless the comparison is stuck, and then whether the first is a subtype. -/
theorem C52_exact (ptr : Pointers) (ord : Order TypeDef) {s : Schema} (hs : Spec.WellFormed s) (a b : Ty) (ha : (Spec.innerName a).isSome)
    (hb : (Spec.innerName b).isSome) : ((∃ r, SubTypeOf ptr ord s a b r) ↔ ¬ Spec.StuckSub s a b) ∧
    ∀ r, SubTypeOf ptr ord s a b r → (r = true ↔ Spec.Subtype s a b) := by
  obtain ⟨h1, h2⟩ := sub_spec ptr ord hs b a ha hb
  have key : ∀ r, SubTypeOf ptr ord s a b r → ¬ Spec.StuckSub s a b := by
    rintro r ⟨k, h⟩ hst
    rw [h1 hst] at h
    cases h
  refine ⟨⟨fun ⟨r, h⟩ => key r h, fun h => ?_⟩, ?_⟩
  · obtain ⟨N, hN⟩ := h2 h
    exact ⟨_, N, hN N (Nat.le_refl _)⟩
  · intro r hr
    obtain ⟨N, hN⟩ := h2 (key r hr)
    obtain ⟨k, hk⟩ := hr
    have := Out.le_ret (sub_mono ptr ord s k (max k N) a b (Nat.le_max_left k N)) hk
    rw [hN _ (Nat.le_max_right k N)] at this
    rw [← Out.ret.inj this, decide_eq_true_iff]

/-- **C52, when it returns**.  Missing for the full property: the stuck comparisons, on which it does not return (`C52_refuted`). -/
theorem C52_partial (ptr : Pointers) (ord : Order TypeDef) {s : Schema} (hs : Spec.WellFormed s) (a b : Ty) (ha : (Spec.innerName a).isSome)
    (hb : (Spec.innerName b).isSome) (h : ¬ Spec.StuckSub s a b) : (SubTypeOf ptr ord s a b true ↔ Spec.Subtype s a b) ∧
    (SubTypeOf ptr ord s a b false ↔ ¬ Spec.Subtype s a b) := by
  obtain ⟨h1, h2⟩ := C52_exact ptr ord hs a b ha hb
  obtain ⟨r, hr⟩ := h1.2 h
  have hv := h2 r hr
  refine ⟨⟨fun h => (h2 _ h).1 rfl, fun hs => ?_⟩, ⟨fun h hs => Bool.false_ne_true ((h2 _ h).2 hs), fun hs => ?_⟩⟩
  · rw [hv.2 hs] at hr; exact hr
  · cases r with
    | true => exact absurd (hv.1 rfl) hs
    | false => exact hr

/-- A type is a subtype of itself, also a list type without its item type, in every schema. -/
theorem C52_reflexive (ptr : Pointers) (ord : Order TypeDef) (s : Schema) (t : Ty) : SubTypeOf ptr ord s t t true := ⟨_, sub_refl ptr ord t _ (Nat.le_refl _)⟩

/-- Neither the sharing of item types nor the order of iteration matters. -/
theorem C52_pointers (ptr ptr' : Pointers) (ord ord' : Order TypeDef) {s : Schema} (hs : Spec.WellFormed s) (a b : Ty) (ha : (Spec.innerName a).isSome)
    (hb : (Spec.innerName b).isSome) (r : Bool) : SubTypeOf ptr ord s a b r ↔ SubTypeOf ptr' ord' s a b r := by
  have key : ∀ (ptr ptr' : Pointers) (ord ord' : Order TypeDef), SubTypeOf ptr ord s a b r → SubTypeOf ptr' ord' s a b r := by
    intro ptr ptr' ord ord' h
    obtain ⟨h1, h2⟩ := C52_exact ptr ord hs a b ha hb
    obtain ⟨g1, g2⟩ := C52_exact ptr' ord' hs a b ha hb
    obtain ⟨r', hr'⟩ := g1.2 (h1.1 ⟨r, h⟩)
    have : r = r' := by rw [Bool.eq_iff_iff, h2 r h, g2 r' hr']
    rw [this]; exact hr'
  exact ⟨key _ _ _ _, key _ _ _ _⟩

/-- The specification is a preorder: what is a subtype of a subtype is a subtype. -/
theorem C52_transitive {s : Schema} {a b : Ty} (h : Spec.Subtype s a b) : ∀ {c : Ty}, Spec.Subtype s b c → Spec.Subtype s a c := by
  induction h with
  | refl => exact fun h => h
  | @same n x y h =>
    intro c hc
    cases hc with
    | refl => exact .same n h
    | same _ h' => exact .same n fun z => h (h' z)
    | possible h' hp => exact .possible (fun z => h (h' z)) hp
  | @possible n m x y h hp =>
    intro c hc
    cases hc with
    | refl => exact .possible h hp
    | same _ h' => exact .possible (fun z => h (h' z)) hp
    | possible h' hp' =>
      obtain ⟨d, _, hd, _, _, hk⟩ := hp
      obtain ⟨_, t', _, ht', ho, _⟩ := hp'
      rw [hd] at ht'
      cases ht'
      rcases hk with ⟨hk, _⟩ | ⟨hk, _⟩ <;> rw [ho] at hk <;> cases hk
  | @list t u x y h _ ih =>
    intro c hc
    cases hc with
    | refl => exact .list h (ih (.refl _))
    | list h' ht' => exact .list (fun z => h (h' z)) (ih ht')

/-- **C52 as stated fails**: `Thing` is not a subtype of `Node`, and `IsTypeSubTypeOf` runs for ever instead of saying so. -/
theorem C52_refuted (ptr : Pointers) (ord : Order TypeDef) : ¬ Spec.Subtype hangSchema (.named b!"Thing" false) (.named b!"Node" false) ∧
    ∀ fuel, isTypeSubTypeOf ptr ord hangSchema fuel (.named b!"Thing" false) (.named b!"Node" false) = .oof :=
  ⟨hang_stuck.not_subtype, fun fuel => (sub_spec ptr ord hang_wellFormed _ _ rfl rfl).1 hang_stuck fuel⟩

/-- Concrete cases: `[User!]!` is a subtype of `[Node]`, `[Node]` not of `[Node!]`. -/
example : SubTypeOf plainRun.ptr .id sampleSchema (.list (.named b!"User" true) true) (.list (.named b!"Node" false) false) true := ⟨9, rfl⟩

example (ptr : Pointers) (ord : Order TypeDef) :
    SubTypeOf ptr ord sampleSchema (.list (.named b!"User" true) true) (.list (.named b!"Node" false) false) true :=
  (C52_pointers plainRun.ptr ptr .id ord sample_wellFormed _ _ rfl rfl true).1 ⟨9, rfl⟩

example (ptr : Pointers) (ord : Order TypeDef) : SubTypeOf ptr ord sampleSchema (.named b!"Node" false) (.named b!"Node" true) false := ⟨1, rfl⟩

end GQL
