/-
The calls that `Fdump` makes do not depend on the writer, and put together they are the text that `Sdump` returns (Model/Dumper).
-/
import Verif.Model.Fdump

namespace GQL.Fd

open GQL.Spec (Writer buffer)

/-- The program calls the writer with the same strings whatever the writer is and does; these are the text, and it panics if that is a panic. -/
def Chunked (p : ∀ (σ : Type), Writer σ → Prog σ) (o : Out Bytes) : Prop :=
  ∃ cs b, (∀ σ w s, p σ w s = (b, Writer.after w s cs)) ∧ o = (if b = true then Out.panic else Out.ret cs.flatten)

theorem after_append {σ : Type} (w : Writer σ) : ∀ (xs ys : List Bytes) (s : σ), w.after s (xs ++ ys) = w.after (w.after s xs) ys := by
  intro xs
  induction xs with
  | nil => intro ys s; rfl
  | cons x xs ih => intro ys s; exact ih ys _

theorem ch_put (x : Bytes) : Chunked (fun _ w => put w x) (.ret x) :=
  ⟨[x], false, fun _ _ _ => rfl, by simp⟩

theorem ch_skip : Chunked (fun _ _ => skip) (.ret []) := ⟨[], false, fun _ _ _ => rfl, rfl⟩

theorem ch_crash : Chunked (fun _ _ => crash) .panic := ⟨[], true, fun _ _ _ => rfl, rfl⟩

theorem ch_seq {p q : ∀ (σ : Type), Writer σ → Prog σ} {a b : Out Bytes} (hp : Chunked p a) (hq : Chunked q b) :
    Chunked (fun σ w => p σ w ▹ q σ w) (a +++ b) := by
  obtain ⟨cs, x, h1, rfl⟩ := hp
  obtain ⟨ds, y, h2, rfl⟩ := hq
  cases x with
  | true => exact ⟨cs, true, fun σ w s => by show seq _ _ s = _; unfold seq; rw [h1], rfl⟩
  | false =>
    refine ⟨cs ++ ds, y, fun σ w s => ?_, ?_⟩
    · show seq _ _ s = _
      unfold seq
      rw [h1]
      show q σ w _ = _
      rw [h2, after_append]
    · cases y with
      | true => rfl
      | false => show Out.ret _ = Out.ret _; rw [List.flatten_append]

theorem ch_ite {c : Prop} [Decidable c] {p q : ∀ (σ : Type), Writer σ → Prog σ} {a b : Out Bytes} (hp : Chunked p a) (hq : Chunked q b) :
    Chunked (fun σ w => if c then p σ w else q σ w) (if c then a else b) := by
  by_cases h : c
  · simpa only [if_pos h] using hp
  · simpa only [if_neg h] using hq

theorem ch_forEachFrom {α : Type} {p : ∀ (σ : Type), Writer σ → α → Nat → Prog σ} {f : α → Nat → Out Bytes}
    (h : ∀ a i, Chunked (fun σ w => p σ w a i) (f a i)) : ∀ (l : List α) (i : Nat),
    Chunked (fun σ w => forEachFrom (p σ w) i l) (GQL.forEachFrom f i l) := by
  intro l
  induction l with
  | nil => intro i; exact ch_skip
  | cons a l ih => intro i; exact ch_seq (h a i) (ih (i + 1))

theorem ch_forEach {α : Type} {p : ∀ (σ : Type), Writer σ → α → Nat → Prog σ} {f : α → Nat → Out Bytes} {l : List α}
    (h : ∀ a i, Chunked (fun σ w => p σ w a i) (f a i)) : Chunked (fun σ w => forEach (p σ w) l) (GQL.forEach f l) :=
  ch_forEachFrom h l 0

/-- One step: through the program text. -/
syntax "chunk1" : tactic
macro_rules | `(tactic| chunk1) => `(tactic| with_reducible apply ch_put)
macro_rules | `(tactic| chunk1) => `(tactic| with_reducible exact ch_skip)
macro_rules | `(tactic| chunk1) => `(tactic| with_reducible exact ch_crash)
macro_rules | `(tactic| chunk1) => `(tactic| with_reducible apply ch_ite)
macro_rules | `(tactic| chunk1) => `(tactic| with_reducible apply ch_seq)
macro_rules | `(tactic| chunk1) => `(tactic| (with_reducible apply ch_forEach; intro _ _))

macro "chunk" : tactic => `(tactic| repeat' (first | assumption | chunk1))

variable (fmtG : Nat → Bytes)

theorem seqOut_ret (a b : Bytes) : seqOut (.ret a) (.ret b) = .ret (a ++ b) := rfl

theorem ch_string (depth : Nat) (s : Bytes) : Chunked (fun _ w => dumpString w depth s) (write (GQL.dumpString depth s)) := by
  unfold dumpString GQL.dumpString
  by_cases h : s.contains 10 = true
  · simp only [h, if_true]
    simp only [List.append_assoc]
    simp only [write, ← seqOut_ret]
    chunk
  · simp only [h, if_false, Bool.false_eq_true]
    simp only [List.append_assoc]
    simp only [write, ← seqOut_ret]
    chunk
macro_rules | `(tactic| chunk1) => `(tactic| with_reducible apply ch_string)

mutual
theorem ch_value (depth : Nat) : ∀ v : Value, Chunked (fun _ w => dumpValue fmtG w depth v) (GQL.dumpValue fmtG depth v)
  | .var n => by simp only [dumpValue, GQL.dumpValue]; chunk
  | .int i => by simp only [dumpValue, GQL.dumpValue]; chunk
  | .float f => by simp only [dumpValue, GQL.dumpValue]; chunk
  | .str s => by simp only [dumpValue, GQL.dumpValue]; chunk
  | .bool b => by simp only [dumpValue, GQL.dumpValue]; chunk
  | .null => by simp only [dumpValue, GQL.dumpValue]; chunk
  | .enum n => by simp only [dumpValue, GQL.dumpValue]; chunk
  | .list vs => by
    have := ch_values depth vs.length vs 0
    simp only [dumpValue, GQL.dumpValue]; chunk
  | .obj fs => by
    have := ch_fields depth fs.length fs 0
    simp only [dumpValue, GQL.dumpValue]; chunk
theorem ch_values (depth vals : Nat) : ∀ (vs : List Value) (i : Nat),
    Chunked (fun _ w => dumpValues fmtG w depth vals i vs) (GQL.dumpValues fmtG depth vals i vs)
  | [], i => by simp only [dumpValues, GQL.dumpValues]; chunk
  | v :: vs, i => by
    have h1 := ch_value depth v
    have h2 := ch_values depth vals vs (i + 1)
    simp only [dumpValues, GQL.dumpValues]; chunk
theorem ch_fields (depth vals : Nat) : ∀ (fs : List (Bytes × Value)) (i : Nat),
    Chunked (fun _ w => dumpObjFields fmtG w depth vals i fs) (GQL.dumpObjFields fmtG depth vals i fs)
  | [], i => by simp only [dumpObjFields, GQL.dumpObjFields]; chunk
  | (n, v) :: fs, i => by
    have h1 := ch_value depth v
    have h2 := ch_fields depth vals fs (i + 1)
    simp only [dumpObjFields, GQL.dumpObjFields]; chunk
end
macro_rules | `(tactic| chunk1) => `(tactic| with_reducible apply ch_value)

theorem ch_argument (depth : Nat) (a : Argument) : Chunked (fun _ w => dumpArgument fmtG w depth a) (GQL.dumpArgument fmtG depth a) := by
  unfold dumpArgument GQL.dumpArgument; chunk
macro_rules | `(tactic| chunk1) => `(tactic| with_reducible apply ch_argument)

theorem ch_arguments (depth : Nat) (a : List Argument) : Chunked (fun _ w => dumpArguments fmtG w depth a) (GQL.dumpArguments fmtG depth a) := by
  unfold dumpArguments GQL.dumpArguments; chunk
macro_rules | `(tactic| chunk1) => `(tactic| with_reducible apply ch_arguments)

theorem ch_directive (depth : Nat) (d : Directive) : Chunked (fun _ w => dumpDirective fmtG w depth d) (GQL.dumpDirective fmtG depth d) := by
  unfold dumpDirective GQL.dumpDirective; chunk
macro_rules | `(tactic| chunk1) => `(tactic| with_reducible apply ch_directive)

theorem ch_directives (depth : Nat) (d : List Directive) : Chunked (fun _ w => dumpDirectives fmtG w depth d) (GQL.dumpDirectives fmtG depth d) := by
  unfold dumpDirectives GQL.dumpDirectives; chunk
macro_rules | `(tactic| chunk1) => `(tactic| with_reducible apply ch_directives)

theorem ch_optDirectives (depth : Nat) (d : List Directive) :
    Chunked (fun _ w => dumpOptDirectives fmtG w depth d) (GQL.dumpOptDirectives fmtG depth d) := by
  unfold dumpOptDirectives GQL.dumpOptDirectives; chunk
macro_rules | `(tactic| chunk1) => `(tactic| with_reducible apply ch_optDirectives)

mutual
theorem ch_selection (depth : Nat) : ∀ s : Selection, Chunked (fun _ w => dumpSelection fmtG w depth s) (GQL.dumpSelection fmtG depth s)
  | .field alias name args dirs sels => by
    have := ch_selectionList (depth + 1) sels
    simp only [dumpSelection, GQL.dumpSelection]; chunk
  | .spread name dirs => by simp only [dumpSelection, GQL.dumpSelection]; chunk
  | .inline cond dirs sels => by
    have := ch_selectionList (depth + 1) sels
    cases cond with
    | none => simp only [dumpSelection, GQL.dumpSelection]; chunk
    | some t => simp only [dumpSelection, GQL.dumpSelection]; chunk
theorem ch_selectionList (depth : Nat) : ∀ ss : List Selection,
    Chunked (fun _ w => dumpSelectionList fmtG w depth ss) (GQL.dumpSelectionList fmtG depth ss)
  | [] => by simp only [dumpSelectionList, GQL.dumpSelectionList]; chunk
  | s :: ss => by
    have h1 := ch_selection depth s
    have h2 := ch_selectionList depth ss
    simp only [dumpSelectionList, GQL.dumpSelectionList]; chunk
end
macro_rules | `(tactic| chunk1) => `(tactic| with_reducible apply ch_selectionList)

theorem ch_selections (depth : Nat) (ss : List Selection) : Chunked (fun _ w => dumpSelections fmtG w depth ss) (GQL.dumpSelections fmtG depth ss) := by
  unfold dumpSelections GQL.dumpSelections; chunk
macro_rules | `(tactic| chunk1) => `(tactic| with_reducible apply ch_selections)

theorem ch_type : ∀ t : Ty, Chunked (fun _ w => dumpType w t) (GQL.dumpType t)
  | .named n b => by simp only [dumpType, GQL.dumpType]; chunk
  | .list t b => by
    have := ch_type t
    simp only [dumpType, GQL.dumpType]; chunk
  | .listNil b => by simp only [dumpType, GQL.dumpType]; chunk
macro_rules | `(tactic| chunk1) => `(tactic| with_reducible apply ch_type)

theorem ch_variable (depth : Nat) (v : VarDef) :
    Chunked (fun _ w => dumpVariableDefinition fmtG w depth v) (GQL.dumpVariableDefinition fmtG depth v) := by
  obtain ⟨n, t, d⟩ := v
  unfold dumpVariableDefinition GQL.dumpVariableDefinition
  cases d <;> dsimp only <;> chunk
macro_rules | `(tactic| chunk1) => `(tactic| with_reducible apply ch_variable)

theorem ch_variables (depth : Nat) (v : List VarDef) :
    Chunked (fun _ w => dumpVariableDefinitions fmtG w depth v) (GQL.dumpVariableDefinitions fmtG depth v) := by
  unfold dumpVariableDefinitions GQL.dumpVariableDefinitions; chunk
macro_rules | `(tactic| chunk1) => `(tactic| with_reducible apply ch_variables)

theorem ch_operation (defs : Nat) (o : OpDef) :
    Chunked (fun _ w => dumpOperationDefinition fmtG w defs o) (GQL.dumpOperationDefinition fmtG defs o) := by
  obtain ⟨k, n, v, d, s⟩ := o
  unfold dumpOperationDefinition GQL.dumpOperationDefinition
  cases k <;> dsimp only <;> chunk
macro_rules | `(tactic| chunk1) => `(tactic| with_reducible apply ch_operation)

theorem ch_fragment (f : FragDef) : Chunked (fun _ w => dumpFragmentDefinition fmtG w f) (GQL.dumpFragmentDefinition fmtG f) := by
  unfold dumpFragmentDefinition GQL.dumpFragmentDefinition; chunk
macro_rules | `(tactic| chunk1) => `(tactic| with_reducible apply ch_fragment)

theorem ch_opType (o : OpTypeDef) : Chunked (fun _ w => dumpOperationTypeDefinition w o) (GQL.dumpOperationTypeDefinition o) := by
  unfold dumpOperationTypeDefinition GQL.dumpOperationTypeDefinition; chunk
macro_rules | `(tactic| chunk1) => `(tactic| with_reducible apply ch_opType)

theorem ch_opTypes (o : List OpTypeDef) : Chunked (fun _ w => dumpOpTypes w o) (GQL.dumpOpTypes o) := by
  unfold dumpOpTypes GQL.dumpOpTypes; chunk
macro_rules | `(tactic| chunk1) => `(tactic| with_reducible apply ch_opTypes)

theorem ch_schema (s : SchemaDef) : Chunked (fun _ w => dumpSchemaDefinition fmtG w s) (GQL.dumpSchemaDefinition fmtG s) := by
  unfold dumpSchemaDefinition GQL.dumpSchemaDefinition; chunk
macro_rules | `(tactic| chunk1) => `(tactic| with_reducible apply ch_schema)

theorem ch_schemaExt (s : SchemaDef) : Chunked (fun _ w => dumpSchemaExtension fmtG w s) (GQL.dumpSchemaExtension fmtG s) := by
  unfold dumpSchemaExtension GQL.dumpSchemaExtension; chunk
macro_rules | `(tactic| chunk1) => `(tactic| with_reducible apply ch_schemaExt)

theorem ch_description (s : Bytes) : Chunked (fun _ w => dumpDescription w s) (GQL.dumpDescription s) := by
  unfold dumpDescription GQL.dumpDescription; chunk
macro_rules | `(tactic| chunk1) => `(tactic| with_reducible apply ch_description)

theorem ch_input (v : InputVal) : Chunked (fun _ w => dumpInputValueDefinition fmtG w v) (GQL.dumpInputValueDefinition fmtG v) := by
  unfold dumpInputValueDefinition GQL.dumpInputValueDefinition
  cases v.default <;> dsimp only <;> chunk
macro_rules | `(tactic| chunk1) => `(tactic| with_reducible apply ch_input)

theorem ch_argsDef (v : List InputVal) : Chunked (fun _ w => dumpArgumentsDefinition fmtG w v) (GQL.dumpArgumentsDefinition fmtG v) := by
  unfold dumpArgumentsDefinition GQL.dumpArgumentsDefinition; chunk
macro_rules | `(tactic| chunk1) => `(tactic| with_reducible apply ch_argsDef)

theorem ch_optArgsDef (v : List InputVal) : Chunked (fun _ w => dumpOptArgsDef fmtG w v) (GQL.dumpOptArgsDef fmtG v) := by
  unfold dumpOptArgsDef GQL.dumpOptArgsDef; chunk
macro_rules | `(tactic| chunk1) => `(tactic| with_reducible apply ch_optArgsDef)

theorem ch_field (f : FieldDef) : Chunked (fun _ w => dumpFieldDefinition fmtG w f) (GQL.dumpFieldDefinition fmtG f) := by
  unfold dumpFieldDefinition GQL.dumpFieldDefinition; chunk
macro_rules | `(tactic| chunk1) => `(tactic| with_reducible apply ch_field)

theorem ch_fieldsDef (f : List FieldDef) : Chunked (fun _ w => dumpFieldsDefinition fmtG w f) (GQL.dumpFieldsDefinition fmtG f) := by
  unfold dumpFieldsDefinition GQL.dumpFieldsDefinition; chunk
macro_rules | `(tactic| chunk1) => `(tactic| with_reducible apply ch_fieldsDef)

theorem ch_typeNames (sep : Bytes) (t : List Ty) : Chunked (fun _ w => dumpTypeNames w sep t) (GQL.dumpTypeNames sep t) := by
  unfold dumpTypeNames GQL.dumpTypeNames; chunk
macro_rules | `(tactic| chunk1) => `(tactic| with_reducible apply ch_typeNames)

theorem ch_implements (t : List Ty) (b : Bool) : Chunked (fun _ w => dumpImplementsInterfaces w t b) (GQL.dumpImplementsInterfaces t b) := by
  unfold dumpImplementsInterfaces GQL.dumpImplementsInterfaces; dsimp only; chunk
macro_rules | `(tactic| chunk1) => `(tactic| with_reducible apply ch_implements)

theorem ch_members (t : List Ty) : Chunked (fun _ w => dumpUnionMemberTypes w t) (GQL.dumpUnionMemberTypes t) := by
  unfold dumpUnionMemberTypes GQL.dumpUnionMemberTypes; dsimp only; chunk
macro_rules | `(tactic| chunk1) => `(tactic| with_reducible apply ch_members)

theorem ch_enumValue (v : EnumVal) : Chunked (fun _ w => dumpEnumValueDefinition fmtG w v) (GQL.dumpEnumValueDefinition fmtG v) := by
  unfold dumpEnumValueDefinition GQL.dumpEnumValueDefinition; chunk
macro_rules | `(tactic| chunk1) => `(tactic| with_reducible apply ch_enumValue)

theorem ch_enumValues (v : List EnumVal) : Chunked (fun _ w => dumpEnumValuesDefinition fmtG w v) (GQL.dumpEnumValuesDefinition fmtG v) := by
  unfold dumpEnumValuesDefinition GQL.dumpEnumValuesDefinition; chunk
macro_rules | `(tactic| chunk1) => `(tactic| with_reducible apply ch_enumValues)

theorem ch_inputFields (v : List InputVal) : Chunked (fun _ w => dumpInputFieldsDefinition fmtG w v) (GQL.dumpInputFieldsDefinition fmtG v) := by
  unfold dumpInputFieldsDefinition GQL.dumpInputFieldsDefinition; chunk
macro_rules | `(tactic| chunk1) => `(tactic| with_reducible apply ch_inputFields)

theorem ch_opt {α : Type} {p : ∀ (σ : Type), Writer σ → List α → Prog σ} {f : List α → Out Bytes} {l : List α}
    (h : Chunked (fun σ w => p σ w l) (f l)) : Chunked (fun σ w => dumpOpt w (p σ w) l) (GQL.dumpOpt f l) := by
  unfold dumpOpt GQL.dumpOpt; chunk
macro_rules | `(tactic| chunk1) => `(tactic| with_reducible apply ch_opt)

theorem seqOut_assoc (a b c : Out Bytes) : seqOut (seqOut a b) c = seqOut a (seqOut b c) := by
  cases a <;> cases b <;> cases c <;> simp [seqOut, Out.bind]

theorem write_write (a b : Bytes) (o : Out Bytes) : (Out.ret a +++ (Out.ret b +++ o)) = (Out.ret (a ++ b) +++ o) := by
  rw [← seqOut_assoc, seqOut_ret]

theorem ch_body (pre : Bytes) (t : TypeDef) : Chunked (fun _ w => dumpTypeBody fmtG w pre t) (.ret pre +++ GQL.dumpTypeBody fmtG t) := by
  unfold dumpTypeBody GQL.dumpTypeBody
  cases t.kind <;> dsimp only [write] <;> rw [write_write] <;> chunk

theorem nil_seqOut (o : Out Bytes) : (Out.ret [] +++ o) = o := by cases o <;> rfl

theorem ch_typeDef (t : TypeDef) : Chunked (fun _ w => dumpTypeDefinition fmtG w t) (GQL.dumpTypeDefinition fmtG t) := by
  have h := ch_body fmtG [] t
  rw [nil_seqOut] at h
  unfold dumpTypeDefinition GQL.dumpTypeDefinition; chunk
macro_rules | `(tactic| chunk1) => `(tactic| with_reducible apply ch_typeDef)

theorem ch_typeExt (t : TypeDef) : Chunked (fun _ w => dumpTypeExtension fmtG w t) (GQL.dumpTypeExtension fmtG t) :=
  ch_body fmtG b!"extend " t
macro_rules | `(tactic| chunk1) => `(tactic| with_reducible apply ch_typeExt)

theorem ch_locations (n : Nat) : Chunked (fun _ w => dumpDirectiveLocations w n) (GQL.dumpDirectiveLocations n) := by
  unfold dumpDirectiveLocations GQL.dumpDirectiveLocations; dsimp only; chunk
macro_rules | `(tactic| chunk1) => `(tactic| with_reducible apply ch_locations)

theorem ch_dirDef (d : DirDef) : Chunked (fun _ w => dumpDirectiveDefinition fmtG w d) (GQL.dumpDirectiveDefinition fmtG d) := by
  unfold dumpDirectiveDefinition GQL.dumpDirectiveDefinition; chunk
macro_rules | `(tactic| chunk1) => `(tactic| with_reducible apply ch_dirDef)

theorem ch_definition (defs : Nat) (b : Body) : Chunked (fun _ w => dumpDefinition fmtG w defs b) (GQL.dumpDefinition fmtG defs b) := by
  unfold dumpDefinition GQL.dumpDefinition
  cases b <;> dsimp only <;> chunk
macro_rules | `(tactic| chunk1) => `(tactic| with_reducible apply ch_definition)

theorem ch_fdump (doc : Document) : Chunked (fun _ w => fdump fmtG w doc) (GQL.sdump fmtG doc) := by
  unfold fdump GQL.sdump dumpDefinitions GQL.dumpDefinitions; chunk

end GQL.Fd
