/-
Every function of the parser gives the same with any room on the stack beyond the nesting of what it reads.
-/
import Verif.Proofs.Depth

namespace GQL
open Spec

variable {pf : Bytes → Option Nat}

theorem if_true_of {a b : Prop} (h : if (true : Bool) = true then a else b) : a := by simpa using h
theorem if_false_of {a b : Prop} (h : if (false : Bool) = true then a else b) : b := by simpa using h

/-- Reading between brackets. -/
theorem t_opened {α : Type} {k : Nat} {l : Bytes} {p q p' q' : P α} {post : α → List Token → Prop} (hl : l = b!"{" ∨ l = b!"[")
    (h1 : ∀ j, k = j + 1 → T (Sh j) p p' post) (h2 : T (Sh k) q q' post) :
    T (Sh k) (do if ← skip1 .punctuator l then p else q) (do if ← skip1 .punctuator l then p' else q') post := by
  refine t_bind (t_open hl) fun b => ?_
  cases b with
  | true =>
    intro ts hp
    obtain ⟨j, e, hj⟩ := if_true_of hp
    exact h1 j e ts hj
  | false => exact t_weak h2 (fun ts h => if_false_of h) (fun _ _ h => h)

theorem t_ifB {α : Type} {b : Bool} {pre} {p q p' q' : P α} {post} (h1 : T pre p p' post) (h2 : T pre q q' post) :
    T pre (if b = true then p else q) (if b = true then p' else q') post := t_ite (fun _ => h1) (fun _ => h2)

theorem k_pure {α : Type} {k : Nat} {a : α} : K k (pure a : P α) (pure a) := t_pure fun _ h => h

theorem k_value {n m k : Nat} (hn : k < n) (hm : k < m) : K k (parseValue pf n) (parseValue pf m) := by
  induction n generalizing m k with
  | zero => omega
  | succ n ih =>
    obtain _ | m := m
    · omega
    unfold parseValue
    refine t_bind k_skip1 fun b => t_ifB (t_bind k_mustConsume0 fun t => k_pure) ?_
    refine t_bind k_consume0 fun o => ?_
    cases o with
    | some t => dsimp only; split; exact t_fail; exact k_pure
    | none =>
    refine t_bind k_consume0 fun o => ?_
    cases o with
    | some t => dsimp only; split; exact t_fail; exact k_pure
    | none =>
    refine t_bind k_consume0 fun o => ?_
    cases o with
    | some t => exact k_pure
    | none =>
    refine t_bind k_consumen fun o => ?_
    cases o with
    | some t => exact k_pure
    | none =>
    refine t_bind k_skip1 fun b => t_ifB k_pure ?_
    refine t_bind k_consume0 fun o => ?_
    cases o with
    | some t => exact k_pure
    | none =>
    refine t_opened (.inr rfl) (fun j e => ?_) ?_
    · subst e
      exact t_bind (t_untilDo (ih (by omega) (by omega)) t_close) fun vs => k_pure
    refine t_opened (.inl rfl) (fun j e => ?_) t_fail
    subst e
    exact t_bind (t_untilDo (t_bind k_mustConsume0 fun t => t_bind k_mustConsume1 fun _ =>
      t_bind (ih (by omega) (by omega)) fun v => k_pure) t_close) fun vs => k_pure

theorem k_default {n m k : Nat} (hn : k < n) (hm : k < m) : K k (parseDefaultValue pf n) (parseDefaultValue pf m) := by
  unfold parseDefaultValue
  exact t_bind k_skip1 fun b => t_ifB (t_bind (k_value hn hm) fun v => k_pure) k_pure

theorem k_arguments {n m k : Nat} (hn : k < n) (hm : k < m) : K k (parseArguments pf n) (parseArguments pf m) := by
  unfold parseArguments
  exact t_bind k_skip1 fun b => t_ifB (t_untilDo (t_bind k_mustConsume0 fun t => t_bind k_mustConsume1 fun _ =>
    t_bind (k_value hn hm) fun v => k_pure) (brk_same k_skip1)) k_pure

theorem k_directives {n m k : Nat} {loc} (hn : k < n) (hm : k < m) : K k (parseDirectives pf n loc) (parseDirectives pf m loc) := by
  unfold parseDirectives
  exact t_untilDo (t_bind k_mustConsume1 fun _ => t_bind k_mustConsume0 fun _ => t_bind (k_arguments hn hm) fun _ => k_pure)
    (brk_same (t_notP (post := fun _ => Sh k) t_peek1))

/-- Where errors leave off. -/
def F {α : Type} (pre : List Token → Prop) (p : P α) (post : List Token → Prop) : Prop :=
  ∀ ts, pre ts → ∀ e r, p ts = .err e r → post r

theorem f_bind {α β : Type} {pre} {p : P α} {mid post} {f : α → P β} (h : T pre p p mid) (h1 : F pre p post) (hf : ∀ a, F (mid a) (f a) post) :
    F pre (p >>= f) post := by
  intro ts hp er r
  show P.bind p f ts = _ → _
  unfold P.bind
  cases ep : p ts with
  | ok a r' => exact fun e => hf a r' ((h ts hp).2 a r' ep) er r e
  | err er' r' => intro e; cases e; exact h1 ts hp _ _ ep
  | panic => intro e; cases e
  | oof => intro e; cases e

theorem f_pure {α : Type} {pre post} {a : α} : F pre (pure a : P α) post := fun _ _ _ _ h => by cases h

theorem f_skip1 {pre post : List Token → Prop} {k l} : F pre (skip1 k l) post := by
  intro ts _ e r h
  have h' : (if (hd ts).kind ≠ k ∨ (hd ts).lit ≠ l then (pure false : P Bool) else (do advance; return true)) ts = .err e r := h
  split at h' <;> cases h'

theorem f_must0 {pre : List Token → Prop} {k} : F pre (mustConsume0 k) pre := by
  intro ts hp er r e
  have e' : (if (hd ts).kind ≠ k then (fail (.unexpected (hd ts) [expected k []]) : P Token) else (do advance; return hd ts)) ts = .err er r := e
  split at e'
  · have := (Res.err.inj e').2; subst this; exact hp
  · cases e'

theorem f_must1 {pre : List Token → Prop} {k l} : F pre (mustConsume1 k l) pre := by
  intro ts hp er r e
  have e' : (if (hd ts).kind ≠ k ∨ (hd ts).lit ≠ l then (fail (.unexpected (hd ts) [expected k [l]]) : P Token) else (do advance; return hd ts)) ts = .err er r := e
  split at e'
  · have := (Res.err.inj e').2; subst this; exact hp
  · cases e'

theorem f_weak {α : Type} {pre pre' post post' : List Token → Prop} {p : P α} (h : F pre p post) (h1 : ∀ ts, pre' ts → pre ts)
    (h2 : ∀ ts, post ts → post' ts) : F pre' p post' := fun ts hp e r he => h2 _ (h ts (h1 ts hp) e r he)

/-- What follows the type of the items. -/
def closeType (t : Ty) : P Ty := do
  let _ ← mustConsume1 .punctuator b!"]"
  return Ty.list t (← skip1 .punctuator b!"!")

/-- The inside of a list type. -/
def innerType (p : P Ty) : P Ty := fun ts => match p ts with
  | .err _ r => .ok (.listNil false) r
  | .panic => .panic
  | .oof => .oof
  | .ok t r => closeType t r

theorem parseType_eq (n : Nat) : parseType (n+1) = (do
    if ← skip1 .punctuator b!"[" then innerType (parseType n)
    else do
      let t ← mustConsume0 .name
      return Ty.named t.lit (← skip1 .punctuator b!"!") : P Ty) := rfl

theorem t_closeType {k : Nat} {t : Ty} : T (Sh k) (closeType t) (closeType t) (fun _ => Sh (k+1)) ∧ F (Sh k) (closeType t) (Sh k) := by
  unfold closeType
  exact ⟨t_bind t_mustClose fun _ => t_bind k_skip1 fun _ => k_pure,
    f_bind (mid := fun _ _ => True) (fun _ _ => ⟨rfl, fun _ _ _ => trivial⟩) f_must1
      fun _ => f_bind (mid := fun _ _ => True) (fun _ _ => ⟨rfl, fun _ _ _ => trivial⟩) f_skip1 fun _ => f_pure⟩

theorem t_innerType {k : Nat} {p q : P Ty} (h : K k p q) (he : F (Sh k) p (Sh k)) :
    T (Sh k) (innerType p) (innerType q) (fun _ => Sh (k+1)) ∧ F (Sh k) (innerType p) (Sh k) := by
  refine ⟨fun ts hs => ?_, fun ts hs e r hr => ?_⟩
  · unfold innerType
    obtain ⟨h1, h2⟩ := h ts hs
    rw [← h1]
    cases ep : p ts with
    | ok t r => exact t_closeType.1 r (h2 t r ep)
    | err e r => exact ⟨rfl, fun a r' h => by cases h; exact (he ts hs e r ep).mono (by omega)⟩
    | panic => exact ⟨rfl, fun _ _ h => by cases h⟩
    | oof => exact ⟨rfl, fun _ _ h => by cases h⟩
  · unfold innerType at hr
    cases ep : p ts with
    | ok t r' => rw [ep] at hr; exact t_closeType.2 r' ((h ts hs).2 t r' ep) e r hr
    | err e r => rw [ep] at hr; cases hr
    | panic => rw [ep] at hr; cases hr
    | oof => rw [ep] at hr; cases hr

theorem type_both {n m k : Nat} (hn : k < n) (hm : k < m) : K k (parseType n) (parseType m) ∧ F (Sh k) (parseType n) (Sh k) := by
  induction n generalizing m k with
  | zero => omega
  | succ n ih =>
    obtain _ | m := m
    · omega
    rw [parseType_eq, parseType_eq]
    constructor
    · refine t_opened (.inr rfl) (fun j e => ?_) ?_
      · subst e
        have h := ih (k := j) (m := m) (by omega) (by omega)
        exact (t_innerType h.1 h.2).1
      · exact t_bind k_mustConsume0 fun _ => t_bind k_skip1 fun _ => k_pure
    · refine f_bind (t_open (.inr rfl)) f_skip1 fun b => ?_
      cases b with
      | true =>
        intro ts hp er r e
        obtain ⟨j, ej, hj⟩ := if_true_of hp
        subst ej
        have h := ih (k := j) (m := m) (by omega) (by omega)
        exact ((t_innerType h.1 h.2).2 ts hj er r e).mono (by omega)
      | false =>
        refine f_weak (pre := Sh k) ?_ (fun ts h => if_false_of h) (fun _ h => h)
        exact f_bind k_mustConsume0 f_must0 fun _ => f_bind k_skip1 f_skip1 fun _ => f_pure

theorem k_type {n m k : Nat} (hn : k < n) (hm : k < m) : K k (parseType n) (parseType m) := (type_both hn hm).1

theorem k_mustBeNamed {k : Nat} {t : Ty} : K k (mustBeNamed t) (mustBeNamed t) := by
  unfold mustBeNamed
  split
  · exact k_pure
  · exact t_unexpectedCur

theorem k_typeCondition {n m k : Nat} (hn : k < n) (hm : k < m) : K k (parseTypeCondition n) (parseTypeCondition m) := by
  unfold parseTypeCondition
  exact t_bind k_mustConsume1 fun _ => t_bind (k_type hn hm) fun _ => t_bind k_mustBeNamed fun _ => k_pure

theorem k_variableDefinitions {n m k : Nat} (hn : k < n) (hm : k < m) : K k (parseVariableDefinitions pf n) (parseVariableDefinitions pf m) := by
  unfold parseVariableDefinitions
  refine t_bind k_skip1 fun b => t_ifB ?_ k_pure
  exact t_bind (t_doWhile (t_bind k_mustConsume1 fun _ => t_bind k_mustConsume0 fun _ => t_bind k_mustConsume1 fun _ =>
    t_bind (k_type hn hm) fun _ => t_bind (k_default hn hm) fun _ => k_pure) (brk_same t_peek1)) fun _ =>
    t_bind k_mustConsume1 fun _ => k_pure

theorem k_spread {n m k : Nat} (hn : k < n) (hm : k < m) : K k (parseFragmentSpread pf n) (parseFragmentSpread pf m) := by
  unfold parseFragmentSpread
  exact t_bind k_mustConsume0 fun _ => t_bind (k_directives hn hm) fun _ => k_pure

theorem k_inline {n m k : Nat} {s s'} (hn : k < n) (hm : k < m) (hs : K k s s') :
    K k (parseInlineFragment pf n s) (parseInlineFragment pf m s') := by
  unfold parseInlineFragment
  exact t_bind (t_bind t_peek1 fun b => t_ifB (t_bind (k_typeCondition hn hm) fun _ => k_pure) k_pure) fun _ =>
    t_bind (k_directives hn hm) fun _ => t_bind hs fun _ => k_pure

theorem k_field {n m k : Nat} {s s'} (hn : k < n) (hm : k < m) (hs : K k s s') :
    K k (parseField pf n s) (parseField pf m s') := by
  unfold parseField
  refine t_bind k_mustConsume0 fun _ => t_bind (mid := fun _ => Sh k) (t_bind k_skip1 fun b => t_ifB (t_bind k_mustConsume0 fun _ => k_pure) k_pure) fun p => ?_
  cases p
  exact t_bind (k_arguments hn hm) fun _ => t_bind (k_directives hn hm) fun _ => t_bind hs fun _ => k_pure

theorem k_selectionSet {n m k : Nat} {o} (hn : k < n) (hm : k < m) : K k (parseSelectionSet pf n o) (parseSelectionSet pf m o) := by
  induction n generalizing m k o with
  | zero => omega
  | succ n ih =>
    obtain _ | m := m
    · omega
    unfold parseSelectionSet
    refine t_opened (.inl rfl) (fun j e => ?_) (t_ite (fun _ => k_pure) fun _ => t_unexpectedCur)
    subst e
    have h1 : j < n := by omega
    have h2 : j < m := by omega
    refine t_bind (t_doWhile (pre := Sh j) (post := Sh j) ?_ (brk_same (t_orP t_peek1 t_peek0))) fun _ => t_bind t_mustClose fun _ => k_pure
    refine t_bind k_skip1 fun b => t_ifB ?_ (k_field h1 h2 (ih h1 h2))
    exact t_bind t_cur fun t => t_ite (fun _ => k_spread h1 h2) fun _ => k_inline h1 h2 (ih h1 h2)

theorem k_operationType {k : Nat} : K k parseOperationType parseOperationType := by
  unfold parseOperationType
  exact t_bind k_mustConsumen fun _ => k_pure

theorem k_operationDefinition {n m k : Nat} {s} (hn : k < n) (hm : k < m) : K k (parseOperationDefinition pf n s) (parseOperationDefinition pf m s) := by
  unfold parseOperationDefinition
  refine t_ite (fun _ => t_bind (k_selectionSet hn hm) fun _ => k_pure) fun _ => ?_
  exact t_bind k_operationType fun _ => t_bind k_consume0 fun _ => t_bind (k_variableDefinitions hn hm) fun _ =>
    t_bind (k_directives hn hm) fun _ => t_bind (k_selectionSet hn hm) fun _ => k_pure

theorem k_fragmentDefinition {n m k : Nat} (hn : k < n) (hm : k < m) : K k (parseFragmentDefinition pf n) (parseFragmentDefinition pf m) := by
  unfold parseFragmentDefinition
  refine t_bind k_skip1 fun b => t_ifB ?_ t_crash
  refine t_bind k_consume0 fun o => ?_
  cases o with
  | none => exact t_crash
  | some t =>
    refine t_ite (fun _ => t_unexpectedCur) fun _ => ?_
    exact t_bind (k_typeCondition hn hm) fun _ => t_bind (k_directives hn hm) fun _ => t_bind (k_selectionSet hn hm) fun _ => k_pure

theorem k_operationTypeDefinition {n m k : Nat} (hn : k < n) (hm : k < m) : K k (parseOperationTypeDefinition n) (parseOperationTypeDefinition m) := by
  unfold parseOperationTypeDefinition
  refine t_bind k_operationType fun _ => t_bind k_skip1 fun b => t_ifB ?_ t_unexpectedCur
  exact t_bind (k_type hn hm) fun _ => t_bind k_mustBeNamed fun _ => k_pure

theorem k_operationTypeDefinitions {n m k : Nat} (hn : k < n) (hm : k < m) : K k (parseOperationTypeDefinitions n) (parseOperationTypeDefinitions m) := by
  unfold parseOperationTypeDefinitions
  refine t_opened (.inl rfl) (fun j e => ?_) t_unexpectedCur
  subst e
  exact t_bind (t_doWhile (k_operationTypeDefinition (by omega) (by omega)) (brk_same (t_orP t_peek1 t_peek0))) fun _ =>
    t_bind t_mustClose fun _ => k_pure

theorem k_schemaDefinition {n m k : Nat} (hn : k < n) (hm : k < m) : K k (parseSchemaDefinition pf n) (parseSchemaDefinition pf m) := by
  unfold parseSchemaDefinition
  refine t_bind k_skip1 fun b => t_ifB ?_ t_unexpectedCur
  exact t_bind (k_directives hn hm) fun _ => t_bind (k_operationTypeDefinitions hn hm) fun _ => k_pure

theorem k_schemaExtension {n m k : Nat} (hn : k < n) (hm : k < m) : K k (parseSchemaExtension pf n) (parseSchemaExtension pf m) := by
  unfold parseSchemaExtension
  refine t_bind k_skip1 fun b => t_ifB ?_ t_unexpectedCur
  exact t_bind (k_directives hn hm) fun _ => t_bind (t_bind t_peek1 fun b => t_ifB (k_operationTypeDefinitions hn hm) k_pure) fun _ =>
    t_ite (fun _ => t_unexpectedCur) fun _ => k_pure

theorem k_inputValueDefinition {n m k : Nat} {loc} (hn : k < n) (hm : k < m) :
    K k (parseInputValueDefinition pf n loc) (parseInputValueDefinition pf m loc) := by
  unfold parseInputValueDefinition
  refine t_bind k_consume0 fun _ => t_bind k_mustConsume0 fun _ => t_bind k_skip1 fun b => t_ifB ?_ t_unexpectedCur
  exact t_bind (k_type hn hm) fun _ => t_bind (k_default hn hm) fun _ => t_bind (k_directives hn hm) fun _ => k_pure

theorem k_argumentsDefinition {n m k : Nat} (hn : k < n) (hm : k < m) :
    K k (parseArgumentsDefinition pf n) (parseArgumentsDefinition pf m) := by
  unfold parseArgumentsDefinition
  refine t_bind k_skip1 fun b => t_ifB ?_ k_pure
  exact t_bind (t_doWhile (k_inputValueDefinition hn hm) (brk_same (t_orP t_peek1 t_peek0))) fun _ =>
    t_bind k_mustConsume1 fun _ => k_pure

theorem k_directiveLocations {k : Nat} : K k parseDirectiveLocations parseDirectiveLocations := by
  unfold parseDirectiveLocations
  exact t_bind k_skip1 fun _ => t_bind (t_doWhile k_mustConsumen (brk_same (t_notP (post := fun _ => Sh k) k_skip1))) fun _ => k_pure

theorem k_directiveDefinition {n m k : Nat} {d} (hn : k < n) (hm : k < m) :
    K k (parseDirectiveDefinition pf n d) (parseDirectiveDefinition pf m d) := by
  unfold parseDirectiveDefinition
  refine t_bind k_skip1 fun b => t_ifB ?_ t_crash
  refine t_bind k_skip1 fun b => t_ifB ?_ t_unexpectedCur
  refine t_bind k_mustConsume0 fun _ => t_bind (k_argumentsDefinition hn hm) fun _ => ?_
  refine t_bind k_skip1 fun b => t_ifB ?_ t_unexpectedCur
  exact t_bind k_directiveLocations fun _ => k_pure

theorem k_implements {n m k : Nat} (hn : k < n) (hm : k < m) : K k (parseImplementsInterfaces n) (parseImplementsInterfaces m) := by
  unfold parseImplementsInterfaces
  refine t_bind k_skip1 fun b => t_ifB ?_ k_pure
  exact t_bind k_skip1 fun _ => t_doWhile (k_type hn hm) (brk_same (t_notP (post := fun _ => Sh k) k_skip1))

theorem k_fields {n m k : Nat} (hn : k < n) (hm : k < m) : K k (parseFieldsDefinition pf n) (parseFieldsDefinition pf m) := by
  unfold parseFieldsDefinition
  refine t_opened (.inl rfl) (fun j e => ?_) k_pure
  subst e
  have h1 : j < n := by omega
  have h2 : j < m := by omega
  refine t_doWhile ?_ t_close
  refine t_bind k_consume0 fun _ => t_bind k_mustConsume0 fun _ => t_bind (k_argumentsDefinition h1 h2) fun _ => ?_
  refine t_bind k_skip1 fun b => t_ifB ?_ t_unexpectedCur
  exact t_bind (k_type h1 h2) fun _ => t_bind (k_directives h1 h2) fun _ => k_pure

theorem k_members {n m k : Nat} (hn : k < n) (hm : k < m) : K k (parseUnionMemberTypes n) (parseUnionMemberTypes m) := by
  unfold parseUnionMemberTypes
  refine t_bind k_skip1 fun b => t_ifB ?_ k_pure
  exact t_bind k_skip1 fun _ => t_doWhile (k_type hn hm) (brk_same (t_notP (post := fun _ => Sh k) k_skip1))

theorem k_enumValues {n m k : Nat} (hn : k < n) (hm : k < m) : K k (parseEnumValuesDefinition pf n) (parseEnumValuesDefinition pf m) := by
  unfold parseEnumValuesDefinition
  refine t_opened (.inl rfl) (fun j e => ?_) k_pure
  subst e
  refine t_doWhile ?_ t_close
  refine t_bind k_consume0 fun _ => t_bind k_mustConsume0 fun _ => t_ite (fun _ => t_fail) fun _ => ?_
  exact t_bind (k_directives (by omega) (by omega)) fun _ => k_pure

theorem k_inputFields {n m k : Nat} (hn : k < n) (hm : k < m) : K k (parseInputFieldsDefinition pf n) (parseInputFieldsDefinition pf m) := by
  unfold parseInputFieldsDefinition
  refine t_opened (.inl rfl) (fun j e => ?_) k_pure
  subst e
  exact t_doWhile (k_inputValueDefinition (by omega) (by omega)) t_close

theorem k_typeBody {n m k : Nat} {d kd} (hn : k < n) (hm : k < m) : K k (parseTypeBody pf n d kd) (parseTypeBody pf m d kd) := by
  unfold parseTypeBody
  refine t_bind k_mustConsume0 fun _ => ?_
  cases kd with
  | scalar => exact t_bind (k_directives hn hm) fun _ => k_pure
  | object => exact t_bind (k_implements hn hm) fun _ => t_bind (k_directives hn hm) fun _ => t_bind (k_fields hn hm) fun _ => k_pure
  | interface => exact t_bind (k_directives hn hm) fun _ => t_bind (k_fields hn hm) fun _ => k_pure
  | union => exact t_bind (k_directives hn hm) fun _ => t_bind (k_members hn hm) fun _ => k_pure
  | enum => exact t_bind (k_directives hn hm) fun _ => t_bind (k_enumValues hn hm) fun _ => k_pure
  | inputObject => exact t_bind (k_directives hn hm) fun _ => t_bind (k_inputFields hn hm) fun _ => k_pure

theorem k_typeDefinition {n m k : Nat} {d} (hn : k < n) (hm : k < m) : K k (parseTypeDefinition pf n d) (parseTypeDefinition pf m d) := by
  unfold parseTypeDefinition
  refine t_bind k_mustConsume0 fun t => ?_
  cases kindOf t.lit with
  | some kd => exact k_typeBody hn hm
  | none => exact t_crash

theorem k_typeExtension {n m k : Nat} (hn : k < n) (hm : k < m) : K k (parseTypeExtension pf n) (parseTypeExtension pf m) := by
  unfold parseTypeExtension
  refine t_bind k_mustConsume0 fun kt => t_bind k_mustConsume0 fun _ => ?_
  refine t_bind (mid := fun _ => Sh k) (t_ite (fun _ => t_bind t_peek1 fun b => t_ifB (k_implements hn hm) k_pure) fun _ => k_pure) fun _ => ?_
  cases kindOf kt.lit with
  | none => exact t_crash
  | some kd =>
    cases kd with
    | scalar => exact t_bind (k_directives hn hm) fun _ => k_pure
    | object => exact t_bind (k_directives hn hm) fun _ => t_bind (k_fields hn hm) fun _ => k_pure
    | interface => exact t_bind (k_directives hn hm) fun _ => t_bind (k_fields hn hm) fun _ => k_pure
    | union => exact t_bind (k_directives hn hm) fun _ => t_bind (k_members hn hm) fun _ => k_pure
    | enum => exact t_bind (k_directives hn hm) fun _ => t_bind (k_enumValues hn hm) fun _ => k_pure
    | inputObject => exact t_bind (k_directives hn hm) fun _ => t_bind (k_inputFields hn hm) fun _ => k_pure

theorem k_typeSystemDefinition {n m k : Nat} {d} (hn : k < n) (hm : k < m) :
    K k (parseTypeSystemDefinition pf n d) (parseTypeSystemDefinition pf m d) := by
  unfold parseTypeSystemDefinition
  refine t_bind t_peek1 fun b => t_ifB (t_bind (k_schemaDefinition hn hm) fun _ => k_pure) ?_
  refine t_bind t_peek1 fun b => t_ifB (t_bind (k_directiveDefinition hn hm) fun _ => k_pure) ?_
  exact t_bind t_peekn fun b => t_ifB (t_bind (k_typeDefinition hn hm) fun _ => k_pure) t_crash

theorem k_typeSystemExtension {n m k : Nat} (hn : k < n) (hm : k < m) :
    K k (parseTypeSystemExtension pf n) (parseTypeSystemExtension pf m) := by
  unfold parseTypeSystemExtension
  refine t_bind k_skip1 fun b => t_ifB ?_ t_unexpectedCur
  refine t_bind t_peek1 fun b => t_ifB (t_bind (k_schemaExtension hn hm) fun _ => k_pure) ?_
  exact t_bind t_peekn fun b => t_ifB (t_bind (k_typeExtension hn hm) fun _ => k_pure) t_unexpectedCur

theorem k_definitionBody {n m k : Nat} (hn : k < n) (hm : k < m) : K k (parseDefinitionBody pf n) (parseDefinitionBody pf m) := by
  unfold parseDefinitionBody
  refine t_bind t_cur fun t => ?_
  refine t_bind (t_orP t_peekn t_peek1) fun b => t_ifB (t_bind (k_operationDefinition hn hm) fun _ => k_pure) ?_
  refine t_bind t_peek1 fun b => t_ifB (t_bind (k_fragmentDefinition hn hm) fun _ => k_pure) ?_
  refine t_bind t_peek1 fun b => t_ifB (k_typeSystemExtension hn hm) ?_
  refine t_bind k_consume0 fun o => ?_
  exact t_bind t_peekn fun b => t_ifB (k_typeSystemDefinition hn hm) t_unexpectedCur

theorem k_definition {n m k : Nat} (hn : k < n) (hm : k < m) : K k (parseDefinition pf n) (parseDefinition pf m) := by
  unfold parseDefinition
  exact t_bind t_cur fun t => t_bind (k_definitionBody hn hm) fun _ => k_pure

theorem k_defs {n m k : Nat} (hn : k < n) (hm : k < m) : K k (parseDefs pf n) (parseDefs pf m) := by
  unfold parseDefs
  refine t_doWhile ?_ (brk_same t_peek0)
  exact t_bind (k_definition hn hm) fun _ => t_bind t_peek0 fun b => t_ifB t_unexpectedCur k_pure

end GQL
