/-
What the errors of the parser ask for is one of the requests of the specification.
-/
import Verif.Proofs.ParseSafe
import Verif.Spec.SyntaxError

namespace GQL
open Spec Spec.Syntax

/-- What the error asks for is in the list. -/
def Requests : PErr → Prop
  | .unexpected _ w => w ∈ requests
  | _ => True

def Wnt {α : Type} (q : P α) : Prop := ∀ ts e r, q ts = .err e r → Requests e


theorem wnt_pure {α : Type} (a : α) : Wnt (pure a : P α) := fun ts e r h => by cases h
theorem wnt_bind {α β : Type} {q : P α} {g : α → P β} (h : Wnt q) (hg : ∀ a, Wnt (g a)) : Wnt (q >>= g) := by
  intro ts e r hb
  rcases bind_err.1 hb with h1 | ⟨a, r1, h1, h2⟩
  · exact h ts e r h1
  · exact hg a r1 e r h2
theorem wnt_cur : Wnt cur := fun ts e r h => by cases h
theorem wnt_advance : Wnt advance := fun ts e r h => by cases h
theorem wnt_fail {α : Type} {e : PErr} (he : Requests e) : Wnt (fail e : P α) := fun ts e' r h => by cases h; exact he
theorem wnt_crash {α : Type} : Wnt (crash : P α) := fun ts e r h => by cases h
theorem wnt_oof {α : Type} : Wnt (outOfFuel : P α) := fun ts e r h => by cases h
theorem wnt_ite {α : Type} {c : Prop} [Decidable c] {p q : P α} (h1 : Wnt p) (h2 : Wnt q) : Wnt (if c then p else q) := by split <;> assumption
theorem wnt_unexpectedCur {α : Type} {w : List Bytes} (hw : w ∈ requests) : Wnt (unexpectedCur w : P α) := wnt_bind wnt_cur fun _ => wnt_fail hw
theorem wnt_peek0 {k : TokenKind} : Wnt (peek0 k) := wnt_bind wnt_cur fun _ => wnt_pure _
theorem wnt_peek1 {k : TokenKind} {l : Bytes} : Wnt (peek1 k l) := wnt_bind wnt_cur fun _ => wnt_pure _
theorem wnt_peekn {k : TokenKind} {ls : List Bytes} : Wnt (peekn k ls) :=
  wnt_bind wnt_cur fun _ => wnt_ite (wnt_pure _) (wnt_ite (wnt_pure _) (wnt_pure _))
theorem wnt_skip1 {k : TokenKind} {l : Bytes} : Wnt (skip1 k l) :=
  wnt_bind wnt_cur fun _ => wnt_ite (wnt_pure _) (wnt_bind wnt_advance fun _ => wnt_pure _)
theorem wnt_consume0 {k : TokenKind} : Wnt (consume0 k) :=
  wnt_bind wnt_cur fun _ => wnt_ite (wnt_bind wnt_advance fun _ => wnt_pure _) (wnt_pure _)
theorem wnt_consumen {k : TokenKind} {ls : List Bytes} : Wnt (consumen k ls) :=
  wnt_bind wnt_cur fun _ => wnt_ite (wnt_pure _) (wnt_ite (wnt_bind wnt_advance fun _ => wnt_pure _)
    (wnt_ite (wnt_bind wnt_advance fun _ => wnt_pure _) (wnt_pure _)))
theorem wnt_mustConsume0 {k : TokenKind} (hw : [expected k []] ∈ requests) : Wnt (mustConsume0 k) :=
  wnt_bind wnt_cur fun _ => wnt_ite (wnt_fail hw) (wnt_bind wnt_advance fun _ => wnt_pure _)
theorem wnt_mustConsume1 {k : TokenKind} {l : Bytes} (hw : [expected k [l]] ∈ requests) : Wnt (mustConsume1 k l) :=
  wnt_bind wnt_cur fun _ => wnt_ite (wnt_fail hw) (wnt_bind wnt_advance fun _ => wnt_pure _)
theorem wnt_mustConsumen {k : TokenKind} {ls : List Bytes} (hw : [expected k ls] ∈ requests) : Wnt (mustConsumen k ls) :=
  wnt_bind wnt_cur fun _ => wnt_bind wnt_consumen fun o => by
    cases o with
    | none => exact wnt_fail hw
    | some t => exact wnt_pure _
theorem wnt_notP {p : P Bool} (h : Wnt p) : Wnt (notP p) := wnt_bind h fun _ => wnt_pure _
theorem wnt_orP {p q : P Bool} (h : Wnt p) (h2 : Wnt q) : Wnt (orP p q) := wnt_bind h fun _ => wnt_ite (wnt_pure _) h2
theorem wnt_doWhileF {α : Type} {body : P α} {brk : P Bool} (h1 : Wnt body) (h2 : Wnt brk) (k : Nat) : Wnt (doWhileF body brk k) := by
  induction k with
  | zero => exact wnt_oof
  | succ k ih => exact wnt_bind h1 fun _ => wnt_bind h2 fun _ => wnt_ite (wnt_pure _) (wnt_bind ih fun _ => wnt_pure _)
theorem wnt_doWhile {α : Type} {body : P α} {brk : P Bool} (h1 : Wnt body) (h2 : Wnt brk) : Wnt (doWhile body brk) := fun ts =>
  wnt_doWhileF h1 h2 (ts.length + 1) ts
theorem wnt_untilDoF {α : Type} {body : P α} {brk : P Bool} (h1 : Wnt body) (h2 : Wnt brk) (k : Nat) : Wnt (untilDoF brk body k) := by
  induction k with
  | zero => exact wnt_oof
  | succ k ih => exact wnt_bind h2 fun _ => wnt_ite (wnt_pure _) (wnt_bind h1 fun _ => wnt_bind ih fun _ => wnt_pure _)
theorem wnt_untilDo {α : Type} {body : P α} {brk : P Bool} (h1 : Wnt body) (h2 : Wnt brk) : Wnt (untilDo brk body) := fun ts =>
  wnt_untilDoF h1 h2 (ts.length + 1) ts

/-- Goes through the structure of a parser function. -/
macro "wnt" : tactic => `(tactic| repeat (first
  | assumption
  | exact wnt_pure _ | exact wnt_skip1 | exact wnt_consume0 | exact wnt_consumen | exact wnt_mustConsume0 (by decide) | exact wnt_mustConsume1 (by decide)
  | exact wnt_mustConsumen (by decide) | exact wnt_unexpectedCur (by decide) | exact wnt_fail trivial | exact wnt_fail (by decide : [expected .name [b!"valid enum value"]] ∈ requests) | exact wnt_crash | exact wnt_oof | exact wnt_cur
  | exact wnt_peek0 | exact wnt_peek1 | exact wnt_peekn | apply wnt_notP | apply wnt_orP | apply wnt_doWhile | apply wnt_untilDo
  | apply wnt_ite | apply wnt_bind | intro _))

section
variable (pf : Bytes → Option Nat)

theorem wnt_parseValue (n : Nat) : Wnt (parseValue pf n) := by
  induction n with
  | zero => exact wnt_oof
  | succ n ih =>
    rw [parseValue]
    refine wnt_bind wnt_skip1 fun _ => wnt_ite (by wnt) (wnt_bind wnt_consume0 fun o => ?_)
    cases o with
    | some t => dsimp only; cases atoi t.lit <;> wnt
    | none =>
      dsimp only
      refine wnt_bind wnt_consume0 fun o => ?_
      cases o with
      | some t => dsimp only; cases pf t.lit <;> wnt
      | none =>
        dsimp only
        refine wnt_bind wnt_consume0 fun o => ?_
        cases o with
        | some t => wnt
        | none =>
          dsimp only
          refine wnt_bind wnt_consumen fun o => ?_
          cases o with
          | some t => wnt
          | none =>
            dsimp only
            refine wnt_bind wnt_skip1 fun _ => wnt_ite (by wnt) (wnt_bind wnt_consume0 fun o => ?_)
            cases o with
            | some t => wnt
            | none => dsimp only; wnt

theorem wnt_parseDefaultValue (n : Nat) : Wnt (parseDefaultValue pf n) := by
  have := wnt_parseValue pf n
  unfold parseDefaultValue; wnt
theorem wnt_parseArguments (n : Nat) : Wnt (parseArguments pf n) := by
  have := wnt_parseValue pf n
  unfold parseArguments; wnt
theorem wnt_parseDirectives (n : Nat) (loc : DirLoc) : Wnt (parseDirectives pf n loc) := by
  have := wnt_parseArguments pf n
  unfold parseDirectives; wnt
theorem wnt_parseType (n : Nat) : Wnt (parseType n) := by
  induction n with
  | zero => exact wnt_oof
  | succ n ih =>
    rw [parseType]
    refine wnt_bind wnt_skip1 fun _ => wnt_ite ?_ (by wnt)
    intro ts e r h
    have := ih ts
    cases e1 : parseType n ts with
    | ok t r1 =>
      simp only [e1] at h
      have h2 : Wnt (do
            let _ ← mustConsume1 .punctuator b!"]"
            return Ty.list t (← skip1 .punctuator b!"!") : P Ty) := by wnt
      exact h2 r1 e r h
    | err er r1 => simp only [e1] at h; cases h
    | panic => simp only [e1] at h; cases h
    | oof => simp only [e1] at h; cases h
theorem wnt_mustBeNamed (t : Ty) : Wnt (mustBeNamed t) := by
  unfold mustBeNamed; cases t <;> wnt
theorem wnt_parseTypeCondition (n : Nat) : Wnt (parseTypeCondition n) := by
  unfold parseTypeCondition
  exact wnt_bind (wnt_mustConsume1 (by decide)) fun _ => wnt_bind (wnt_parseType n) fun t => wnt_bind (wnt_mustBeNamed t) fun _ => wnt_pure _
theorem wnt_parseVariableDefinitions (n : Nat) : Wnt (parseVariableDefinitions pf n) := by
  have := wnt_parseType n; have := wnt_parseDefaultValue pf n
  unfold parseVariableDefinitions; wnt
theorem wnt_parseSelectionSet (n : Nat) : ∀ o, Wnt (parseSelectionSet pf n o) := by
  induction n with
  | zero => intro _; exact wnt_oof
  | succ n ih =>
    intro o
    have := wnt_parseDirectives pf n .fragmentSpread
    have := wnt_parseDirectives pf n .inlineFragment
    have := wnt_parseDirectives pf n .field
    have := wnt_parseArguments pf n
    have := wnt_parseTypeCondition n
    have := ih true; have := ih false
    rw [parseSelectionSet]; unfold parseFragmentSpread parseInlineFragment parseField; wnt
theorem wnt_parseOperationType : Wnt parseOperationType := by unfold parseOperationType; wnt
theorem wnt_parseOperationDefinition (n : Nat) (b : Bool) : Wnt (parseOperationDefinition pf n b) := by
  unfold parseOperationDefinition
  refine wnt_ite (wnt_bind (wnt_parseSelectionSet pf n _) fun _ => wnt_pure _) (wnt_bind wnt_parseOperationType fun _ =>
    wnt_bind wnt_consume0 fun _ => wnt_bind (wnt_parseVariableDefinitions pf n) fun _ => wnt_bind (wnt_parseDirectives pf n _) fun _ =>
    wnt_bind (wnt_parseSelectionSet pf n _) fun _ => wnt_pure _)
theorem wnt_parseFragmentDefinition (n : Nat) : Wnt (parseFragmentDefinition pf n) := by
  unfold parseFragmentDefinition
  refine wnt_bind wnt_skip1 fun _ => wnt_ite (wnt_bind wnt_consume0 fun o => ?_) wnt_crash
  cases o with
  | none => exact wnt_crash
  | some t => exact wnt_ite (wnt_unexpectedCur (by decide)) (wnt_bind (wnt_parseTypeCondition n) fun _ => wnt_bind (wnt_parseDirectives pf n _) fun _ =>
      wnt_bind (wnt_parseSelectionSet pf n _) fun _ => wnt_pure _)
theorem wnt_parseOperationTypeDefinitions (n : Nat) : Wnt (parseOperationTypeDefinitions n) := by
  have := wnt_parseOperationType; have := wnt_parseType n
  unfold parseOperationTypeDefinitions parseOperationTypeDefinition
  refine wnt_bind wnt_skip1 fun _ => wnt_ite (wnt_bind (wnt_doWhile ?_ (by wnt)) fun _ => by wnt) (by wnt)
  exact wnt_bind wnt_parseOperationType fun _ => wnt_bind wnt_skip1 fun _ => wnt_ite (wnt_bind (wnt_parseType n) fun t => wnt_bind (wnt_mustBeNamed t) fun _ => wnt_pure _) (by wnt)
theorem wnt_parseSchemaDefinition (n : Nat) : Wnt (parseSchemaDefinition pf n) := by
  have := wnt_parseDirectives pf n .schema; have := wnt_parseOperationTypeDefinitions n
  unfold parseSchemaDefinition; wnt
theorem wnt_parseSchemaExtension (n : Nat) : Wnt (parseSchemaExtension pf n) := by
  have := wnt_parseDirectives pf n .schema; have := wnt_parseOperationTypeDefinitions n
  unfold parseSchemaExtension; wnt
theorem wnt_parseInputValueDefinition (n : Nat) (loc : DirLoc) : Wnt (parseInputValueDefinition pf n loc) := by
  have := wnt_parseDirectives pf n loc; have := wnt_parseType n; have := wnt_parseDefaultValue pf n
  unfold parseInputValueDefinition; wnt
theorem wnt_parseArgumentsDefinition (n : Nat) : Wnt (parseArgumentsDefinition pf n) := by
  have := wnt_parseInputValueDefinition pf n .argumentDefinition
  unfold parseArgumentsDefinition; wnt
theorem expected_locations : [expected .name directiveLocations] ∈ requests := by
  simp only [requests, List.mem_cons, List.cons.injEq, and_true]
  repeat (first | (left; rfl) | right)
theorem wnt_parseDirectiveLocations : Wnt parseDirectiveLocations := by
  unfold parseDirectiveLocations
  exact wnt_bind wnt_skip1 fun _ => wnt_bind (wnt_doWhile (wnt_mustConsumen expected_locations) (wnt_notP wnt_skip1)) fun _ => wnt_pure _
theorem wnt_parseDirectiveDefinition (n : Nat) (desc : Bytes) : Wnt (parseDirectiveDefinition pf n desc) := by
  have := wnt_parseArgumentsDefinition pf n; have := wnt_parseDirectiveLocations
  unfold parseDirectiveDefinition; wnt
theorem wnt_parseImplementsInterfaces (n : Nat) : Wnt (parseImplementsInterfaces n) := by
  have := wnt_parseType n
  unfold parseImplementsInterfaces; wnt
theorem wnt_parseUnionMemberTypes (n : Nat) : Wnt (parseUnionMemberTypes n) := by
  have := wnt_parseType n
  unfold parseUnionMemberTypes; wnt
theorem wnt_parseFieldsDefinition (n : Nat) : Wnt (parseFieldsDefinition pf n) := by
  have := wnt_parseType n; have := wnt_parseDirectives pf n .fieldDefinition; have := wnt_parseArgumentsDefinition pf n
  unfold parseFieldsDefinition; wnt
theorem wnt_parseEnumValuesDefinition (n : Nat) : Wnt (parseEnumValuesDefinition pf n) := by
  have := wnt_parseDirectives pf n .enumValue
  unfold parseEnumValuesDefinition; wnt
theorem wnt_parseInputFieldsDefinition (n : Nat) : Wnt (parseInputFieldsDefinition pf n) := by
  have := wnt_parseInputValueDefinition pf n .inputFieldDefinition
  unfold parseInputFieldsDefinition; wnt
theorem wnt_parseTypeBody (n : Nat) (desc : Bytes) (k : TypeKind) : Wnt (parseTypeBody pf n desc k) := by
  have := fun loc => wnt_parseDirectives pf n loc
  have := wnt_parseImplementsInterfaces n; have := wnt_parseFieldsDefinition pf n; have := wnt_parseUnionMemberTypes n
  have := wnt_parseEnumValuesDefinition pf n; have := wnt_parseInputFieldsDefinition pf n
  unfold parseTypeBody
  refine wnt_bind (wnt_mustConsume0 (by decide)) fun _ => ?_
  cases k <;> dsimp only <;> repeat (first | assumption | exact wnt_pure _ | apply wnt_bind | exact wnt_parseDirectives pf n _ | intro _)
theorem wnt_parseTypeDefinition (n : Nat) (desc : Bytes) : Wnt (parseTypeDefinition pf n desc) := by
  unfold parseTypeDefinition
  refine wnt_bind (wnt_mustConsume0 (by decide)) fun t => ?_
  cases kindOf t.lit with
  | none => exact wnt_crash
  | some k => exact wnt_parseTypeBody pf n desc k
theorem wnt_parseTypeExtension (n : Nat) : Wnt (parseTypeExtension pf n) := by
  have := wnt_parseImplementsInterfaces n; have := wnt_parseFieldsDefinition pf n; have := wnt_parseUnionMemberTypes n
  have := wnt_parseEnumValuesDefinition pf n; have := wnt_parseInputFieldsDefinition pf n
  unfold parseTypeExtension
  refine wnt_bind (wnt_mustConsume0 (by decide)) fun kt => wnt_bind (wnt_mustConsume0 (by decide)) fun t => wnt_bind (by wnt) fun _ => ?_
  cases kindOf kt.lit with
  | none => exact wnt_crash
  | some k => cases k <;> dsimp only <;> repeat (first | assumption | exact wnt_pure _ | apply wnt_bind | exact wnt_parseDirectives pf n _ | intro _)
theorem wnt_parseTypeSystemDefinition (n : Nat) (desc : Bytes) : Wnt (parseTypeSystemDefinition pf n desc) := by
  have := wnt_parseSchemaDefinition pf n; have := wnt_parseDirectiveDefinition pf n desc; have := wnt_parseTypeDefinition pf n desc
  unfold parseTypeSystemDefinition; wnt
theorem wnt_parseTypeSystemExtension (n : Nat) : Wnt (parseTypeSystemExtension pf n) := by
  have := wnt_parseSchemaExtension pf n; have := wnt_parseTypeExtension pf n
  unfold parseTypeSystemExtension; wnt
theorem wnt_parseDefinition (n : Nat) : Wnt (parseDefinition pf n) := by
  have := wnt_parseFragmentDefinition pf n; have := wnt_parseTypeSystemExtension pf n
  unfold parseDefinition parseDefinitionBody
  refine wnt_bind wnt_cur fun _ => wnt_bind (wnt_bind wnt_cur fun t => ?_) fun _ => wnt_pure _
  have := wnt_parseOperationDefinition pf n (t.lit == b!"{")
  dsimp only
  refine wnt_bind (by wnt) fun _ => wnt_ite (by wnt) (wnt_bind (by wnt) fun _ => wnt_ite (by wnt) (wnt_bind (by wnt) fun _ => wnt_ite (by wnt)
    (wnt_bind wnt_consume0 fun o => wnt_bind (by wnt) fun _ => wnt_ite (wnt_parseTypeSystemDefinition pf n _) (by wnt))))

theorem wnt_parseDefs (n : Nat) : Wnt (parseDefs pf n) := by
  have := wnt_parseDefinition pf n
  unfold parseDefs; wnt

end

end GQL
