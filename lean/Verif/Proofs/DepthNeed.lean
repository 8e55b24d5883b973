/-
A document that is deep needs as much room on the stack.
-/
import Verif.Spec.Depth
import Verif.Model.Stack

namespace GQL
open Spec

variable {pf : Bytes → Option Nat}

/-- What a program can return. -/
def G {α : Type} (Q : α → Prop) (p : P α) : Prop := ∀ ts a r, p ts = .ok a r → Q a

theorem g_bind {α β : Type} {p : P α} {f : α → P β} {Q1 : α → Prop} {Q : β → Prop} (h : G Q1 p) (hf : ∀ a, Q1 a → G Q (f a)) :
    G Q (p >>= f) := by
  intro ts b r
  show P.bind p f ts = _ → _
  unfold P.bind
  cases e : p ts with
  | ok a r' => exact hf a (h ts a r' e) r' b r
  | err _ _ => intro h; cases h
  | panic => intro h; cases h
  | oof => intro h; cases h

theorem g_any {α : Type} {p : P α} : G (fun _ => True) p := fun _ _ _ _ => trivial

theorem g_then {α β : Type} {p : P α} {f : α → P β} {Q : β → Prop} (hf : ∀ a, G Q (f a)) : G Q (p >>= f) :=
  g_bind g_any fun a _ => hf a

theorem g_pure {α : Type} {Q : α → Prop} {a : α} (h : Q a) : G Q (pure a : P α) := by
  intro ts b r e; cases e; exact h

theorem g_ite {α : Type} {c : Prop} [Decidable c] {Q : α → Prop} {p q : P α} (h1 : G Q p) (h2 : G Q q) : G Q (if c then p else q) := by
  split <;> assumption

theorem g_fail {α : Type} {Q : α → Prop} {e} : G Q (fail e : P α) := fun _ _ _ h => by cases h
theorem g_crash {α : Type} {Q : α → Prop} : G Q (crash : P α) := fun _ _ _ h => by cases h
theorem g_unexp {α : Type} {Q : α → Prop} {w} : G Q (unexpectedCur w : P α) := fun _ _ _ h => by cases h

theorem g_doWhile {α : Type} {Q : α → Prop} {body : P α} {brk : P Bool} (h : G Q body) : G (fun as => ∀ a ∈ as, Q a) (doWhile body brk) := by
  have : ∀ n, G (fun as => ∀ a ∈ as, Q a) (doWhileF body brk n) := by
    intro n
    induction n with
    | zero => exact fun _ _ _ h => by cases h
    | succ n ih =>
      unfold doWhileF
      refine g_bind h fun a ha => g_then fun b => g_ite (g_pure ?_) (g_bind ih fun as has => g_pure ?_)
      · intro x hx; cases List.mem_singleton.1 hx; exact ha
      · intro x hx
        rcases List.mem_cons.1 hx with rfl | hx
        · exact ha
        · exact has x hx
  exact fun ts => this _ ts

theorem g_untilDo {α : Type} {Q : α → Prop} {body : P α} {brk : P Bool} (h : G Q body) : G (fun as => ∀ a ∈ as, Q a) (untilDo brk body) := by
  have : ∀ n, G (fun as => ∀ a ∈ as, Q a) (untilDoF brk body n) := by
    intro n
    induction n with
    | zero => exact fun _ _ _ h => by cases h
    | succ n ih =>
      unfold untilDoF
      refine g_then fun b => g_ite (g_pure ?_) (g_bind h fun a ha => g_bind ih fun as has => g_pure ?_)
      · intro x hx; cases hx
      · intro x hx
        rcases List.mem_cons.1 hx with rfl | hx
        · exact ha
        · exact has x hx
  exact fun ts => this _ ts

theorem g_value (n : Nat) : G (ValWithin n) (parseValue pf n) := by
  induction n with
  | zero => exact fun _ _ _ h => by cases h
  | succ n ih =>
    unfold parseValue
    refine g_then fun b => g_ite (g_then fun t => g_pure (.leaf (fun _ h => by cases h) (fun _ h => by cases h))) ?_
    refine g_then fun o => ?_
    cases o with
    | some t => dsimp only; split; exact g_fail; exact g_pure (.leaf (fun _ h => by cases h) (fun _ h => by cases h))
    | none =>
    refine g_then fun o => ?_
    cases o with
    | some t => dsimp only; split; exact g_fail; exact g_pure (.leaf (fun _ h => by cases h) (fun _ h => by cases h))
    | none =>
    refine g_then fun o => ?_
    cases o with
    | some t => exact g_pure (.leaf (fun _ h => by cases h) (fun _ h => by cases h))
    | none =>
    refine g_then fun o => ?_
    cases o with
    | some t => exact g_pure (.leaf (fun _ h => by cases h) (fun _ h => by cases h))
    | none =>
    refine g_then fun b => g_ite (g_pure (.leaf (fun _ h => by cases h) (fun _ h => by cases h))) ?_
    refine g_then fun o => ?_
    cases o with
    | some t => exact g_pure (.leaf (fun _ h => by cases h) (fun _ h => by cases h))
    | none =>
    refine g_then fun b => g_ite (g_bind (g_untilDo ih) fun vs h => g_pure (.list h)) ?_
    refine g_then fun b => g_ite ?_ g_fail
    exact g_bind (g_untilDo (Q := fun p => ValWithin n p.2) (g_then fun _ => g_then fun _ => g_bind ih fun v hv => g_pure hv))
      fun fs h => g_pure (.obj h)

theorem g_arguments {n : Nat} : G (ArgsWithin n) (parseArguments pf n) := by
  unfold parseArguments
  refine g_then fun b => g_ite ?_ (g_pure fun _ h => by cases h)
  exact g_untilDo (Q := fun a : Argument => ValWithin n a.value) (g_then fun _ => g_then fun _ => g_bind (g_value n) fun v hv => g_pure hv)

theorem g_directives {n : Nat} {loc} : G (DirsWithin n) (parseDirectives pf n loc) := by
  unfold parseDirectives
  exact g_untilDo (Q := fun d : Directive => ArgsWithin n d.args) (g_then fun _ => g_then fun _ => g_bind g_arguments fun v hv => g_pure hv)

theorem g_sels {n : Nat} {o} : G (SelsWithin n) (parseSelectionSet pf n o) := by
  induction n generalizing o with
  | zero => cases o <;> exact fun _ _ _ h => by cases h
  | succ n ih =>
    unfold parseSelectionSet
    refine g_then fun b => g_ite ?_ (g_ite (g_pure (.mk fun _ h => by cases h)) g_unexp)
    refine g_bind (Q1 := fun ss => ∀ s ∈ ss, SelWithin n s) (g_doWhile ?_) fun ss h => g_then fun _ => g_pure (.mk h)
    refine g_then fun b => g_ite ?_ ?_
    · refine g_then fun t => g_ite ?_ ?_
      · unfold parseFragmentSpread
        exact g_then fun _ => g_bind g_directives fun ds h => g_pure (.spread h)
      · unfold parseInlineFragment
        exact g_then fun _ => g_bind g_directives fun ds h => g_bind ih fun ss hs => g_pure (.inline h hs)
    · unfold parseField
      refine g_then fun _ => g_then fun p => ?_
      cases p
      exact g_bind g_arguments fun as ha => g_bind g_directives fun ds h => g_bind ih fun ss hs => g_pure (.field ha h hs)

theorem g_body {n : Nat} : G (BodyWithin n) (parseDefinitionBody pf n) := by
  unfold parseDefinitionBody
  refine g_then fun t => g_then fun b => g_ite ?_ ?_
  · refine g_bind (Q1 := fun o => SelsWithin n o.sels) ?_ fun o h => g_pure ⟨(fun _ e => by cases e; exact h), (fun _ e => by cases e)⟩
    unfold parseOperationDefinition
    refine g_ite (g_bind g_sels fun ss h => g_pure h) ?_
    exact g_then fun _ => g_then fun _ => g_then fun _ => g_then fun _ => g_bind g_sels fun ss h => g_pure h
  refine g_then fun b => g_ite ?_ ?_
  · refine g_bind (Q1 := fun o => SelsWithin n o.sels) ?_ fun o h => g_pure ⟨(fun _ e => by cases e), (fun _ e => by cases e; exact h)⟩
    unfold parseFragmentDefinition
    refine g_then fun b => g_ite ?_ g_crash
    refine g_then fun o => ?_
    cases o with
    | none => exact g_crash
    | some t => exact g_ite g_unexp (g_then fun _ => g_then fun _ => g_bind g_sels fun ss h => g_pure h)
  refine g_then fun b => g_ite ?_ ?_
  · unfold parseTypeSystemExtension
    refine g_then fun b => g_ite ?_ g_unexp
    refine g_then fun b => g_ite (g_then fun s => g_pure ⟨(fun _ e => by cases e), (fun _ e => by cases e)⟩) ?_
    exact g_then fun b => g_ite (g_then fun s => g_pure ⟨(fun _ e => by cases e), (fun _ e => by cases e)⟩) g_unexp
  refine g_then fun d => g_then fun b => g_ite ?_ g_unexp
  unfold parseTypeSystemDefinition
  refine g_then fun b => g_ite (g_then fun s => g_pure ⟨(fun _ e => by cases e), (fun _ e => by cases e)⟩) ?_
  refine g_then fun b => g_ite (g_then fun s => g_pure ⟨(fun _ e => by cases e), (fun _ e => by cases e)⟩) ?_
  exact g_then fun b => g_ite (g_then fun s => g_pure ⟨(fun _ e => by cases e), (fun _ e => by cases e)⟩) g_crash

theorem g_defs {n : Nat} : G (fun ds => ∀ d ∈ ds, BodyWithin n d.body) (parseDefs pf n) := by
  unfold parseDefs
  refine g_doWhile ?_
  refine g_bind (Q1 := fun d : Definition => BodyWithin n d.body) ?_ fun d h => g_then fun b => g_ite g_unexp (g_pure h)
  unfold parseDefinition
  exact g_then fun t => g_bind g_body fun b h => g_pure h

end GQL
