/-
A walk with several rules.
-/
import Verif.Proofs.Rules

namespace GQL

/-- The SDL context without the flags of `UniqueOperationTypes`. -/
def SDLContext.noFlags (s : SDLContext) : SDLContext :=
  { s with queryDefined := false, mutationDefined := false, subscriptionDefined := false }

/-- The context without its errors and without the flags of `UniqueOperationTypes`. -/
def Ctx.base (c : Ctx) : Ctx := { c with errors := [], sdl := c.sdl.map SDLContext.noFlags }

theorem Ctx.base_addErrors (c : Ctx) (es : List GErr) : (c.addErrors es).base = c.base := by rw [Ctx.addErrors_eq]; rfl
theorem Ctx.sdl_addErrors (c : Ctx) (es : List GErr) : (c.addErrors es).sdl = c.sdl := by rw [Ctx.addErrors_eq]
theorem Ctx.schema_addErrors (c : Ctx) (es : List GErr) : (c.addErrors es).schema = c.schema := by rw [Ctx.addErrors_eq]
theorem Ctx.errors_addErrors (c : Ctx) (es : List GErr) : (c.addErrors es).errors = es.reverse ++ c.errors := by rw [Ctx.addErrors_eq]

theorem SDLContext.noFlags_defineAll (os : List OpTypeDef) : ∀ s : SDLContext, (s.defineAll os).noFlags = s.noFlags := by
  induction os with
  | nil => intro s; rfl
  | cons o os ih =>
    intro s
    have := ih (s.define o.op)
    exact this.trans (by cases o.op <;> rfl)

theorem Ctx.base_flagAfter (c : Ctx) (e : Event) : (c.flagAfter e).base = c.base := by
  have : ∀ os, ({ c with sdl := c.sdl.map fun s => s.defineAll os } : Ctx).base = c.base := by
    intro os
    unfold Ctx.base
    cases c.sdl with
    | none => rfl
    | some s => simp only [Option.map_some, SDLContext.noFlags_defineAll]
  rcases e with n | n
  · rfl
  · cases n <;> first | rfl | exact this _

theorem Rule.base_after (r : Rule) (c : Ctx) (e : Event) : (r.after c e).base = c.base := by
  cases r <;> simp only [Rule.after, Ctx.base_addErrors, Ctx.base_flagAfter]

theorem Ctx.base_doc {c c' : Ctx} (h : c.base = c'.base) : c.doc = c'.doc := by
  have := congrArg Ctx.doc h; exact this
theorem Ctx.base_schema {c c' : Ctx} (h : c.base = c'.base) : c.schema = c'.schema := by
  have := congrArg Ctx.schema h; exact this
theorem Ctx.base_operations {c c' : Ctx} (h : c.base = c'.base) : c.operations = c'.operations := by
  have := congrArg Ctx.operations h; exact this

theorem Ctx.directiveDefinition_base (c : Ctx) (n : Bytes) : c.base.directiveDefinition n = c.directiveDefinition n := by
  unfold Ctx.directiveDefinition Ctx.base; cases c.sdl <;> rfl
theorem Ctx.typeDefinition_base (c : Ctx) (n : Bytes) : c.base.typeDefinition n = c.typeDefinition n := by
  unfold Ctx.typeDefinition Ctx.base; cases c.sdl <;> rfl
theorem Ctx.documentDirective_base (c : Ctx) (n : Bytes) : c.base.documentDirective n = c.documentDirective n := by
  unfold Ctx.documentDirective Ctx.base; cases c.sdl <;> rfl
theorem Ctx.documentType_base (c : Ctx) (n : Bytes) : c.base.documentType n = c.documentType n := by
  unfold Ctx.documentType Ctx.base; cases c.sdl <;> rfl
theorem knownDirectiveDefinition_base (c : Ctx) (n : Bytes) : knownDirectiveDefinition c.base n = knownDirectiveDefinition c n := by
  unfold knownDirectiveDefinition; rw [Ctx.documentDirective_base]; rfl

theorem Ctx.usagesIter_base (c : Ctx) : ∀ fuel d p, c.base.variableUsagesIter fuel d p = c.variableUsagesIter fuel d p
  | 0, _, _ => rfl
  | fuel + 1, d, p => by
    unfold Ctx.variableUsagesIter
    have : (fun acc rd => Out.bind acc fun q => if q.2.contains (some rd) then .ret q
          else c.base.variableUsagesIter fuel (some rd) (q.1, setAdd q.2 (some rd))) =
        (fun acc rd => Out.bind acc fun (q : List Bytes × List (Option Nat)) => if q.2.contains (some rd) then .ret q
          else c.variableUsagesIter fuel (some rd) (q.1, setAdd q.2 (some rd))) := by
      funext acc rd; congr; funext q; rw [Ctx.usagesIter_base c fuel]
    rw [this]; rfl

theorem Ctx.recursiveVariableUsages_base (c : Ctx) (f d) : c.base.recursiveVariableUsages f d = c.recursiveVariableUsages f d := by
  unfold Ctx.recursiveVariableUsages; rw [Ctx.usagesIter_base]

theorem Rule.errs_base (r : Rule) (h : r ≠ .uniqueOperationTypes) (c : Ctx) (e : Event) : r.errs c.base e = r.errs c e := by
  cases r
  case uniqueOperationTypes => exact absurd rfl h
  case knownArgumentNamesOnDirectives => simp only [Rule.errs, knownArgErrs, argDirectiveDefinition, Ctx.directiveDefinition_base]
  case knownDirectives => simp only [Rule.errs, knownDirErrs, knownDirectiveDefinition_base]
  case knownTypeNames => simp only [Rule.errs, knownTypeErrs, typeNameKnown, Ctx.documentType_base]; rfl
  case noUnusedVariables => simp only [Rule.errs, unusedErrs, usesOf, Ctx.recursiveVariableUsages_base]; rfl
  case possibleTypeExtensions => simp only [Rule.errs, typeExtErrs, extTypeDefinition, Ctx.typeDefinition_base]
  case providedRequiredArgumentsOnDirectives => simp only [Rule.errs, requiredErrs, knownDirectiveDefinition_base]
  all_goals rfl

theorem Rule.errs_congr {r : Rule} (h : r ≠ .uniqueOperationTypes) {c c' : Ctx} (hb : c.base = c'.base) (e : Event) :
    r.errs c e = r.errs c' e := by rw [← r.errs_base h, hb, r.errs_base h]

theorem Rule.ready_base (r : Rule) (c : Ctx) : r.ready c.base ↔ r.ready c := by
  have h1 : c.base.sdl.isSome = c.sdl.isSome := by unfold Ctx.base; cases c.sdl <;> rfl
  cases r <;> simp only [Rule.ready, h1, Ctx.recursiveVariableUsages_base]
  exact Iff.rfl

theorem Rule.ready_congr {r : Rule} {c c' : Ctx} (hb : c.base = c'.base) : r.ready c ↔ r.ready c' := by
  rw [← r.ready_base c, hb, r.ready_base]

/-! ### One event -/

theorem opTypesErrs_congr {c c' : Ctx} (h1 : c.schema = c'.schema) (h2 : c.sdl = c'.sdl) (e : Event) : opTypesErrs c e = opTypesErrs c' e := by
  have : c.defined = c'.defined := by funext k; simp only [Ctx.defined, h2]
  unfold opTypesErrs
  rw [h1, this]

/-- The context after a list of rules has handled an event. -/
def afterAll (rs : List Rule) (c : Ctx) (e : Event) : Ctx := rs.foldl (fun c r => r.after c e) c

theorem Rule.visit_eq (r : Rule) (w : Walker (Out Ctx)) : r.visit w = w ++ r.visit [] := by
  cases r <;> simp only [Rule.visit, GQL.executableDefinitions, GQL.knownArgumentNamesOnDirectives, GQL.knownDirectives, GQL.knownTypeNames,
    GQL.loneAnonymousOperation, GQL.noUnusedVariables, GQL.possibleNames, GQL.possibleTypeExtensions, GQL.providedRequiredArgumentsOnDirectives,
    GQL.uniqueArgumentNames, GQL.uniqueDirectivesPerLocation, GQL.uniqueInputFieldNames, GQL.uniqueOperationNames, GQL.uniqueOperationTypes,
    Walker.addEnter, Walker.addLeave, List.nil_append, List.append_assoc]

theorem rulesWalker_cons (r : Rule) (rs : List Rule) : rulesWalker (r :: rs) = r.visit [] ++ rulesWalker rs := by
  have : ∀ (rs : List Rule) (w : Walker (Out Ctx)),
      (rs.map Rule.visit).foldl (fun w f => f w) w = w ++ (rs.map Rule.visit).foldl (fun w f => f w) [] := by
    intro rs
    induction rs with
    | nil => intro w; simp
    | cons r rs ih =>
      intro w
      simp only [List.map_cons, List.foldl_cons]
      rw [ih (r.visit w), ih (r.visit []), Rule.visit_eq r w, List.append_assoc]
  unfold rulesWalker newWalker
  simp only [List.map_cons, List.foldl_cons]
  exact this rs _

theorem on_append {γ : Type} (a b : Walker γ) (e : Event) (c : γ) : Walker.on (a ++ b) e c = Walker.on b e (Walker.on a e c) := by
  cases e <;> simp only [Walker.on, List.filter_append, List.foldl_append]

theorem on_rules : ∀ (rs : List Rule) (c : Ctx) (e : Event), (∀ r ∈ rs, r.ready c) →
    Walker.on (rulesWalker rs) e (.ret c) = .ret (afterAll rs c e)
  | [], c, e, _ => by cases e <;> rfl
  | r :: rs, c, e, h => by
    rw [rulesWalker_cons, on_append, r.does_all c e (h r (by simp)),
      on_rules rs (r.after c e) e fun r' hr' => (Rule.ready_congr (r.base_after c e)).2 (h r' (by simp [hr']))]
    rfl

theorem Rule.errors_after (r : Rule) (c : Ctx) (e : Event) : (r.after c e).errors = (r.errs c e).reverse ++ c.errors := by
  have : (c.flagAfter e).errors = c.errors := by
    rcases e with n | n
    · rfl
    · cases n <;> rfl
  cases r <;> simp only [Rule.after, Ctx.errors_addErrors, this]

theorem flagAfter_schema (c : Ctx) (e : Event) : (c.flagAfter e).schema = c.schema := by
  rcases e with n | n
  · rfl
  · cases n <;> rfl

theorem Rule.sdl_after {r : Rule} (h : r ≠ .uniqueOperationTypes) (c : Ctx) (e : Event) : (r.after c e).sdl = c.sdl := by
  cases r
  case uniqueOperationTypes => exact absurd rfl h
  all_goals exact Ctx.sdl_addErrors _ _

theorem afterAll_base (rs : List Rule) : ∀ (c : Ctx) (e : Event), (afterAll rs c e).base = c.base := by
  induction rs with
  | nil => intro c e; rfl
  | cons r rs ih => intro c e; exact (ih (r.after c e) e).trans (r.base_after c e)

theorem afterAll_noUOT (rs : List Rule) : ∀ (c : Ctx) (e : Event), .uniqueOperationTypes ∉ rs →
    (afterAll rs c e).sdl = c.sdl ∧ (afterAll rs c e).errors = (rs.flatMap fun r => r.errs c e).reverse ++ c.errors := by
  induction rs with
  | nil => intro c e _; exact ⟨rfl, rfl⟩
  | cons r rs ih =>
    intro c e h
    simp only [List.mem_cons, not_or] at h
    have hr : r ≠ .uniqueOperationTypes := fun x => h.1 x.symm
    obtain ⟨h1, h2⟩ := ih (r.after c e) e h.2
    refine ⟨h1.trans (r.sdl_after hr c e), ?_⟩
    show (afterAll rs (r.after c e) e).errors = _
    rw [h2, r.errors_after]
    have : (rs.flatMap fun r' => r'.errs (r.after c e) e) = rs.flatMap fun r' => r'.errs c e := by
      rw [List.flatMap_def, List.flatMap_def]
      congr 1
      exact List.map_congr_left fun r' hr' => Rule.errs_congr (fun x => h.2 (x ▸ hr')) (r.base_after c e) e
    rw [this]
    simp [List.flatMap_cons]

theorem afterAll_eq (rs : List Rule) : ∀ (c : Ctx) (e : Event), rs.count .uniqueOperationTypes ≤ 1 →
    (afterAll rs c e).sdl = (if .uniqueOperationTypes ∈ rs then (c.flagAfter e).sdl else c.sdl) ∧
    (afterAll rs c e).errors = (rs.flatMap fun r => r.errs c e).reverse ++ c.errors := by
  induction rs with
  | nil => intro c e _; exact ⟨rfl, rfl⟩
  | cons r rs ih =>
    intro c e h
    by_cases hr : r = .uniqueOperationTypes
    · subst hr
      have hn : Rule.uniqueOperationTypes ∉ rs := by
        intro hm
        have := List.count_pos_iff.2 hm
        simp only [List.count_cons_self] at h
        omega
      obtain ⟨h1, h2⟩ := afterAll_noUOT rs (Rule.after .uniqueOperationTypes c e) e hn
      refine ⟨?_, ?_⟩
      · rw [if_pos (by simp)]
        refine Eq.trans h1 ?_
        simp only [Rule.after, Ctx.sdl_addErrors]
      · refine Eq.trans h2 ?_
        rw [Rule.errors_after]
        have : (rs.flatMap fun r' => r'.errs (Rule.after .uniqueOperationTypes c e) e) = rs.flatMap fun r' => r'.errs c e := by
          rw [List.flatMap_def, List.flatMap_def]
          congr 1
          exact List.map_congr_left fun r' hr' => Rule.errs_congr (fun x => hn (x ▸ hr')) (Rule.base_after _ c e) e
        rw [this]
        simp [List.flatMap_cons]
    · have hc : rs.count .uniqueOperationTypes ≤ 1 := by
        rw [List.count_cons_of_ne hr] at h; exact h
      obtain ⟨h1, h2⟩ := ih (r.after c e) e hc
      have hsdl := r.sdl_after hr c e
      have hf : ((r.after c e).flagAfter e).sdl = (c.flagAfter e).sdl := by
        rcases e with n | n
        · exact hsdl
        · cases n <;> first | exact hsdl | (simp only [Ctx.flagAfter]; rw [hsdl])
      refine ⟨?_, ?_⟩
      · refine Eq.trans h1 ?_
        rw [hf, hsdl]
        have hne : ¬ Rule.uniqueOperationTypes = r := fun x => hr x.symm
        simp only [List.mem_cons, hne, false_or]
      · refine Eq.trans h2 ?_
        rw [r.errors_after]
        have : (rs.flatMap fun r' => r'.errs (r.after c e) e) = rs.flatMap fun r' => r'.errs c e := by
          rw [List.flatMap_def, List.flatMap_def]
          congr 1
          refine List.map_congr_left fun r' _ => ?_
          by_cases hu : r' = .uniqueOperationTypes
          · subst hu
            exact opTypesErrs_congr (Ctx.base_schema (r.base_after c e)) hsdl e
          · exact Rule.errs_congr hu (r.base_after c e) e
        rw [this]
        simp [List.flatMap_cons]

/-! ### The whole walk -/

/-- The errors of `UniqueOperationTypes` over the events. -/
def opTypesAll : Ctx → List Event → List GErr
  | _, [] => []
  | c, e :: es => opTypesErrs c e ++ opTypesAll (c.flagAfter e) es

/-- The errors of a rule over the events, in the order in which they are found. -/
def Rule.errsAll (r : Rule) (c : Ctx) (es : List Event) : List GErr :=
  if r = .uniqueOperationTypes then opTypesAll c es else es.flatMap (r.errs c)

theorem opTypesAll_congr : ∀ (es : List Event) (c c' : Ctx), c.schema = c'.schema → c.sdl = c'.sdl → opTypesAll c es = opTypesAll c' es
  | [], _, _, _, _ => rfl
  | e :: es, c, c', h1, h2 => by
    simp only [opTypesAll, opTypesErrs_congr h1 h2 e]
    congr 1
    refine opTypesAll_congr es _ _ (by rw [flagAfter_schema, flagAfter_schema, h1]) ?_
    rcases e with n | n
    · exact h2
    · cases n <;> first | exact h2 | (simp only [Ctx.flagAfter]; rw [h2])

theorem flatMap_append_perm {α β : Type} (l : List α) (f g : α → List β) :
    (l.flatMap f ++ l.flatMap g).Perm (l.flatMap fun x => f x ++ g x) := by
  induction l with
  | nil => exact .refl _
  | cons a l ih =>
    simp only [List.flatMap_cons]
    calc (f a ++ l.flatMap f) ++ (g a ++ l.flatMap g)
        = f a ++ (l.flatMap f ++ (g a ++ l.flatMap g)) := by simp
      _ |>.Perm (f a ++ (g a ++ (l.flatMap f ++ l.flatMap g))) := by
          refine .append_left _ ?_
          rw [← List.append_assoc, ← List.append_assoc]
          exact .append_right _ List.perm_append_comm
      _ |>.Perm (f a ++ (g a ++ l.flatMap fun x => f x ++ g x)) := .append_left _ (.append_left _ ih)
      _ = _ := by simp

/-- A walk with a list of rules finds, as a multiset, what each rule finds by itself. -/
theorem events_rules (rs : List Rule) (hu : rs.count .uniqueOperationTypes ≤ 1) : ∀ (es : List Event) (c : Ctx), (∀ r ∈ rs, r.ready c) →
    ∃ (c' : Ctx) (X : List GErr), es.foldl (fun o e => Walker.on (rulesWalker rs) e o) (.ret c) = .ret c' ∧ c'.errors = X.reverse ++ c.errors ∧
      X.Perm (rs.flatMap fun r => r.errsAll c es) ∧ c'.base = c.base
  | [], c, _ => ⟨c, [], rfl, rfl, by
      have : (rs.flatMap fun r => r.errsAll c []) = [] := by
        rw [List.flatMap_eq_nil_iff]; intro r _; unfold Rule.errsAll; split <;> rfl
      rw [this], rfl⟩
  | e :: es, c, h => by
    obtain ⟨h1, h2⟩ := afterAll_eq rs c e hu
    obtain ⟨c', X, hw, he, hp, hb⟩ := events_rules rs hu es (afterAll rs c e)
      fun r hr => (Rule.ready_congr (afterAll_base rs c e)).2 (h r hr)
    refine ⟨c', (rs.flatMap fun r => r.errs c e) ++ X, ?_, ?_, ?_, hb.trans (afterAll_base rs c e)⟩
    · rw [List.foldl_cons, on_rules rs c e h, hw]
    · rw [he, h2]; simp
    · refine (List.Perm.append_left _ hp).trans ?_
      refine (flatMap_append_perm _ _ _).trans (.of_eq ?_)
      rw [List.flatMap_def, List.flatMap_def]
      congr 1
      refine List.map_congr_left fun r hr => ?_
      unfold Rule.errsAll
      split
      · rename_i hr'
        subst hr'
        simp only [opTypesAll]
        congr 1
        refine opTypesAll_congr es _ _ ?_ ?_
        · rw [flagAfter_schema]; exact Ctx.base_schema (afterAll_base rs c e)
        · rw [h1, if_pos hr]
      · rename_i hr'
        rw [List.flatMap_cons]
        congr 1
        rw [List.flatMap_def, List.flatMap_def]
        congr 1
        exact List.map_congr_left fun e' _ => Rule.errs_congr hr' (afterAll_base rs c e) e'

/-- With one rule the errors come in order. -/
theorem events_rule (r : Rule) : ∀ (es : List Event) (c : Ctx), r.ready c →
    ∃ c', es.foldl (fun o e => Walker.on (rulesWalker [r]) e o) (.ret c) = .ret c' ∧ c'.errors = (r.errsAll c es).reverse ++ c.errors
  | [], c, _ => ⟨c, rfl, by unfold Rule.errsAll; split <;> rfl⟩
  | e :: es, c, h => by
    have hu : [r].count .uniqueOperationTypes ≤ 1 := by
      rw [List.count_singleton]; split <;> decide
    obtain ⟨h1, h2⟩ := afterAll_eq [r] c e hu
    obtain ⟨c', hw, he⟩ := events_rule r es (afterAll [r] c e) ((Rule.ready_congr (afterAll_base [r] c e)).2 h)
    refine ⟨c', ?_, ?_⟩
    · rw [List.foldl_cons, on_rules [r] c e (by simpa using h), hw]
    · rw [he, h2]
      have : r.errsAll c (e :: es) = r.errs c e ++ r.errsAll (afterAll [r] c e) es := by
        unfold Rule.errsAll
        split
        · rename_i hr'
          subst hr'
          simp only [opTypesAll]
          congr 1
          refine opTypesAll_congr es _ _ ?_ ?_
          · rw [flagAfter_schema]; exact (Ctx.base_schema (afterAll_base _ c e)).symm
          · rw [h1, if_pos (by simp)]
        · rename_i hr'
          rw [List.flatMap_cons]
          congr 1
          rw [List.flatMap_def, List.flatMap_def]
          congr 1
          exact List.map_congr_left fun e' _ => Rule.errs_congr hr' (afterAll_base _ c e).symm e'
      rw [this]
      simp

end GQL
