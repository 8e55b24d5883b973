/-
C100: the errors of a call say what is wrong, but not where.
-/
import Verif.Props.C60Exact

namespace GQL
open Spec

/-- The error has a message, and neither locations nor a path. -/
def Spec.OnlyMessage (e : GErr) : Prop := e.message ≠ [] ∧ e.locations = [] ∧ e.path = []

theorem only_new {m : Bytes} (h : m ≠ []) : OnlyMessage (newError m) := ⟨h, rfl, rfl⟩

/-- Messages that begin with a text that is not empty. -/
macro "only_message" : tactic => `(tactic| exact only_new (List.cons_ne_nil _ _))

theorem only_one {e : GErr} (h : OnlyMessage e) : ∀ x ∈ [e], OnlyMessage x := fun x hx => by
  rw [List.mem_singleton.1 hx]; exact h

theorem only_none : ∀ x ∈ ([] : List GErr), OnlyMessage x := fun _ h => nomatch h

theorem only_map {α : Type} {f : α → GErr} (h : ∀ a, OnlyMessage (f a)) (l : List α) : ∀ x ∈ l.map f, OnlyMessage x := fun x hx => by
  obtain ⟨a, -, rfl⟩ := List.mem_map.1 hx; exact h a

theorem only_append {l l' : List GErr} (h : ∀ x ∈ l, OnlyMessage x) (h' : ∀ x ∈ l', OnlyMessage x) : ∀ x ∈ l ++ l', OnlyMessage x := fun x hx =>
  (List.mem_append.1 hx).elim (h x) (h' x)

theorem only_nameErr (n : Bytes) : ∀ x ∈ nameErr n, OnlyMessage x := by
  unfold nameErr; split
  · exact only_none
  · exact only_one (by only_message)

theorem only_opTypes : ∀ (os : List OpTypeDef) (d : OpKind → Bool), ∀ x ∈ opTypeRepeats d os, OnlyMessage x
  | [], _ => only_none
  | o :: os, d => only_append (by (split <;> first | exact only_one (by only_message) | exact only_none)) (only_opTypes os _)

theorem only_opTypeExts (sch : Schema) : ∀ (os : List OpTypeDef) (d : OpKind → Bool), ∀ x ∈ opTypeExtRepeats sch d os, OnlyMessage x
  | [], _ => only_none
  | o :: os, d => only_append (by
      split
      · exact only_one (by only_message)
      · (split <;> first | exact only_one (by only_message) | exact only_none)) (only_opTypeExts sch os _)

theorem only_unused (v o : Bytes) : OnlyMessage (unusedVariableError v o) := by
  unfold unusedVariableError unusedVariableMessage
  split <;> only_message

/-- No rule finds anything else. -/
theorem only_errs (r : Rule) (c : Ctx) (e : Event) : ∀ x ∈ r.errs c e, OnlyMessage x := by
  cases r <;> simp only [Rule.errs]
  · unfold execErrs; split
    · (split <;> first | exact only_none | exact only_one (by only_message))
    · exact only_none
  · unfold knownArgErrs; split
    · split
      · exact only_none
      · exact only_map (fun _ => by only_message) _
    · exact only_none
  · unfold knownDirErrs; split
    · split
      · exact only_one (by only_message)
      · (split <;> first | exact only_one (by only_message) | exact only_none)
    · exact only_none
  · unfold knownTypeErrs; split
    · (split <;> first | exact only_none | exact only_one (by only_message))
    · exact only_none
  · unfold loneAnonErrs; split
    · (split <;> first | exact only_one (by only_message) | exact only_none)
    · exact only_none
  · unfold unusedErrs; split
    · exact only_map (fun _ => only_unused _ _) _
    · exact only_none
  · unfold namesErrs; split <;> first | exact only_none | exact only_nameErr _
  · unfold typeExtErrs; split
    · split
      · (split <;> first | exact only_one (by only_message) | exact only_none)
      · exact only_one (by only_message)
    · exact only_none
  · unfold requiredErrs; split
    · split
      · exact only_none
      · exact only_map (fun _ => by only_message) _
    · exact only_none
  · unfold argNamesErrs; split <;> first | exact only_none | exact only_map (fun _ => by only_message) _
  · unfold dirsErrs; split <;> first | exact only_none | exact only_map (fun _ => by only_message) _
  · unfold inputFieldErrs; split <;> first | exact only_none | exact only_map (fun _ => by only_message) _
  · unfold opNamesErrs; split
    · split
      · (split <;> first | exact only_one (by only_message) | exact only_none)
      · exact only_none
    · exact only_none
  · unfold opTypesErrs; split
    · exact only_opTypes _ _
    · exact only_opTypeExts _ _ _
    · exact only_none

theorem only_opTypesAll : ∀ (es : List Event) (c : Ctx), ∀ x ∈ opTypesAll c es, OnlyMessage x
  | [], _ => only_none
  | e :: es, c => only_append (only_errs .uniqueOperationTypes c e) (only_opTypesAll es _)

theorem only_errsAll (r : Rule) (c : Ctx) (es : List Event) : ∀ x ∈ r.errsAll c es, OnlyMessage x := by
  unfold Rule.errsAll
  split
  · exact only_opTypesAll es c
  · intro x hx
    obtain ⟨e, -, h⟩ := List.mem_flatMap.1 hx
    exact only_errs r c e x h

/-- The errors of the context. -/
def Ctx.Only (c : Ctx) : Prop := ∀ x ∈ c.errors, OnlyMessage x

theorem Ctx.Only.add {c : Ctx} (h : c.Only) {e : GErr} (he : OnlyMessage e) : (c.addError e).Only := fun x hx => by
  rcases List.mem_cons.1 hx with rfl | hx
  · exact he
  · exact h x hx

theorem walk_only {rs : List Rule} (hu : rs.count .uniqueOperationTypes ≤ 1) {c : Ctx} (h : ∀ r ∈ rs, r.ready c) {doc : Document} (hc : c.Only)
    {c' : Ctx} (hw : Walker.walk (rulesWalker rs) (.ret c) doc = .ret c') : c'.Only := by
  obtain ⟨c2, X, h1, h2, h3, -⟩ := walk_rules rs hu c h doc
  rw [hw] at h1
  cases h1
  intro x hx
  rw [h2] at hx
  rcases List.mem_append.1 hx with hx | hx
  · obtain ⟨r, -, hr⟩ := List.mem_flatMap.1 (h3.mem_iff.1 (List.mem_reverse.1 hx))
    exact only_errsAll r c _ x hr
  · exact hc x hx

theorem prepareStep_only {c : Ctx} {s : SDLContext} {d : Definition × Nat} (h : c.Only) : (prepareStep c s d).1.Only := by
  unfold prepareStep
  split
  · exact h
  · exact h
  · split
    · exact h.add (by only_message)
    · (split <;> first | exact h.add (by only_message) | exact h)
  · split
    · exact h.add (by only_message)
    · (split <;> first | exact h.add (by only_message) | exact h)
  · split
    · exact h.add (by only_message)
    · (split <;> first | exact h.add (by only_message) | exact h)
  · exact h
  · exact h

theorem prepare_only : ∀ (ds : List (Definition × Nat)) (p : Ctx × SDLContext), p.1.Only →
    (ds.foldl (fun (p : Ctx × SDLContext) d => prepareStep p.1 p.2 d) p).1.Only
  | [], _, h => h
  | _ :: ds, _, h => prepare_only ds _ (prepareStep_only h)

theorem newSDLContext_only (doc : Document) (schema : Option Schema) : (newSDLContext doc schema).Only := prepare_only _ _ only_none

/-! ### `ValidateSchema` -/

theorem foldOut_only {α β : Type} {f : β → α → Out β} {P : β → Prop} (hf : ∀ b a b', P b → f b a = .ret b' → P b') :
    ∀ (l : List α) (b b' : β), P b → foldOut f l b = .ret b' → P b'
  | [], b, b', h, e => by cases e; exact h
  | a :: l, b, b', h, e => by
    unfold foldOut at e
    cases hfa : f b a with
    | ret b2 => rw [hfa] at e; exact foldOut_only hf l b2 b' (hf b a b2 h hfa) e
    | panic => rw [hfa] at e; cases e
    | oof => rw [hfa] at e; cases e

theorem Out.bind_eq {α β : Type} {o : Out α} {f : α → Out β} {b : β} (h : o.bind f = .ret b) : ∃ a, o = .ret a ∧ f a = .ret b := by
  cases o with
  | ret a => exact ⟨a, rfl, h⟩
  | panic => cases h
  | oof => cases h

theorem validateName_only {c : Ctx} (h : c.Only) (n : Bytes) : (validateName c n).Only := by
  unfold validateName
  split
  · exact h.add (by only_message)
  · split
    · exact h.add (by only_message)
    · (split <;> first | exact h | exact h.add (by only_message))

theorem validateQueryRoot_only {c : Ctx} (h : c.Only) (s : Schema) : (validateQueryRoot c s).Only := by
  unfold validateQueryRoot
  split
  · exact h.add (by only_message)
  · split
    · (split <;> first | exact h | exact h.add (by only_message))
    · exact h.add (by only_message)

theorem validateOptionalRoot_only {c : Ctx} (h : c.Only) (s : Schema) (r : Option Ty) {m : Bytes} (hm : m ≠ []) : (validateOptionalRoot c s r m).Only := by
  unfold validateOptionalRoot
  split
  · exact h
  · split
    · (split <;> first | exact h | exact h.add (only_new hm))
    · exact h

theorem validateRootTypes_only {c : Ctx} (h : c.Only) (s : Schema) : (validateRootTypes c s).Only :=
  validateOptionalRoot_only (validateOptionalRoot_only (validateQueryRoot_only h s) s _ (List.cons_ne_nil _ _)) s _ (List.cons_ne_nil _ _)

theorem directiveArgs_only (n : Bytes) : ∀ (l : List InputVal) (p : Ctx × List Bytes), p.1.Only → (l.foldl (directiveArgStep n) p).1.Only
  | [], _, h => h
  | a :: l, p, h => directiveArgs_only n l _ (by
      unfold directiveArgStep
      split
      · exact h.add (by only_message)
      · exact validateName_only h _)

theorem validateDirectives_only (ord : Order DirDef) {c : Ctx} (h : c.Only) (s : Schema) : (validateDirectives ord c s).Only := by
  unfold validateDirectives
  generalize ord.arrange s.directives = l
  induction l generalizing c with
  | nil => exact h
  | cons p l ih => exact ih (directiveArgs_only _ _ _ (validateName_only h _))

theorem fieldArgStep_only {s : Schema} {t f : Bytes} {p : Ctx × List Bytes} {a : InputVal} {p' : Ctx × List Bytes} (h : p.1.Only)
    (e : fieldArgStep s t f p a = .ret p') : p'.1.Only := by
  unfold fieldArgStep at e
  obtain ⟨ok, -, e⟩ := Out.bind_eq e
  cases e
  have h1 := validateName_only h a.name
  dsimp only
  split <;> split <;> first | exact h1 | exact h1.add (by only_message) | exact (h1.add (by only_message)).add (by only_message)

theorem fieldStep_only {s : Schema} {t : Bytes} {c : Ctx} {f : FieldDef} {c' : Ctx} (h : c.Only) (e : fieldStep s t c f = .ret c') : c'.Only := by
  unfold fieldStep at e
  obtain ⟨ok, -, e⟩ := Out.bind_eq e
  obtain ⟨p, hp, h2⟩ := Out.bind_eq e
  cases h2
  refine foldOut_only (P := fun p : Ctx × List Bytes => p.1.Only) (fun _ _ _ hq he => fieldArgStep_only hq he) _ _ _ ?_ hp
  have h1 := validateName_only h f.name
  dsimp only
  (split <;> first | exact h1 | exact h1.add (by only_message))

theorem validateFields_only {c : Ctx} (h : c.Only) {s : Schema} {t : TypeDef} {c' : Ctx} (e : validateFields c s t = .ret c') : c'.Only := by
  unfold validateFields at e
  refine foldOut_only (P := Ctx.Only) (fun _ _ _ hp he => fieldStep_only hp he) _ _ _ ?_ e
  (split <;> first | exact h.add (by only_message) | exact h)

theorem interfaceFieldStep_only {fuel : Nat} {run : RunOrders} {s : Schema} {t i : TypeDef} {c : Ctx} {f : FieldDef} {c' : Ctx} (h : c.Only)
    (e : interfaceFieldStep fuel run s t i c f = .ret c') : c'.Only := by
  unfold interfaceFieldStep at e
  split at e
  · cases e; exact h.add (by only_message)
  · obtain ⟨ok, -, e⟩ := Out.bind_eq e
    cases e
    (split <;> first | exact h | exact h.add (by only_message))

theorem objectInterfaceStep_only {fuel : Nat} {run : RunOrders} {s : Schema} {t : TypeDef} {p : Ctx × List Bytes} {i : Ty} {p' : Ctx × List Bytes}
    (h : p.1.Only) (e : objectInterfaceStep fuel run s t p i = .ret p') : p'.1.Only := by
  unfold objectInterfaceStep at e
  split at e
  · cases e; exact h.add (by only_message)
  · split at e
    · cases e; exact h.add (by only_message)
    · split at e
      · cases e
      · obtain ⟨c, hc, e⟩ := Out.bind_eq e
        cases e
        exact foldOut_only (P := Ctx.Only) (fun _ _ _ hp he => interfaceFieldStep_only hp he) _ _ _ h hc

theorem typeStep_only {fuel : Nat} {run : RunOrders} {s : Schema} {c : Ctx} {p : Bytes × TypeDef} {c' : Ctx} (h : c.Only)
    (e : typeStep fuel run s c p = .ret c') : c'.Only := by
  unfold typeStep at e
  have h1 : (if !isIntrospectionTypeName p.1 then validateName c p.1 else c).Only := by
    (split <;> first | exact validateName_only h _ | exact h)
  revert e
  generalize (if !isIntrospectionTypeName p.1 then validateName c p.1 else c) = c1 at h1
  intro e
  dsimp only at e
  split at e
  · obtain ⟨c2, h2, e⟩ := Out.bind_eq e
    unfold validateObjectInterfaces at e
    obtain ⟨q, hq, e⟩ := Out.bind_eq e
    cases e
    exact foldOut_only (P := fun p : Ctx × List Bytes => p.1.Only) (fun _ _ _ hp he => objectInterfaceStep_only hp he) _ _ _
      (validateFields_only h1 h2) hq
  · exact validateFields_only h1 e
  · cases e; exact h1

theorem validateSchema_only {fuel : Nat} {run : RunOrders} {c : Ctx} {s : Schema} {c' : Ctx} (h : c.Only) (e : validateSchema fuel run c s = .ret c') :
    c'.Only :=
  foldOut_only (P := Ctx.Only) (fun _ _ _ hp he => typeStep_only hp he) _ _ _ (validateDirectives_only _ (validateRootTypes_only h s) s) e

/-! ### The claim -/

/-- **C100 for query documents**: whatever the text and the schema, every error that `ParseDoc` returns has a message, no location and no path. -/
theorem C100_query {pf : Bytes → Option Nat} {input : Bytes} {schema : Option Schema} {r : DocResult} (h : parseDoc pf input schema = .ret r)
    {es : List GErr} (he : r.errors = some es) : ∀ e ∈ es, OnlyMessage e := by
  unfold parseDoc at h
  split at h
  · cases h
  · cases h
  · cases h; cases he
  · rename_i d _
    obtain ⟨c, hc, h⟩ := Out.bind_eq h
    have : c.Only := by
      unfold validate at hc
      rw [newContext_ret] at hc
      refine walk_only (by decide) (fun r hr => queryCtx_ready d schema ?_) ?_ hc
      · exact (show ∀ r ∈ specified, r.sdlOnly = false by decide) r hr
      · unfold Ctx.Only; rw [queryCtx_errors]; exact only_none
    split at h
    · cases h; cases he; exact this
    · cases h; cases he

/-- **C100 for SDL documents**: the same for `ParseSDLDoc`, whatever the orders of iteration. -/
theorem C100_sdl {pf : Bytes → Option Nat} {fuel : Nat} {ord : Orders} {input : Bytes} {schema : Option Schema} {r : SDLResult}
    (h : parseSDLDoc pf fuel ord input schema = .ret r) {es : List GErr} (he : r.errors = some es) : ∀ e ∈ es, OnlyMessage e := by
  unfold parseSDLDoc at h
  split at h
  · cases h
  · cases h
  · cases h; cases he
  · rename_i d _
    obtain ⟨c, hc, h⟩ := Out.bind_eq h
    have h1 : c.Only := walk_only (by decide) (fun r _ => sdlCtx_ready d schema r) (newSDLContext_only d schema) hc
    split at h
    · cases h; cases he; exact h1
    · obtain ⟨c2, hb, h⟩ := Out.bind_eq h
      have h2 : c2.Only := by
        unfold buildSchema at hb
        split at hb
        · cases hb
        · cases hb; exact h1
      obtain ⟨c3, hv, h⟩ := Out.bind_eq h
      have h3 := validateSchema_only h2 hv
      split at h
      · cases h; cases he; exact h3
      · cases h; cases he

/-- An SDL document with an error. -/
example (pf : Bytes → Option Nat) (fuel : Nat) (ord : Orders) : ∃ e, parseSDLDoc pf fuel ord b!"scalar A scalar A" none = .ret ⟨none, some [e], none, none⟩ ∧
    marshalJSON e = b!"{\"message\":\"There can be only one type named A.\"}" := by
  refine ⟨duplicateTypeNameError b!"A", ?_, rfl⟩
  unfold parseSDLDoc
  rw [(parse_eq (ts := [⟨.name, b!"scalar", 1, 1⟩, ⟨.name, b!"A", 1, 8⟩, ⟨.name, b!"scalar", 1, 10⟩, ⟨.name, b!"A", 1, 17⟩, ⟨.eof, [], 1, 18⟩]) (by decide) rfl)]
  rfl

theorem only_json {e : GErr} (h : OnlyMessage e) : marshalJSON e = b!"{\"message\":\"" ++ e.message ++ b!"\"}" := by
  unfold marshalJSON
  rw [h.2.1, h.2.2]
  simp

/-- **C100, the JSON**: the JSON of such an error is the message in quotation marks, and nothing else; it is the JSON of that message if and only if the message needs no escapes. -/
theorem C100_json {e : GErr} (h : OnlyMessage e) : marshalJSON e = b!"{\"message\":\"" ++ e.message ++ b!"\"}" ∧
    (JsonText (marshalJSON e) (.obj [(b!"message", .str e.message)]) ↔ PlainText e.message) := by
  refine ⟨only_json h, ?_⟩
  have hj : errorJson e = .obj [(b!"message", .str e.message)] := by
    unfold errorJson
    rw [h.2.1, h.2.2]; rfl
  have := C60_exact (e := e) (by rw [Spec.GoLocations, h.2.1]; intro l hl; cases hl)
  rw [hj] at this
  rw [this]
  exact ⟨fun hp => hp.message, fun hp => ⟨hp, by rw [h.2.1]; intro l hl; (cases hl), by rw [h.2.2]; intro s hs; (cases hs)⟩⟩

/-- **C100, refuted as a user would have it**: two texts of the same length, with the mistake at the beginning of the first and at the end of the second, have
the same errors: nothing in them says where to look. -/
theorem C100_refuted (pf : Bytes → Option Nat) :
    ∃ e, parseDoc pf b!"{a(x:1 x:2)b(x:1 y:2)}" none = .ret ⟨none, some [e], none⟩ ∧
      parseDoc pf b!"{a(x:1 y:2)b(x:1 x:2)}" none = .ret ⟨none, some [e], none⟩ ∧ e.locations = [] := by
  refine ⟨duplicateArgError b!"x", ?_, ?_, rfl⟩
  · unfold parseDoc
    rw [(parse_eq (ts := [⟨.punctuator, b!"{", 1, 1⟩, ⟨.name, b!"a", 1, 2⟩, ⟨.punctuator, b!"(", 1, 3⟩, ⟨.name, b!"x", 1, 4⟩, ⟨.punctuator, b!":", 1, 5⟩, ⟨.intValue, b!"1", 1, 6⟩, ⟨.name, b!"x", 1, 8⟩, ⟨.punctuator, b!":", 1, 9⟩, ⟨.intValue, b!"2", 1, 10⟩, ⟨.punctuator, b!")", 1, 11⟩, ⟨.name, b!"b", 1, 12⟩, ⟨.punctuator, b!"(", 1, 13⟩, ⟨.name, b!"x", 1, 14⟩, ⟨.punctuator, b!":", 1, 15⟩, ⟨.intValue, b!"1", 1, 16⟩, ⟨.name, b!"y", 1, 18⟩, ⟨.punctuator, b!":", 1, 19⟩, ⟨.intValue, b!"2", 1, 20⟩, ⟨.punctuator, b!")", 1, 21⟩, ⟨.punctuator, b!"}", 1, 22⟩, ⟨.eof, [], 1, 23⟩]) (by decide) rfl)]
    rfl
  · unfold parseDoc
    rw [(parse_eq (ts := [⟨.punctuator, b!"{", 1, 1⟩, ⟨.name, b!"a", 1, 2⟩, ⟨.punctuator, b!"(", 1, 3⟩, ⟨.name, b!"x", 1, 4⟩, ⟨.punctuator, b!":", 1, 5⟩, ⟨.intValue, b!"1", 1, 6⟩, ⟨.name, b!"y", 1, 8⟩, ⟨.punctuator, b!":", 1, 9⟩, ⟨.intValue, b!"2", 1, 10⟩, ⟨.punctuator, b!")", 1, 11⟩, ⟨.name, b!"b", 1, 12⟩, ⟨.punctuator, b!"(", 1, 13⟩, ⟨.name, b!"x", 1, 14⟩, ⟨.punctuator, b!":", 1, 15⟩, ⟨.intValue, b!"1", 1, 16⟩, ⟨.name, b!"x", 1, 18⟩, ⟨.punctuator, b!":", 1, 19⟩, ⟨.intValue, b!"2", 1, 20⟩, ⟨.punctuator, b!")", 1, 21⟩, ⟨.punctuator, b!"}", 1, 22⟩, ⟨.eof, [], 1, 23⟩]) (by decide) rfl)]
    rfl

end GQL
