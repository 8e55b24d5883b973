/-
C70 An accepted query document is a valid document.
-/
import Verif.Props.C65
import Verif.Props.C69
import Verif.Spec.ValidQuery

namespace GQL
open Spec Classical

theorem flatMap_map_nil {α β γ : Type} {l : List α} {f : α → List β} {g : β → γ} : (l.flatMap fun a => (f a).map g) = [] ↔ ∀ a ∈ l, f a = [] := by
  simp [List.flatMap_eq_nil_iff]

/-- What no enabled rule finds an error in is what is `SoundQuery`. -/
theorem queryErrors_nil {schema : Option Schema} {doc : Document} : queryErrors schema doc = [] ↔ SoundQuery schema doc := by
  have h1 : nonExecutableErrors doc = [] ↔ ∀ d ∈ doc.defs, (∃ o, d.body = .op o) ∨ ∃ f, d.body = .frag f := by
    unfold nonExecutableErrors
    rw [List.map_eq_nil_iff, List.filterMap_eq_nil_iff]
    refine forall_congr' fun d => forall_congr' fun _ => ?_
    cases d.body <;> simp [definitionName]
  have h2 : anonymousErrors doc = [] ↔ ∀ o ∈ operations doc.defs, o.name = [] → (operations doc.defs).length = 1 := by
    unfold anonymousErrors
    split
    · rename_i hl
      rw [List.map_eq_nil_iff, List.filter_eq_nil_iff]
      refine forall_congr' fun o => forall_congr' fun _ => ?_
      simp only [decide_eq_true_eq]
      exact ⟨fun h h' => absurd h' h, fun h h' => by have := h h'; omega⟩
    · rename_i hl
      simp only [true_iff]
      intro o ho _
      have := List.length_pos_of_mem ho
      omega
  have h3 : unknownTypeErrors schema [] doc = [] ↔ ∀ n ∈ typeNames doc, KnownType schema [] n := by
    unfold unknownTypeErrors
    rw [List.map_eq_nil_iff, List.filter_eq_nil_iff]
    simp
  have h4 : unusedVariableErrors doc = [] ↔ ∀ d ∈ doc.defs, ∀ o, d.body = .op o → ∀ v ∈ o.vars, Used doc d v.name := by
    unfold unusedVariableErrors
    rw [List.flatMap_eq_nil_iff]
    refine forall_congr' fun d => forall_congr' fun _ => ?_
    cases hb : d.body <;> simp [List.filter_eq_nil_iff]
  have h5 : directiveErrors schema [] doc = [] ↔ ∀ d ∈ directives doc, ∃ dd, directiveDef schema [] d.name = some dd ∧ inMask d.loc dd.locs := by
    unfold directiveErrors
    rw [List.flatMap_eq_nil_iff]
    refine forall_congr' fun d => forall_congr' fun _ => ?_
    cases directiveDef schema [] d.name with
    | none => simp
    | some dd => by_cases h : inMask d.loc dd.locs <;> simp [h]
  have h6 : repeatedDirectiveErrors doc = [] ↔ ∀ l ∈ directiveLists doc, (l.map (·.name)).Nodup := by
    unfold repeatedDirectiveErrors
    rw [flatMap_map_nil]
    simp only [repeated_nil]
  have h7 : repeatedArgumentErrors doc = [] ↔ ∀ l ∈ argumentLists doc, l.Nodup := by
    unfold repeatedArgumentErrors
    rw [flatMap_map_nil]
    simp only [repeated_nil]
  have h8 : repeatedInputFieldErrors doc = [] ↔ ∀ l ∈ inputObjects doc, l.Nodup := by
    unfold repeatedInputFieldErrors
    rw [flatMap_map_nil]
    simp only [repeated_nil]
  unfold queryErrors
  simp only [List.append_eq_nil_iff, h1, h2, h3, h4, h5, h6, h7, h8]
  exact ⟨fun ⟨⟨⟨⟨⟨⟨⟨a, b⟩, c⟩, d⟩, e⟩, f⟩, g⟩, h⟩ => ⟨a, b, c, d, e, f, g, h⟩, fun ⟨a, b, c, d, e, f, g, h⟩ => ⟨⟨⟨⟨⟨⟨⟨a, b⟩, c⟩, d⟩, e⟩, f⟩, g⟩, h⟩⟩

section
variable (pf : Bytes → Option Nat)

/-- **C70, what is true**: the documents that `ParseDoc` accepts are exactly those of the texts that parse to a document that is `SoundQuery`.
Missing for the full property: the requirements in `ValidQuery` that are not in `SoundQuery`; see `C70_refuted`. -/
theorem C70_partial (input : Bytes) (schema : Option Schema) (d : Document) :
    parseDoc pf input schema = .ret ⟨some d, none, none⟩ ↔ parse pf input = .ok d ∧ SoundQuery schema d := by
  rw [C39_accepts, queryErrors_nil]

set_option maxRecDepth 16000 in
/-- A concrete document with a variable, a fragment and a directive is accepted, hence is `SoundQuery`. -/
example : ∃ d, SoundQuery none d ∧ d.defs.length = 2 :=
  ⟨_, ((C70_partial (fun _ => some 0) b!"query Q($v:ID){b(x:$v){...F @skip(if:true)}} fragment F on Boolean{a}" none _).1 (parseDoc_ok (parse_eq (ts := [⟨.name, b!"query", 1, 1⟩, ⟨.name, b!"Q", 1, 7⟩, ⟨.punctuator, b!"(", 1, 8⟩, ⟨.punctuator, b!"$", 1, 9⟩, ⟨.name, b!"v", 1, 10⟩, ⟨.punctuator, b!":", 1, 11⟩, ⟨.name, b!"ID", 1, 12⟩, ⟨.punctuator, b!")", 1, 14⟩, ⟨.punctuator, b!"{", 1, 15⟩, ⟨.name, b!"b", 1, 16⟩, ⟨.punctuator, b!"(", 1, 17⟩, ⟨.name, b!"x", 1, 18⟩, ⟨.punctuator, b!":", 1, 19⟩, ⟨.punctuator, b!"$", 1, 20⟩, ⟨.name, b!"v", 1, 21⟩, ⟨.punctuator, b!")", 1, 22⟩, ⟨.punctuator, b!"{", 1, 23⟩, ⟨.punctuator, b!"...", 1, 24⟩, ⟨.name, b!"F", 1, 27⟩, ⟨.punctuator, b!"@", 1, 29⟩, ⟨.name, b!"skip", 1, 30⟩, ⟨.punctuator, b!"(", 1, 34⟩, ⟨.name, b!"if", 1, 35⟩, ⟨.punctuator, b!":", 1, 37⟩, ⟨.name, b!"true", 1, 38⟩, ⟨.punctuator, b!")", 1, 42⟩, ⟨.punctuator, b!"}", 1, 43⟩, ⟨.punctuator, b!"}", 1, 44⟩, ⟨.name, b!"fragment", 1, 46⟩, ⟨.name, b!"F", 1, 55⟩, ⟨.name, b!"on", 1, 57⟩, ⟨.name, b!"Boolean", 1, 60⟩, ⟨.punctuator, b!"{", 1, 67⟩, ⟨.name, b!"a", 1, 68⟩, ⟨.punctuator, b!"}", 1, 69⟩, ⟨.eof, [], 1, 70⟩]) (by decide) rfl) rfl)).2, rfl⟩

/-- Some document that `ParseDoc` accepts, with a schema that `ParseSDLDoc` returns, does not have the property. -/
def AcceptedWithout (P : Schema → Document → Prop) : Prop :=
  ∃ sdl input r s d, SDLDocReturns pf plainOrders sdl none r ∧ r.schema = some s ∧ parseDoc pf input (some s) = .ret ⟨some d, none, none⟩ ∧ ¬ P s d

theorem operationsOnce_missed : AcceptedWithout pf OperationsOnce :=
  ⟨b!"type Query{a:String b(x:ID!):Query}", b!"query A{a} query A{a}", _, _, _, ⟨9, by unfold parseSDLDoc; rw [(parse_eq (ts := [⟨.name, b!"type", 1, 1⟩, ⟨.name, b!"Query", 1, 6⟩, ⟨.punctuator, b!"{", 1, 11⟩, ⟨.name, b!"a", 1, 12⟩, ⟨.punctuator, b!":", 1, 13⟩, ⟨.name, b!"String", 1, 14⟩, ⟨.name, b!"b", 1, 21⟩, ⟨.punctuator, b!"(", 1, 22⟩, ⟨.name, b!"x", 1, 23⟩, ⟨.punctuator, b!":", 1, 24⟩, ⟨.name, b!"ID", 1, 25⟩, ⟨.punctuator, b!"!", 1, 27⟩, ⟨.punctuator, b!")", 1, 28⟩, ⟨.punctuator, b!":", 1, 29⟩, ⟨.name, b!"Query", 1, 30⟩, ⟨.punctuator, b!"}", 1, 35⟩, ⟨.eof, [], 1, 36⟩]) (by decide) rfl)]; rfl⟩, rfl, parseDoc_ok (parse_eq (ts := [⟨.name, b!"query", 1, 1⟩, ⟨.name, b!"A", 1, 7⟩, ⟨.punctuator, b!"{", 1, 8⟩, ⟨.name, b!"a", 1, 9⟩, ⟨.punctuator, b!"}", 1, 10⟩, ⟨.name, b!"query", 1, 12⟩, ⟨.name, b!"A", 1, 18⟩, ⟨.punctuator, b!"{", 1, 19⟩, ⟨.name, b!"a", 1, 20⟩, ⟨.punctuator, b!"}", 1, 21⟩, ⟨.eof, [], 1, 22⟩]) (by decide) rfl) rfl, by unfold OperationsOnce; decide⟩

theorem oneSubscription_missed : AcceptedWithout pf OneSubscription :=
  ⟨b!"type Query{a:String b(x:ID!):Query}", b!"subscription{a b}", _, _, _, ⟨9, by unfold parseSDLDoc; rw [(parse_eq (ts := [⟨.name, b!"type", 1, 1⟩, ⟨.name, b!"Query", 1, 6⟩, ⟨.punctuator, b!"{", 1, 11⟩, ⟨.name, b!"a", 1, 12⟩, ⟨.punctuator, b!":", 1, 13⟩, ⟨.name, b!"String", 1, 14⟩, ⟨.name, b!"b", 1, 21⟩, ⟨.punctuator, b!"(", 1, 22⟩, ⟨.name, b!"x", 1, 23⟩, ⟨.punctuator, b!":", 1, 24⟩, ⟨.name, b!"ID", 1, 25⟩, ⟨.punctuator, b!"!", 1, 27⟩, ⟨.punctuator, b!")", 1, 28⟩, ⟨.punctuator, b!":", 1, 29⟩, ⟨.name, b!"Query", 1, 30⟩, ⟨.punctuator, b!"}", 1, 35⟩, ⟨.eof, [], 1, 36⟩]) (by decide) rfl)]; rfl⟩, rfl, parseDoc_ok (parse_eq (ts := [⟨.name, b!"subscription", 1, 1⟩, ⟨.punctuator, b!"{", 1, 13⟩, ⟨.name, b!"a", 1, 14⟩, ⟨.name, b!"b", 1, 16⟩, ⟨.punctuator, b!"}", 1, 17⟩, ⟨.eof, [], 1, 18⟩]) (by decide) rfl) rfl, fun h => absurd (h _ (.head _) rfl) (by decide)⟩

theorem fieldsExist_missed : AcceptedWithout pf FieldsExist :=
  ⟨b!"type Query{a:String b(x:ID!):Query}", b!"{z}", _, _, _, ⟨9, by unfold parseSDLDoc; rw [(parse_eq (ts := [⟨.name, b!"type", 1, 1⟩, ⟨.name, b!"Query", 1, 6⟩, ⟨.punctuator, b!"{", 1, 11⟩, ⟨.name, b!"a", 1, 12⟩, ⟨.punctuator, b!":", 1, 13⟩, ⟨.name, b!"String", 1, 14⟩, ⟨.name, b!"b", 1, 21⟩, ⟨.punctuator, b!"(", 1, 22⟩, ⟨.name, b!"x", 1, 23⟩, ⟨.punctuator, b!":", 1, 24⟩, ⟨.name, b!"ID", 1, 25⟩, ⟨.punctuator, b!"!", 1, 27⟩, ⟨.punctuator, b!")", 1, 28⟩, ⟨.punctuator, b!":", 1, 29⟩, ⟨.name, b!"Query", 1, 30⟩, ⟨.punctuator, b!"}", 1, 35⟩, ⟨.eof, [], 1, 36⟩]) (by decide) rfl)]; rfl⟩, rfl, parseDoc_ok (parse_eq (ts := [⟨.punctuator, b!"{", 1, 1⟩, ⟨.name, b!"z", 1, 2⟩, ⟨.punctuator, b!"}", 1, 3⟩, ⟨.eof, [], 1, 4⟩]) (by decide) rfl) rfl, fun h => by
    obtain ⟨t, ht, f, hf, e⟩ := h _ (.head _) rfl _ _ _ _ _ (.head _)
    cases ht
    cases hf with
    | head => exact absurd e (by decide)
    | tail _ hf =>
      cases hf with
      | head => exact absurd e (by decide)
      | tail _ hf => cases hf⟩

theorem fieldsMerge_missed : AcceptedWithout pf FieldsMerge :=
  ⟨b!"type Query{a:String b(x:ID!):Query}", b!"{x:a x:b}", _, _, _, ⟨9, by unfold parseSDLDoc; rw [(parse_eq (ts := [⟨.name, b!"type", 1, 1⟩, ⟨.name, b!"Query", 1, 6⟩, ⟨.punctuator, b!"{", 1, 11⟩, ⟨.name, b!"a", 1, 12⟩, ⟨.punctuator, b!":", 1, 13⟩, ⟨.name, b!"String", 1, 14⟩, ⟨.name, b!"b", 1, 21⟩, ⟨.punctuator, b!"(", 1, 22⟩, ⟨.name, b!"x", 1, 23⟩, ⟨.punctuator, b!":", 1, 24⟩, ⟨.name, b!"ID", 1, 25⟩, ⟨.punctuator, b!"!", 1, 27⟩, ⟨.punctuator, b!")", 1, 28⟩, ⟨.punctuator, b!":", 1, 29⟩, ⟨.name, b!"Query", 1, 30⟩, ⟨.punctuator, b!"}", 1, 35⟩, ⟨.eof, [], 1, 36⟩]) (by decide) rfl)]; rfl⟩, rfl, parseDoc_ok (parse_eq (ts := [⟨.punctuator, b!"{", 1, 1⟩, ⟨.name, b!"x", 1, 2⟩, ⟨.punctuator, b!":", 1, 3⟩, ⟨.name, b!"a", 1, 4⟩, ⟨.name, b!"x", 1, 6⟩, ⟨.punctuator, b!":", 1, 7⟩, ⟨.name, b!"b", 1, 8⟩, ⟨.punctuator, b!"}", 1, 9⟩, ⟨.eof, [], 1, 10⟩]) (by decide) rfl) rfl, fun h => absurd (h _ (.head _) _ _ _ _ _ _ _ _ _ _ (.head _) (.tail _ (.head _)) rfl) (by decide)⟩

theorem objectsSelected_missed : AcceptedWithout pf ObjectsSelected :=
  ⟨b!"type Query{a:String b(x:ID!):Query}", b!"{b(x:1)}", _, _, _, ⟨9, by unfold parseSDLDoc; rw [(parse_eq (ts := [⟨.name, b!"type", 1, 1⟩, ⟨.name, b!"Query", 1, 6⟩, ⟨.punctuator, b!"{", 1, 11⟩, ⟨.name, b!"a", 1, 12⟩, ⟨.punctuator, b!":", 1, 13⟩, ⟨.name, b!"String", 1, 14⟩, ⟨.name, b!"b", 1, 21⟩, ⟨.punctuator, b!"(", 1, 22⟩, ⟨.name, b!"x", 1, 23⟩, ⟨.punctuator, b!":", 1, 24⟩, ⟨.name, b!"ID", 1, 25⟩, ⟨.punctuator, b!"!", 1, 27⟩, ⟨.punctuator, b!")", 1, 28⟩, ⟨.punctuator, b!":", 1, 29⟩, ⟨.name, b!"Query", 1, 30⟩, ⟨.punctuator, b!"}", 1, 35⟩, ⟨.eof, [], 1, 36⟩]) (by decide) rfl)]; rfl⟩, rfl, parseDoc_ok (parse_eq (ts := [⟨.punctuator, b!"{", 1, 1⟩, ⟨.name, b!"b", 1, 2⟩, ⟨.punctuator, b!"(", 1, 3⟩, ⟨.name, b!"x", 1, 4⟩, ⟨.punctuator, b!":", 1, 5⟩, ⟨.intValue, b!"1", 1, 6⟩, ⟨.punctuator, b!")", 1, 7⟩, ⟨.punctuator, b!"}", 1, 8⟩, ⟨.eof, [], 1, 9⟩]) (by decide) rfl) rfl, fun h => h _ _ _ _ _ _ ⟨_, .head _, rfl, .head _, _, _, _, _, _, rfl, _, rfl, .tail _ (.head _), rfl⟩ _ rfl ⟨_, rfl, rfl⟩ rfl⟩

theorem scalarsSelected_missed : AcceptedWithout pf ScalarsSelected :=
  ⟨b!"type Query{a:String b(x:ID!):Query}", b!"{a{z}}", _, _, _, ⟨9, by unfold parseSDLDoc; rw [(parse_eq (ts := [⟨.name, b!"type", 1, 1⟩, ⟨.name, b!"Query", 1, 6⟩, ⟨.punctuator, b!"{", 1, 11⟩, ⟨.name, b!"a", 1, 12⟩, ⟨.punctuator, b!":", 1, 13⟩, ⟨.name, b!"String", 1, 14⟩, ⟨.name, b!"b", 1, 21⟩, ⟨.punctuator, b!"(", 1, 22⟩, ⟨.name, b!"x", 1, 23⟩, ⟨.punctuator, b!":", 1, 24⟩, ⟨.name, b!"ID", 1, 25⟩, ⟨.punctuator, b!"!", 1, 27⟩, ⟨.punctuator, b!")", 1, 28⟩, ⟨.punctuator, b!":", 1, 29⟩, ⟨.name, b!"Query", 1, 30⟩, ⟨.punctuator, b!"}", 1, 35⟩, ⟨.eof, [], 1, 36⟩]) (by decide) rfl)]; rfl⟩, rfl, parseDoc_ok (parse_eq (ts := [⟨.punctuator, b!"{", 1, 1⟩, ⟨.name, b!"a", 1, 2⟩, ⟨.punctuator, b!"{", 1, 3⟩, ⟨.name, b!"z", 1, 4⟩, ⟨.punctuator, b!"}", 1, 5⟩, ⟨.punctuator, b!"}", 1, 6⟩, ⟨.eof, [], 1, 7⟩]) (by decide) rfl) rfl, fun h => absurd (h _ _ _ _ _ _ ⟨_, .head _, rfl, .head _, _, _, _, _, _, rfl, _, rfl, .head _, rfl⟩ _ rfl ⟨_, rfl, rfl⟩) (by simp)⟩

theorem argumentsExist_missed : AcceptedWithout pf ArgumentsExist :=
  ⟨b!"type Query{a:String b(x:ID!):Query}", b!"{a(z:1)}", _, _, _, ⟨9, by unfold parseSDLDoc; rw [(parse_eq (ts := [⟨.name, b!"type", 1, 1⟩, ⟨.name, b!"Query", 1, 6⟩, ⟨.punctuator, b!"{", 1, 11⟩, ⟨.name, b!"a", 1, 12⟩, ⟨.punctuator, b!":", 1, 13⟩, ⟨.name, b!"String", 1, 14⟩, ⟨.name, b!"b", 1, 21⟩, ⟨.punctuator, b!"(", 1, 22⟩, ⟨.name, b!"x", 1, 23⟩, ⟨.punctuator, b!":", 1, 24⟩, ⟨.name, b!"ID", 1, 25⟩, ⟨.punctuator, b!"!", 1, 27⟩, ⟨.punctuator, b!")", 1, 28⟩, ⟨.punctuator, b!":", 1, 29⟩, ⟨.name, b!"Query", 1, 30⟩, ⟨.punctuator, b!"}", 1, 35⟩, ⟨.eof, [], 1, 36⟩]) (by decide) rfl)]; rfl⟩, rfl, parseDoc_ok (parse_eq (ts := [⟨.punctuator, b!"{", 1, 1⟩, ⟨.name, b!"a", 1, 2⟩, ⟨.punctuator, b!"(", 1, 3⟩, ⟨.name, b!"z", 1, 4⟩, ⟨.punctuator, b!":", 1, 5⟩, ⟨.intValue, b!"1", 1, 6⟩, ⟨.punctuator, b!")", 1, 7⟩, ⟨.punctuator, b!"}", 1, 8⟩, ⟨.eof, [], 1, 9⟩]) (by decide) rfl) rfl, fun h => by
    obtain ⟨y, hy, -⟩ := h _ _ _ _ _ _ ⟨_, .head _, rfl, .head _, _, _, _, _, _, rfl, _, rfl, .head _, rfl⟩ _ (.head _)
    cases hy⟩

theorem argumentsGiven_missed : AcceptedWithout pf ArgumentsGiven :=
  ⟨b!"type Query{a:String b(x:ID!):Query}", b!"{b{a}}", _, _, _, ⟨9, by unfold parseSDLDoc; rw [(parse_eq (ts := [⟨.name, b!"type", 1, 1⟩, ⟨.name, b!"Query", 1, 6⟩, ⟨.punctuator, b!"{", 1, 11⟩, ⟨.name, b!"a", 1, 12⟩, ⟨.punctuator, b!":", 1, 13⟩, ⟨.name, b!"String", 1, 14⟩, ⟨.name, b!"b", 1, 21⟩, ⟨.punctuator, b!"(", 1, 22⟩, ⟨.name, b!"x", 1, 23⟩, ⟨.punctuator, b!":", 1, 24⟩, ⟨.name, b!"ID", 1, 25⟩, ⟨.punctuator, b!"!", 1, 27⟩, ⟨.punctuator, b!")", 1, 28⟩, ⟨.punctuator, b!":", 1, 29⟩, ⟨.name, b!"Query", 1, 30⟩, ⟨.punctuator, b!"}", 1, 35⟩, ⟨.eof, [], 1, 36⟩]) (by decide) rfl)]; rfl⟩, rfl, parseDoc_ok (parse_eq (ts := [⟨.punctuator, b!"{", 1, 1⟩, ⟨.name, b!"b", 1, 2⟩, ⟨.punctuator, b!"{", 1, 3⟩, ⟨.name, b!"a", 1, 4⟩, ⟨.punctuator, b!"}", 1, 5⟩, ⟨.punctuator, b!"}", 1, 6⟩, ⟨.eof, [], 1, 7⟩]) (by decide) rfl) rfl, fun h => by
    obtain ⟨y, hy, -⟩ := h _ _ _ _ _ _ ⟨_, .head _, rfl, .head _, _, _, _, _, _, rfl, _, rfl, .tail _ (.head _), rfl⟩ _ (.head _) rfl rfl
    cases hy⟩

theorem fragmentsOnce_missed : AcceptedWithout pf FragmentsOnce :=
  ⟨b!"type Query{a:String b(x:ID!):Query}", b!"{...F} fragment F on Query{a} fragment F on Query{a}", _, _, _, ⟨9, by unfold parseSDLDoc; rw [(parse_eq (ts := [⟨.name, b!"type", 1, 1⟩, ⟨.name, b!"Query", 1, 6⟩, ⟨.punctuator, b!"{", 1, 11⟩, ⟨.name, b!"a", 1, 12⟩, ⟨.punctuator, b!":", 1, 13⟩, ⟨.name, b!"String", 1, 14⟩, ⟨.name, b!"b", 1, 21⟩, ⟨.punctuator, b!"(", 1, 22⟩, ⟨.name, b!"x", 1, 23⟩, ⟨.punctuator, b!":", 1, 24⟩, ⟨.name, b!"ID", 1, 25⟩, ⟨.punctuator, b!"!", 1, 27⟩, ⟨.punctuator, b!")", 1, 28⟩, ⟨.punctuator, b!":", 1, 29⟩, ⟨.name, b!"Query", 1, 30⟩, ⟨.punctuator, b!"}", 1, 35⟩, ⟨.eof, [], 1, 36⟩]) (by decide) rfl)]; rfl⟩, rfl, parseDoc_ok (parse_eq (ts := [⟨.punctuator, b!"{", 1, 1⟩, ⟨.punctuator, b!"...", 1, 2⟩, ⟨.name, b!"F", 1, 5⟩, ⟨.punctuator, b!"}", 1, 6⟩, ⟨.name, b!"fragment", 1, 8⟩, ⟨.name, b!"F", 1, 17⟩, ⟨.name, b!"on", 1, 19⟩, ⟨.name, b!"Query", 1, 22⟩, ⟨.punctuator, b!"{", 1, 27⟩, ⟨.name, b!"a", 1, 28⟩, ⟨.punctuator, b!"}", 1, 29⟩, ⟨.name, b!"fragment", 1, 31⟩, ⟨.name, b!"F", 1, 40⟩, ⟨.name, b!"on", 1, 42⟩, ⟨.name, b!"Query", 1, 45⟩, ⟨.punctuator, b!"{", 1, 50⟩, ⟨.name, b!"a", 1, 51⟩, ⟨.punctuator, b!"}", 1, 52⟩, ⟨.eof, [], 1, 53⟩]) (by decide) rfl) rfl, by unfold FragmentsOnce; decide⟩

theorem fragmentsComposite_missed : AcceptedWithout pf FragmentsComposite :=
  ⟨b!"type Query{a:String b(x:ID!):Query}", b!"{...F} fragment F on String{a}", _, _, _, ⟨9, by unfold parseSDLDoc; rw [(parse_eq (ts := [⟨.name, b!"type", 1, 1⟩, ⟨.name, b!"Query", 1, 6⟩, ⟨.punctuator, b!"{", 1, 11⟩, ⟨.name, b!"a", 1, 12⟩, ⟨.punctuator, b!":", 1, 13⟩, ⟨.name, b!"String", 1, 14⟩, ⟨.name, b!"b", 1, 21⟩, ⟨.punctuator, b!"(", 1, 22⟩, ⟨.name, b!"x", 1, 23⟩, ⟨.punctuator, b!":", 1, 24⟩, ⟨.name, b!"ID", 1, 25⟩, ⟨.punctuator, b!"!", 1, 27⟩, ⟨.punctuator, b!")", 1, 28⟩, ⟨.punctuator, b!":", 1, 29⟩, ⟨.name, b!"Query", 1, 30⟩, ⟨.punctuator, b!"}", 1, 35⟩, ⟨.eof, [], 1, 36⟩]) (by decide) rfl)]; rfl⟩, rfl, parseDoc_ok (parse_eq (ts := [⟨.punctuator, b!"{", 1, 1⟩, ⟨.punctuator, b!"...", 1, 2⟩, ⟨.name, b!"F", 1, 5⟩, ⟨.punctuator, b!"}", 1, 6⟩, ⟨.name, b!"fragment", 1, 8⟩, ⟨.name, b!"F", 1, 17⟩, ⟨.name, b!"on", 1, 19⟩, ⟨.name, b!"String", 1, 22⟩, ⟨.punctuator, b!"{", 1, 28⟩, ⟨.name, b!"a", 1, 29⟩, ⟨.punctuator, b!"}", 1, 30⟩, ⟨.eof, [], 1, 31⟩]) (by decide) rfl) rfl, fun h => by
    rcases h _ (.head _) with ⟨d, h, k⟩ | ⟨d, h, k⟩ | ⟨d, h, k⟩ <;> · cases h; cases k⟩

theorem fragmentsUsed_missed : AcceptedWithout pf FragmentsUsed :=
  ⟨b!"type Query{a:String b(x:ID!):Query}", b!"{a} fragment F on Query{a}", _, _, _, ⟨9, by unfold parseSDLDoc; rw [(parse_eq (ts := [⟨.name, b!"type", 1, 1⟩, ⟨.name, b!"Query", 1, 6⟩, ⟨.punctuator, b!"{", 1, 11⟩, ⟨.name, b!"a", 1, 12⟩, ⟨.punctuator, b!":", 1, 13⟩, ⟨.name, b!"String", 1, 14⟩, ⟨.name, b!"b", 1, 21⟩, ⟨.punctuator, b!"(", 1, 22⟩, ⟨.name, b!"x", 1, 23⟩, ⟨.punctuator, b!":", 1, 24⟩, ⟨.name, b!"ID", 1, 25⟩, ⟨.punctuator, b!"!", 1, 27⟩, ⟨.punctuator, b!")", 1, 28⟩, ⟨.punctuator, b!":", 1, 29⟩, ⟨.name, b!"Query", 1, 30⟩, ⟨.punctuator, b!"}", 1, 35⟩, ⟨.eof, [], 1, 36⟩]) (by decide) rfl)]; rfl⟩, rfl, parseDoc_ok (parse_eq (ts := [⟨.punctuator, b!"{", 1, 1⟩, ⟨.name, b!"a", 1, 2⟩, ⟨.punctuator, b!"}", 1, 3⟩, ⟨.name, b!"fragment", 1, 5⟩, ⟨.name, b!"F", 1, 14⟩, ⟨.name, b!"on", 1, 16⟩, ⟨.name, b!"Query", 1, 19⟩, ⟨.punctuator, b!"{", 1, 24⟩, ⟨.name, b!"a", 1, 25⟩, ⟨.punctuator, b!"}", 1, 26⟩, ⟨.eof, [], 1, 27⟩]) (by decide) rfl) rfl, fun h => by
    obtain ⟨d, hd, ds, hs⟩ := h _ (.head _)
    rcases hd with _ | ⟨_, hd⟩
    · repeat (rcases hs with _ | ⟨_, hs⟩)
    · rcases hd with _ | ⟨_, hd⟩
      · repeat (rcases hs with _ | ⟨_, hs⟩)
      · cases hd⟩

theorem spreadsDefined_missed : AcceptedWithout pf SpreadsDefined :=
  ⟨b!"type Query{a:String b(x:ID!):Query}", b!"{...F}", _, _, _, ⟨9, by unfold parseSDLDoc; rw [(parse_eq (ts := [⟨.name, b!"type", 1, 1⟩, ⟨.name, b!"Query", 1, 6⟩, ⟨.punctuator, b!"{", 1, 11⟩, ⟨.name, b!"a", 1, 12⟩, ⟨.punctuator, b!":", 1, 13⟩, ⟨.name, b!"String", 1, 14⟩, ⟨.name, b!"b", 1, 21⟩, ⟨.punctuator, b!"(", 1, 22⟩, ⟨.name, b!"x", 1, 23⟩, ⟨.punctuator, b!":", 1, 24⟩, ⟨.name, b!"ID", 1, 25⟩, ⟨.punctuator, b!"!", 1, 27⟩, ⟨.punctuator, b!")", 1, 28⟩, ⟨.punctuator, b!":", 1, 29⟩, ⟨.name, b!"Query", 1, 30⟩, ⟨.punctuator, b!"}", 1, 35⟩, ⟨.eof, [], 1, 36⟩]) (by decide) rfl)]; rfl⟩, rfl, parseDoc_ok (parse_eq (ts := [⟨.punctuator, b!"{", 1, 1⟩, ⟨.punctuator, b!"...", 1, 2⟩, ⟨.name, b!"F", 1, 5⟩, ⟨.punctuator, b!"}", 1, 6⟩, ⟨.eof, [], 1, 7⟩]) (by decide) rfl) rfl, fun h => by
    obtain ⟨f, hf, -⟩ := h _ (.head _) b!"F" ⟨_, (by repeat (first | exact List.Mem.head _ | apply List.Mem.tail))⟩
    cases hf⟩

theorem noCycles_missed : AcceptedWithout pf NoCycles :=
  ⟨b!"type Query{a:String b(x:ID!):Query}", b!"{...F} fragment F on Query{...F}", _, _, _, ⟨9, by unfold parseSDLDoc; rw [(parse_eq (ts := [⟨.name, b!"type", 1, 1⟩, ⟨.name, b!"Query", 1, 6⟩, ⟨.punctuator, b!"{", 1, 11⟩, ⟨.name, b!"a", 1, 12⟩, ⟨.punctuator, b!":", 1, 13⟩, ⟨.name, b!"String", 1, 14⟩, ⟨.name, b!"b", 1, 21⟩, ⟨.punctuator, b!"(", 1, 22⟩, ⟨.name, b!"x", 1, 23⟩, ⟨.punctuator, b!":", 1, 24⟩, ⟨.name, b!"ID", 1, 25⟩, ⟨.punctuator, b!"!", 1, 27⟩, ⟨.punctuator, b!")", 1, 28⟩, ⟨.punctuator, b!":", 1, 29⟩, ⟨.name, b!"Query", 1, 30⟩, ⟨.punctuator, b!"}", 1, 35⟩, ⟨.eof, [], 1, 36⟩]) (by decide) rfl)]; rfl⟩, rfl, parseDoc_ok (parse_eq (ts := [⟨.punctuator, b!"{", 1, 1⟩, ⟨.punctuator, b!"...", 1, 2⟩, ⟨.name, b!"F", 1, 5⟩, ⟨.punctuator, b!"}", 1, 6⟩, ⟨.name, b!"fragment", 1, 8⟩, ⟨.name, b!"F", 1, 17⟩, ⟨.name, b!"on", 1, 19⟩, ⟨.name, b!"Query", 1, 22⟩, ⟨.punctuator, b!"{", 1, 27⟩, ⟨.punctuator, b!"...", 1, 28⟩, ⟨.name, b!"F", 1, 31⟩, ⟨.punctuator, b!"}", 1, 32⟩, ⟨.eof, [], 1, 33⟩]) (by decide) rfl) rfl, fun h => h _ (.tail _ (.head _)) (.one ⟨.tail _ (.head _), b!"F", ⟨_, (by repeat (first | exact List.Mem.head _ | apply List.Mem.tail))⟩, _, rfl, rfl⟩)⟩

theorem valuesFit_missed : AcceptedWithout pf ValuesFit :=
  ⟨b!"type Query{a:String b(x:ID!):Query}", b!"{b(x:true){a}}", _, _, _, ⟨9, by unfold parseSDLDoc; rw [(parse_eq (ts := [⟨.name, b!"type", 1, 1⟩, ⟨.name, b!"Query", 1, 6⟩, ⟨.punctuator, b!"{", 1, 11⟩, ⟨.name, b!"a", 1, 12⟩, ⟨.punctuator, b!":", 1, 13⟩, ⟨.name, b!"String", 1, 14⟩, ⟨.name, b!"b", 1, 21⟩, ⟨.punctuator, b!"(", 1, 22⟩, ⟨.name, b!"x", 1, 23⟩, ⟨.punctuator, b!":", 1, 24⟩, ⟨.name, b!"ID", 1, 25⟩, ⟨.punctuator, b!"!", 1, 27⟩, ⟨.punctuator, b!")", 1, 28⟩, ⟨.punctuator, b!":", 1, 29⟩, ⟨.name, b!"Query", 1, 30⟩, ⟨.punctuator, b!"}", 1, 35⟩, ⟨.eof, [], 1, 36⟩]) (by decide) rfl)]; rfl⟩, rfl, parseDoc_ok (parse_eq (ts := [⟨.punctuator, b!"{", 1, 1⟩, ⟨.name, b!"b", 1, 2⟩, ⟨.punctuator, b!"(", 1, 3⟩, ⟨.name, b!"x", 1, 4⟩, ⟨.punctuator, b!":", 1, 5⟩, ⟨.name, b!"true", 1, 6⟩, ⟨.punctuator, b!")", 1, 10⟩, ⟨.punctuator, b!"{", 1, 11⟩, ⟨.name, b!"a", 1, 12⟩, ⟨.punctuator, b!"}", 1, 13⟩, ⟨.punctuator, b!"}", 1, 14⟩, ⟨.eof, [], 1, 15⟩]) (by decide) rfl) rfl, fun h => h _ _ _ _ _ _ ⟨_, .head _, rfl, .head _, _, _, _, _, _, rfl, _, rfl, .tail _ (.head _), rfl⟩ _ (.head _) _ (.head _) rfl rfl _ rfl⟩

theorem variablesOnce_missed : AcceptedWithout pf VariablesOnce :=
  ⟨b!"type Query{a:String b(x:ID!):Query}", b!"query($v:ID $v:ID){b(x:$v){a}}", _, _, _, ⟨9, by unfold parseSDLDoc; rw [(parse_eq (ts := [⟨.name, b!"type", 1, 1⟩, ⟨.name, b!"Query", 1, 6⟩, ⟨.punctuator, b!"{", 1, 11⟩, ⟨.name, b!"a", 1, 12⟩, ⟨.punctuator, b!":", 1, 13⟩, ⟨.name, b!"String", 1, 14⟩, ⟨.name, b!"b", 1, 21⟩, ⟨.punctuator, b!"(", 1, 22⟩, ⟨.name, b!"x", 1, 23⟩, ⟨.punctuator, b!":", 1, 24⟩, ⟨.name, b!"ID", 1, 25⟩, ⟨.punctuator, b!"!", 1, 27⟩, ⟨.punctuator, b!")", 1, 28⟩, ⟨.punctuator, b!":", 1, 29⟩, ⟨.name, b!"Query", 1, 30⟩, ⟨.punctuator, b!"}", 1, 35⟩, ⟨.eof, [], 1, 36⟩]) (by decide) rfl)]; rfl⟩, rfl, parseDoc_ok (parse_eq (ts := [⟨.name, b!"query", 1, 1⟩, ⟨.punctuator, b!"(", 1, 6⟩, ⟨.punctuator, b!"$", 1, 7⟩, ⟨.name, b!"v", 1, 8⟩, ⟨.punctuator, b!":", 1, 9⟩, ⟨.name, b!"ID", 1, 10⟩, ⟨.punctuator, b!"$", 1, 13⟩, ⟨.name, b!"v", 1, 14⟩, ⟨.punctuator, b!":", 1, 15⟩, ⟨.name, b!"ID", 1, 16⟩, ⟨.punctuator, b!")", 1, 18⟩, ⟨.punctuator, b!"{", 1, 19⟩, ⟨.name, b!"b", 1, 20⟩, ⟨.punctuator, b!"(", 1, 21⟩, ⟨.name, b!"x", 1, 22⟩, ⟨.punctuator, b!":", 1, 23⟩, ⟨.punctuator, b!"$", 1, 24⟩, ⟨.name, b!"v", 1, 25⟩, ⟨.punctuator, b!")", 1, 26⟩, ⟨.punctuator, b!"{", 1, 27⟩, ⟨.name, b!"a", 1, 28⟩, ⟨.punctuator, b!"}", 1, 29⟩, ⟨.punctuator, b!"}", 1, 30⟩, ⟨.eof, [], 1, 31⟩]) (by decide) rfl) rfl, fun h => absurd (h _ (.head _)) (by decide)⟩

theorem variablesInput_missed : AcceptedWithout pf VariablesInput :=
  ⟨b!"type Query{a:String b(x:ID!):Query}", b!"query($v:Query){b(x:$v){a}}", _, _, _, ⟨9, by unfold parseSDLDoc; rw [(parse_eq (ts := [⟨.name, b!"type", 1, 1⟩, ⟨.name, b!"Query", 1, 6⟩, ⟨.punctuator, b!"{", 1, 11⟩, ⟨.name, b!"a", 1, 12⟩, ⟨.punctuator, b!":", 1, 13⟩, ⟨.name, b!"String", 1, 14⟩, ⟨.name, b!"b", 1, 21⟩, ⟨.punctuator, b!"(", 1, 22⟩, ⟨.name, b!"x", 1, 23⟩, ⟨.punctuator, b!":", 1, 24⟩, ⟨.name, b!"ID", 1, 25⟩, ⟨.punctuator, b!"!", 1, 27⟩, ⟨.punctuator, b!")", 1, 28⟩, ⟨.punctuator, b!":", 1, 29⟩, ⟨.name, b!"Query", 1, 30⟩, ⟨.punctuator, b!"}", 1, 35⟩, ⟨.eof, [], 1, 36⟩]) (by decide) rfl)]; rfl⟩, rfl, parseDoc_ok (parse_eq (ts := [⟨.name, b!"query", 1, 1⟩, ⟨.punctuator, b!"(", 1, 6⟩, ⟨.punctuator, b!"$", 1, 7⟩, ⟨.name, b!"v", 1, 8⟩, ⟨.punctuator, b!":", 1, 9⟩, ⟨.name, b!"Query", 1, 10⟩, ⟨.punctuator, b!")", 1, 15⟩, ⟨.punctuator, b!"{", 1, 16⟩, ⟨.name, b!"b", 1, 17⟩, ⟨.punctuator, b!"(", 1, 18⟩, ⟨.name, b!"x", 1, 19⟩, ⟨.punctuator, b!":", 1, 20⟩, ⟨.punctuator, b!"$", 1, 21⟩, ⟨.name, b!"v", 1, 22⟩, ⟨.punctuator, b!")", 1, 23⟩, ⟨.punctuator, b!"{", 1, 24⟩, ⟨.name, b!"a", 1, 25⟩, ⟨.punctuator, b!"}", 1, 26⟩, ⟨.punctuator, b!"}", 1, 27⟩, ⟨.eof, [], 1, 28⟩]) (by decide) rfl) rfl, fun h => by
    obtain ⟨n, hn, ⟨d, h, k⟩ | ⟨d, h, k⟩ | ⟨d, h, k⟩⟩ := h _ (.head _) _ (.head _) <;> · cases hn; cases h; cases k⟩

theorem variablesDeclared_missed : AcceptedWithout pf VariablesDeclared :=
  ⟨b!"type Query{a:String b(x:ID!):Query}", b!"{b(x:$v){a}}", _, _, _, ⟨9, by unfold parseSDLDoc; rw [(parse_eq (ts := [⟨.name, b!"type", 1, 1⟩, ⟨.name, b!"Query", 1, 6⟩, ⟨.punctuator, b!"{", 1, 11⟩, ⟨.name, b!"a", 1, 12⟩, ⟨.punctuator, b!":", 1, 13⟩, ⟨.name, b!"String", 1, 14⟩, ⟨.name, b!"b", 1, 21⟩, ⟨.punctuator, b!"(", 1, 22⟩, ⟨.name, b!"x", 1, 23⟩, ⟨.punctuator, b!":", 1, 24⟩, ⟨.name, b!"ID", 1, 25⟩, ⟨.punctuator, b!"!", 1, 27⟩, ⟨.punctuator, b!")", 1, 28⟩, ⟨.punctuator, b!":", 1, 29⟩, ⟨.name, b!"Query", 1, 30⟩, ⟨.punctuator, b!"}", 1, 35⟩, ⟨.eof, [], 1, 36⟩]) (by decide) rfl)]; rfl⟩, rfl, parseDoc_ok (parse_eq (ts := [⟨.punctuator, b!"{", 1, 1⟩, ⟨.name, b!"b", 1, 2⟩, ⟨.punctuator, b!"(", 1, 3⟩, ⟨.name, b!"x", 1, 4⟩, ⟨.punctuator, b!":", 1, 5⟩, ⟨.punctuator, b!"$", 1, 6⟩, ⟨.name, b!"v", 1, 7⟩, ⟨.punctuator, b!")", 1, 8⟩, ⟨.punctuator, b!"{", 1, 9⟩, ⟨.name, b!"a", 1, 10⟩, ⟨.punctuator, b!"}", 1, 11⟩, ⟨.punctuator, b!"}", 1, 12⟩, ⟨.eof, [], 1, 13⟩]) (by decide) rfl) rfl, fun h => by
    obtain ⟨v, hv, -⟩ := h _ (.head _) _ rfl b!"v" (.inl (by repeat (first | exact List.Mem.head _ | apply List.Mem.tail)))
    cases hv⟩

theorem variablesFit_missed : AcceptedWithout pf VariablesFit :=
  ⟨b!"type Query{a:String b(x:ID!):Query}", b!"query($v:ID){b(x:$v){a}}", _, _, _, ⟨9, by unfold parseSDLDoc; rw [(parse_eq (ts := [⟨.name, b!"type", 1, 1⟩, ⟨.name, b!"Query", 1, 6⟩, ⟨.punctuator, b!"{", 1, 11⟩, ⟨.name, b!"a", 1, 12⟩, ⟨.punctuator, b!":", 1, 13⟩, ⟨.name, b!"String", 1, 14⟩, ⟨.name, b!"b", 1, 21⟩, ⟨.punctuator, b!"(", 1, 22⟩, ⟨.name, b!"x", 1, 23⟩, ⟨.punctuator, b!":", 1, 24⟩, ⟨.name, b!"ID", 1, 25⟩, ⟨.punctuator, b!"!", 1, 27⟩, ⟨.punctuator, b!")", 1, 28⟩, ⟨.punctuator, b!":", 1, 29⟩, ⟨.name, b!"Query", 1, 30⟩, ⟨.punctuator, b!"}", 1, 35⟩, ⟨.eof, [], 1, 36⟩]) (by decide) rfl)]; rfl⟩, rfl, parseDoc_ok (parse_eq (ts := [⟨.name, b!"query", 1, 1⟩, ⟨.punctuator, b!"(", 1, 6⟩, ⟨.punctuator, b!"$", 1, 7⟩, ⟨.name, b!"v", 1, 8⟩, ⟨.punctuator, b!":", 1, 9⟩, ⟨.name, b!"ID", 1, 10⟩, ⟨.punctuator, b!")", 1, 12⟩, ⟨.punctuator, b!"{", 1, 13⟩, ⟨.name, b!"b", 1, 14⟩, ⟨.punctuator, b!"(", 1, 15⟩, ⟨.name, b!"x", 1, 16⟩, ⟨.punctuator, b!":", 1, 17⟩, ⟨.punctuator, b!"$", 1, 18⟩, ⟨.name, b!"v", 1, 19⟩, ⟨.punctuator, b!")", 1, 20⟩, ⟨.punctuator, b!"{", 1, 21⟩, ⟨.name, b!"a", 1, 22⟩, ⟨.punctuator, b!"}", 1, 23⟩, ⟨.punctuator, b!"}", 1, 24⟩, ⟨.eof, [], 1, 25⟩]) (by decide) rfl) rfl, fun h => h _ (.head _) _ (.head _) (by decide) rfl _ _ _ _ _ _ (.head _) ⟨_, .head _, rfl, .head _, _, _, _, _, _, rfl, _, rfl, .tail _ (.head _), rfl⟩ _ (.head _) rfl rfl _ (.head _) rfl rfl⟩

/-- **C70 fails as stated**: each of the requirements that `SoundQuery` leaves out is violated by some accepted document. -/
theorem C70_refuted : AcceptedWithout pf OperationsOnce ∧
    AcceptedWithout pf OneSubscription ∧
    AcceptedWithout pf FieldsExist ∧
    AcceptedWithout pf FieldsMerge ∧
    AcceptedWithout pf ObjectsSelected ∧
    AcceptedWithout pf ScalarsSelected ∧
    AcceptedWithout pf ArgumentsExist ∧
    AcceptedWithout pf ArgumentsGiven ∧
    AcceptedWithout pf FragmentsOnce ∧
    AcceptedWithout pf FragmentsComposite ∧
    AcceptedWithout pf FragmentsUsed ∧
    AcceptedWithout pf SpreadsDefined ∧
    AcceptedWithout pf NoCycles ∧
    AcceptedWithout pf ValuesFit ∧
    AcceptedWithout pf VariablesOnce ∧
    AcceptedWithout pf VariablesInput ∧
    AcceptedWithout pf VariablesDeclared ∧
    AcceptedWithout pf VariablesFit :=
  ⟨operationsOnce_missed pf, oneSubscription_missed pf, fieldsExist_missed pf, fieldsMerge_missed pf, objectsSelected_missed pf, scalarsSelected_missed pf, argumentsExist_missed pf, argumentsGiven_missed pf, fragmentsOnce_missed pf, fragmentsComposite_missed pf, fragmentsUsed_missed pf, spreadsDefined_missed pf, noCycles_missed pf, valuesFit_missed pf, variablesOnce_missed pf, variablesInput_missed pf, variablesDeclared_missed pf, variablesFit_missed pf⟩

end

end GQL
