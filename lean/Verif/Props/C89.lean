/-
C89 Accepted query documents can be put together, and operations can be taken out.
-/
import Verif.Props.C70
import Verif.Props.C69
import Verif.Props.C71

namespace GQL
open Spec

/-- The document has the definitions of `a` and those of `b`, in any order. -/
def Spec.Together (a b c : Document) : Prop := (c.defs.map (·.body)).Perm ((a.defs ++ b.defs).map (·.body))

/-- There is an operation without a name beside another operation. -/
def Spec.AnonymousAmong (d : Document) : Prop := (∃ o ∈ operations d.defs, o.name = []) ∧ (operations d.defs).length ≠ 1

section
variable {a b c : Document} (h : Together a b c)
include h

theorem together_nodes {α : Type} {f : ANode → Option α} (hb : Blind f) (h1 : ∀ d, f (.document d) = none) (h2 : ∀ ds, f (.definitions ds) = none) :
    ((Spec.nodes c).filterMap f).Perm ((Spec.nodes a).filterMap f ++ (Spec.nodes b).filterMap f) := by
  rw [nodes_blind hb h1 h2, nodes_blind hb h1 h2, nodes_blind hb h1 h2, ← List.flatMap_append, ← List.map_append]
  exact List.Perm.flatMap_right _ h

theorem together_mem {α : Type} {f : ANode → Option α} (hb : Blind f) (h1 : ∀ d, f (.document d) = none) (h2 : ∀ ds, f (.definitions ds) = none) (x : α) :
    x ∈ (Spec.nodes c).filterMap f ↔ x ∈ (Spec.nodes a).filterMap f ∨ x ∈ (Spec.nodes b).filterMap f := by
  rw [(together_nodes h hb h1 h2).mem_iff, List.mem_append]

theorem together_part {x : Definition} (hx : x ∈ a.defs ∨ x ∈ b.defs) : ∃ y ∈ c.defs, y.body = x.body := by
  have : x.body ∈ c.defs.map (·.body) := h.mem_iff.2 (List.mem_map_of_mem (List.mem_append.2 hx))
  obtain ⟨y, hy, e⟩ := List.mem_map.1 this
  exact ⟨y, hy, e⟩

theorem together_whole {y : Definition} (hy : y ∈ c.defs) : ∃ x, (x ∈ a.defs ∨ x ∈ b.defs) ∧ x.body = y.body := by
  have : y.body ∈ (a.defs ++ b.defs).map (·.body) := h.mem_iff.1 (List.mem_map_of_mem hy)
  obtain ⟨x, hx, e⟩ := List.mem_map.1 this
  exact ⟨x, List.mem_append.1 hx, e⟩

omit h in
/-- Reaching only asks for the fragments to be there. -/
theorem reaches_into {d e : Document} (hs : ∀ x ∈ d.defs, ∀ f, x.body = .frag f → ∃ y ∈ e.defs, y.body = x.body) {x x' : Definition} (hr : Reaches d x x') :
    ∀ y : Definition, x.body = y.body → ∃ y', x'.body = y'.body ∧ Reaches e y y' := by
  have step : ∀ {x x' y : Definition}, x.body = y.body → SpreadsTo d x x' → ∃ y', x'.body = y'.body ∧ SpreadsTo e y y' := by
    rintro x x' y hxy ⟨hm, n, hsp, f, hf, hn⟩
    obtain ⟨y', hy', hb⟩ := hs x' hm f hf
    exact ⟨y', hb.symm, hy', n, (spreads_body hxy n).1 hsp, f, hb.trans hf, hn⟩
  induction hr with
  | one hs1 =>
    intro y hxy
    obtain ⟨y', hb, hs'⟩ := step hxy hs1
    exact ⟨y', hb, .one hs'⟩
  | more hs1 _ ih =>
    intro y hxy
    obtain ⟨y1, hb1, hs'⟩ := step hxy hs1
    obtain ⟨y', hb, hs2⟩ := ih y1 hb1
    exact ⟨y', hb, .more hs' hs2⟩

omit h in
theorem used_into {d e : Document} (hs : ∀ x ∈ d.defs, ∀ f, x.body = .frag f → ∃ y ∈ e.defs, y.body = x.body) {x y : Definition} (hxy : x.body = y.body)
    {v : Bytes} (hu : Used d x v) : Used e y v := by
  rcases hu with hu | ⟨x', hr, hu⟩
  · exact .inl ((usesVar_body hxy v).1 hu)
  · obtain ⟨y', hb, hr'⟩ := reaches_into hs hr y hxy
    exact .inr ⟨y', hr', (usesVar_body hb v).1 hu⟩

theorem together_operations (o : OpDef) : o ∈ operations c.defs ↔ o ∈ operations a.defs ∨ o ∈ operations b.defs := by
  have : ∀ l : List Definition, o ∈ operations l ↔ Body.op o ∈ l.map (·.body) := by
    intro l
    unfold operations
    rw [List.mem_filterMap, List.mem_map]
    refine exists_congr fun x => and_congr_right fun _ => ?_
    cases x.body <;> simp
  rw [this, this, this, h.mem_iff, List.map_append, List.mem_append]

theorem soundQuery_together {schema : Option Schema} (ha : SoundQuery schema a) (hb : SoundQuery schema b) (hn : ¬ AnonymousAmong c) : SoundQuery schema c where
  executable y hy := by
    obtain ⟨x, hx, e⟩ := together_whole h hy
    rw [← e]
    exact hx.elim (ha.executable x) (hb.executable x)
  alone o ho h0 := Classical.byContradiction fun hl => hn ⟨⟨o, ho, h0⟩, hl⟩
  types n hm := ((together_mem h ⟨fun _ _ => rfl, fun _ _ => rfl, fun _ _ => rfl⟩ (fun _ => rfl) (fun _ => rfl) n).1 hm).elim (ha.types n) (hb.types n)
  variablesUsed y hy o ho v hv := by
    obtain ⟨x, hx, e⟩ := together_whole h hy
    rcases hx with hx | hx
    · exact used_into (fun z hz f hf => together_part h (.inl hz)) e (ha.variablesUsed x hx o (e.trans ho) v hv)
    · exact used_into (fun z hz f hf => together_part h (.inr hz)) e (hb.variablesUsed x hx o (e.trans ho) v hv)
  directives n hm := ((together_mem h ⟨fun _ _ => rfl, fun _ _ => rfl, fun _ _ => rfl⟩ (fun _ => rfl) (fun _ => rfl) n).1 hm).elim (ha.directives n) (hb.directives n)
  directivesOnce n hm := ((together_mem h ⟨fun _ _ => rfl, fun _ _ => rfl, fun _ _ => rfl⟩ (fun _ => rfl) (fun _ => rfl) n).1 hm).elim (ha.directivesOnce n) (hb.directivesOnce n)
  argumentsOnce n hm := ((together_mem h ⟨fun _ _ => rfl, fun _ _ => rfl, fun _ _ => rfl⟩ (fun _ => rfl) (fun _ => rfl) n).1 hm).elim (ha.argumentsOnce n) (hb.argumentsOnce n)
  inputFieldsOnce n hm := ((together_mem h ⟨fun _ _ => rfl, fun _ _ => rfl, fun _ _ => rfl⟩ (fun _ => rfl) (fun _ => rfl) n).1 hm).elim (ha.inputFieldsOnce n) (hb.inputFieldsOnce n)

/-- What is left when operations are taken out. -/
theorem soundQuery_without {schema : Option Schema} (hc : SoundQuery schema c) (ho : ∀ x ∈ b.defs, ∃ o, x.body = .op o) : SoundQuery schema a where
  executable x hx := by
    obtain ⟨y, hy, e⟩ := together_part h (.inl hx)
    rw [← e]
    exact hc.executable y hy
  alone o hm h0 := by
    have hl := hc.alone o ((together_operations h o).2 (.inl hm)) h0
    have h1 : (operations c.defs).length = (operations a.defs).length + (operations b.defs).length := by
      have : (operations c.defs).Perm (operations (a.defs ++ b.defs)) := by
        have e : ∀ l : List Definition, operations l = (l.map (·.body)).filterMap fun b => match b with | .op t => some t | _ => none := fun l => by
          rw [List.filterMap_map]; rfl
        rw [e, e]
        exact List.Perm.filterMap _ h
      rw [this.length_eq]
      unfold operations
      rw [List.filterMap_append, List.length_append]
    have : 0 < (operations a.defs).length := List.length_pos_of_mem hm
    omega
  types n hm := hc.types n ((together_mem h ⟨fun _ _ => rfl, fun _ _ => rfl, fun _ _ => rfl⟩ (fun _ => rfl) (fun _ => rfl) n).2 (.inl hm))
  variablesUsed x hx o he v hv := by
    obtain ⟨y, hy, e⟩ := together_part h (.inl hx)
    refine used_into (fun z hz f hf => ?_) e (hc.variablesUsed y hy o (e.trans he) v hv)
    obtain ⟨w, hw, ew⟩ := together_whole h hz
    rcases hw with hw | hw
    · exact ⟨w, hw, ew⟩
    · obtain ⟨o', e'⟩ := ho w hw
      rw [ew, hf] at e'
      cases e'
  directives n hm := hc.directives n ((together_mem h ⟨fun _ _ => rfl, fun _ _ => rfl, fun _ _ => rfl⟩ (fun _ => rfl) (fun _ => rfl) n).2 (.inl hm))
  directivesOnce n hm := hc.directivesOnce n ((together_mem h ⟨fun _ _ => rfl, fun _ _ => rfl, fun _ _ => rfl⟩ (fun _ => rfl) (fun _ => rfl) n).2 (.inl hm))
  argumentsOnce n hm := hc.argumentsOnce n ((together_mem h ⟨fun _ _ => rfl, fun _ _ => rfl, fun _ _ => rfl⟩ (fun _ => rfl) (fun _ => rfl) n).2 (.inl hm))
  inputFieldsOnce n hm := hc.inputFieldsOnce n ((together_mem h ⟨fun _ _ => rfl, fun _ _ => rfl, fun _ _ => rfl⟩ (fun _ => rfl) (fun _ => rfl) n).2 (.inl hm))

end

section
variable (pf : Bytes → Option Nat) (schema : Option Schema)

/-- **C89, putting together** A text with the definitions of two accepted texts is accepted if it has no operation without a name beside another operation. -/
theorem C89_together (ta tb tc : Bytes) (a b c : Document) (ha : parseDoc pf ta schema = .ret ⟨some a, none, none⟩)
    (hb : parseDoc pf tb schema = .ret ⟨some b, none, none⟩) (hc : parse pf tc = .ok c) (h : Together a b c) :
    parseDoc pf tc schema = .ret ⟨some c, none, none⟩ ↔ ¬ AnonymousAmong c := by
  rw [C70_partial] at ha hb
  rw [C70_partial]
  constructor
  · rintro ⟨-, hs⟩ ⟨⟨o, ho, h0⟩, hl⟩
    exact hl (hs.alone o ho h0)
  · exact fun hn => ⟨hc, soundQuery_together h ha.2 hb.2 hn⟩

/-- **C89, one after the other** Two accepted texts, on two lines, are an accepted text with the definitions of both, unless an operation without a name would stand
beside another operation. -/
theorem C89_concat (x y : List Char) (hx : '\x00' ∉ x) (hy : '\x00' ∉ y) (a b : Document) (ha : parseDoc pf (utf8 x) schema = .ret ⟨some a, none, none⟩)
    (hb : parseDoc pf (utf8 y) schema = .ret ⟨some b, none, none⟩) :
    ∃ c, parse pf (utf8 (x ++ '\n' :: y)) = .ok c ∧ c.defs.map (·.body) = (a.defs ++ b.defs).map (·.body) ∧
      (parseDoc pf (utf8 (x ++ '\n' :: y)) schema = .ret ⟨some c, none, none⟩ ↔ ¬ AnonymousAmong c) := by
  have pa := (C70_partial pf _ schema a).1 ha
  have pb := (C70_partial pf _ schema b).1 hb
  obtain ⟨c, hc, e⟩ := C71_queries pf x y hx hy a b pa.1 pb.1 (fun d hd => pa.2.executable d (List.mem_of_getLast? hd))
  exact ⟨c, hc, e, C89_together pf schema _ _ _ a b c ha hb hc (by unfold Together; rw [e])⟩

/-- **C89, taking out** An accepted text remains accepted when operations are taken out of it, as long as the fragments stay. -/
theorem C89_without (ta tc : Bytes) (a b c : Document) (hc : parseDoc pf tc schema = .ret ⟨some c, none, none⟩) (ha : parse pf ta = .ok a)
    (h : Together a b c) (ho : ∀ x ∈ b.defs, ∃ o, x.body = .op o) : parseDoc pf ta schema = .ret ⟨some a, none, none⟩ := by
  rw [C70_partial] at hc ⊢
  exact ⟨ha, soundQuery_without h hc.2 ho⟩

set_option maxRecDepth 4000 in
/-- Two texts and both of them one after the other, to which the theorems apply. -/
example : ∃ a b c, parseDoc pf b!"query Q($v: ID) {...F} fragment F on ID {a(x: $v)}" none = .ret ⟨some a, none, none⟩ ∧
    parseDoc pf b!"query R {b}" none = .ret ⟨some b, none, none⟩ ∧
    parse pf b!"query R {b} fragment F on ID {a(x: $v)} query Q($v: ID) {...F}" = .ok c ∧ Together a b c ∧ ¬ AnonymousAmong c ∧ ∀ x ∈ b.defs, ∃ o, x.body = .op o := by
  refine ⟨_, _, _, parseDoc_ok (parse_eq (ts := [⟨.name, b!"query", 1, 1⟩, ⟨.name, b!"Q", 1, 7⟩, ⟨.punctuator, b!"(", 1, 8⟩, ⟨.punctuator, b!"$", 1, 9⟩, ⟨.name, b!"v", 1, 10⟩, ⟨.punctuator, b!":", 1, 11⟩, ⟨.name, b!"ID", 1, 13⟩, ⟨.punctuator, b!")", 1, 15⟩, ⟨.punctuator, b!"{", 1, 17⟩, ⟨.punctuator, b!"...", 1, 18⟩, ⟨.name, b!"F", 1, 21⟩, ⟨.punctuator, b!"}", 1, 22⟩, ⟨.name, b!"fragment", 1, 24⟩, ⟨.name, b!"F", 1, 33⟩, ⟨.name, b!"on", 1, 35⟩, ⟨.name, b!"ID", 1, 38⟩, ⟨.punctuator, b!"{", 1, 41⟩, ⟨.name, b!"a", 1, 42⟩, ⟨.punctuator, b!"(", 1, 43⟩, ⟨.name, b!"x", 1, 44⟩, ⟨.punctuator, b!":", 1, 45⟩, ⟨.punctuator, b!"$", 1, 47⟩, ⟨.name, b!"v", 1, 48⟩, ⟨.punctuator, b!")", 1, 49⟩, ⟨.punctuator, b!"}", 1, 50⟩, ⟨.eof, [], 1, 51⟩]) (by decide) rfl) rfl, parseDoc_ok (parse_eq (ts := [⟨.name, b!"query", 1, 1⟩, ⟨.name, b!"R", 1, 7⟩, ⟨.punctuator, b!"{", 1, 9⟩, ⟨.name, b!"b", 1, 10⟩, ⟨.punctuator, b!"}", 1, 11⟩, ⟨.eof, [], 1, 12⟩]) (by decide) rfl) rfl,
    (parse_eq (ts := [⟨.name, b!"query", 1, 1⟩, ⟨.name, b!"R", 1, 7⟩, ⟨.punctuator, b!"{", 1, 9⟩, ⟨.name, b!"b", 1, 10⟩, ⟨.punctuator, b!"}", 1, 11⟩, ⟨.name, b!"fragment", 1, 13⟩, ⟨.name, b!"F", 1, 22⟩, ⟨.name, b!"on", 1, 24⟩, ⟨.name, b!"ID", 1, 27⟩, ⟨.punctuator, b!"{", 1, 30⟩, ⟨.name, b!"a", 1, 31⟩, ⟨.punctuator, b!"(", 1, 32⟩, ⟨.name, b!"x", 1, 33⟩, ⟨.punctuator, b!":", 1, 34⟩, ⟨.punctuator, b!"$", 1, 36⟩, ⟨.name, b!"v", 1, 37⟩, ⟨.punctuator, b!")", 1, 38⟩, ⟨.punctuator, b!"}", 1, 39⟩, ⟨.name, b!"query", 1, 41⟩, ⟨.name, b!"Q", 1, 47⟩, ⟨.punctuator, b!"(", 1, 48⟩, ⟨.punctuator, b!"$", 1, 49⟩, ⟨.name, b!"v", 1, 50⟩, ⟨.punctuator, b!":", 1, 51⟩, ⟨.name, b!"ID", 1, 53⟩, ⟨.punctuator, b!")", 1, 55⟩, ⟨.punctuator, b!"{", 1, 57⟩, ⟨.punctuator, b!"...", 1, 58⟩, ⟨.name, b!"F", 1, 61⟩, ⟨.punctuator, b!"}", 1, 62⟩, ⟨.eof, [], 1, 63⟩]) (by decide) rfl), ?_, ?_, ?_⟩
  · unfold Together
    exact (List.Perm.swap _ _ _ |>.cons _).trans ((List.Perm.swap _ _ _).trans ((List.Perm.swap _ _ _).cons _))
  · rintro ⟨⟨o, ho, h0⟩, -⟩
    cases ho with
    | head => cases h0
    | tail _ ho =>
      cases ho with
      | head => cases h0
      | tail _ ho => cases ho
  · intro x hx
    cases hx with
    | head => exact ⟨_, rfl⟩
    | tail _ hx => cases hx

/-- Two accepted documents that cannot be put together: two operations without names. -/
theorem C89_anonymous : ∃ a b c es, parseDoc pf b!"{a}" none = .ret ⟨some a, none, none⟩ ∧ parseDoc pf b!"{b}" none = .ret ⟨some b, none, none⟩ ∧
    parse pf b!"{a}{b}" = .ok c ∧ Together a b c ∧ parseDoc pf b!"{a}{b}" none = .ret ⟨none, some es, none⟩ := by
  refine ⟨_, _, _, [Says.notAlone, Says.notAlone], parseDoc_ok (parse_eq (ts := [⟨.punctuator, b!"{", 1, 1⟩, ⟨.name, b!"a", 1, 2⟩, ⟨.punctuator, b!"}", 1, 3⟩, ⟨.eof, [], 1, 4⟩]) (by decide) rfl) rfl, parseDoc_ok (parse_eq (ts := [⟨.punctuator, b!"{", 1, 1⟩, ⟨.name, b!"b", 1, 2⟩, ⟨.punctuator, b!"}", 1, 3⟩, ⟨.eof, [], 1, 4⟩]) (by decide) rfl) rfl, (parse_eq (ts := [⟨.punctuator, b!"{", 1, 1⟩, ⟨.name, b!"a", 1, 2⟩, ⟨.punctuator, b!"}", 1, 3⟩, ⟨.punctuator, b!"{", 1, 4⟩, ⟨.name, b!"b", 1, 5⟩, ⟨.punctuator, b!"}", 1, 6⟩, ⟨.eof, [], 1, 7⟩]) (by decide) rfl), ?_, ?_⟩
  · exact List.Perm.refl _
  · unfold parseDoc
    rw [(parse_eq (ts := [⟨.punctuator, b!"{", 1, 1⟩, ⟨.name, b!"a", 1, 2⟩, ⟨.punctuator, b!"}", 1, 3⟩, ⟨.punctuator, b!"{", 1, 4⟩, ⟨.name, b!"b", 1, 5⟩, ⟨.punctuator, b!"}", 1, 6⟩, ⟨.eof, [], 1, 7⟩]) (by decide) rfl)]
    rfl

/-- A fragment cannot be taken out: the variable it uses is then unused. -/
theorem C89_fragment : ∃ a b c es, parseDoc pf b!"query Q($v: ID) {...F} fragment F on ID {a(x: $v)}" none = .ret ⟨some c, none, none⟩ ∧
    parse pf b!"query Q($v: ID) {...F}" = .ok a ∧ Together a b c ∧ parseDoc pf b!"query Q($v: ID) {...F}" none = .ret ⟨none, some es, none⟩ := by
  refine ⟨_, ⟨[⟨⟨0, 0⟩, .frag ⟨b!"F", .named b!"ID" false, [], [.field [] b!"a" [⟨b!"x", .var b!"v"⟩] [] []]⟩⟩], 0, 0, 0, 0, 0, 0, 0⟩, _, [Says.unusedVariable b!"v" b!"Q"],
    parseDoc_ok (parse_eq (ts := [⟨.name, b!"query", 1, 1⟩, ⟨.name, b!"Q", 1, 7⟩, ⟨.punctuator, b!"(", 1, 8⟩, ⟨.punctuator, b!"$", 1, 9⟩, ⟨.name, b!"v", 1, 10⟩, ⟨.punctuator, b!":", 1, 11⟩, ⟨.name, b!"ID", 1, 13⟩, ⟨.punctuator, b!")", 1, 15⟩, ⟨.punctuator, b!"{", 1, 17⟩, ⟨.punctuator, b!"...", 1, 18⟩, ⟨.name, b!"F", 1, 21⟩, ⟨.punctuator, b!"}", 1, 22⟩, ⟨.name, b!"fragment", 1, 24⟩, ⟨.name, b!"F", 1, 33⟩, ⟨.name, b!"on", 1, 35⟩, ⟨.name, b!"ID", 1, 38⟩, ⟨.punctuator, b!"{", 1, 41⟩, ⟨.name, b!"a", 1, 42⟩, ⟨.punctuator, b!"(", 1, 43⟩, ⟨.name, b!"x", 1, 44⟩, ⟨.punctuator, b!":", 1, 45⟩, ⟨.punctuator, b!"$", 1, 47⟩, ⟨.name, b!"v", 1, 48⟩, ⟨.punctuator, b!")", 1, 49⟩, ⟨.punctuator, b!"}", 1, 50⟩, ⟨.eof, [], 1, 51⟩]) (by decide) rfl) rfl, (parse_eq (ts := [⟨.name, b!"query", 1, 1⟩, ⟨.name, b!"Q", 1, 7⟩, ⟨.punctuator, b!"(", 1, 8⟩, ⟨.punctuator, b!"$", 1, 9⟩, ⟨.name, b!"v", 1, 10⟩, ⟨.punctuator, b!":", 1, 11⟩, ⟨.name, b!"ID", 1, 13⟩, ⟨.punctuator, b!")", 1, 15⟩, ⟨.punctuator, b!"{", 1, 17⟩, ⟨.punctuator, b!"...", 1, 18⟩, ⟨.name, b!"F", 1, 21⟩, ⟨.punctuator, b!"}", 1, 22⟩, ⟨.eof, [], 1, 23⟩]) (by decide) rfl), ?_, ?_⟩
  · exact List.Perm.refl _
  · unfold parseDoc
    rw [(parse_eq (ts := [⟨.name, b!"query", 1, 1⟩, ⟨.name, b!"Q", 1, 7⟩, ⟨.punctuator, b!"(", 1, 8⟩, ⟨.punctuator, b!"$", 1, 9⟩, ⟨.name, b!"v", 1, 10⟩, ⟨.punctuator, b!":", 1, 11⟩, ⟨.name, b!"ID", 1, 13⟩, ⟨.punctuator, b!")", 1, 15⟩, ⟨.punctuator, b!"{", 1, 17⟩, ⟨.punctuator, b!"...", 1, 18⟩, ⟨.name, b!"F", 1, 21⟩, ⟨.punctuator, b!"}", 1, 22⟩, ⟨.eof, [], 1, 23⟩]) (by decide) rfl)]
    rfl

end

end GQL
