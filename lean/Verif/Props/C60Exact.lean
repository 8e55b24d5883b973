/-
C60 and C67, exactly: the JSON of an error, or of a response, says what it should if and only if nothing in it needs an escape.
-/
import Verif.Proofs.JsonRead
import Verif.Props.C67

namespace GQL
open Spec

/-! ### C60 -/

theorem commas_cons {α : Type} (f : α → Bytes) : ∀ (a : α) (l : List α), commas ((a :: l).map f) = f a ++ l.flatMap fun x => 44 :: f x
  | a, [] => by simp [commas]
  | a, b :: l => by
    have := commas_cons f b l
    simp only [List.map_cons] at this
    simp only [List.map_cons, commas, List.flatMap_cons, this, List.cons_append]

theorem entries_commas {α : Type} (f : α → Bytes) (l : List α) : entries f l = commas (l.map f) := by
  cases l with
  | nil => rfl
  | cons a l => rw [entries_cons, commas_cons]

/-- Line and column of a location are numbers that Go's `int` can hold (a line is never negative in the model). -/
def Spec.GoLocations (e : GErr) : Prop :=
  ∀ l ∈ e.locations, l.line < 9223372036854775808 ∧ -9223372036854775808 ≤ l.col ∧ l.col < 9223372036854775808

theorem rigid_location (l : Location) : Rigid (marshalLocation l) (.obj [(b!"line", .int l.line), (b!"column", .int l.col)])
    ((l.line : Int) = toUint64 l.line ∧ l.col = toUint64 l.col) := by
  have h := rigid_obj (α := Bytes × Bytes × Json × Prop) (l := [(b!"line", decimal (toUint64 l.line), .int l.line, (l.line : Int) = toUint64 l.line),
    (b!"column", decimal (toUint64 l.col), .int l.col, l.col = toUint64 l.col)]) (name := fun x => x.1) (f := fun x => x.2.1) (g := fun x => x.2.2.1)
    (ok := fun x => x.2.2.2) (by
      intro a ha
      simp only [List.mem_cons, List.not_mem_nil, or_false] at ha
      rcases ha with rfl | rfl
      · exact rigid_nat _ _
      · exact rigid_nat _ _)
  have e : (123 :: commas (([(b!"line", decimal (toUint64 l.line), Json.int l.line, (l.line : Int) = toUint64 l.line),
    (b!"column", decimal (toUint64 l.col), .int l.col, l.col = toUint64 l.col)] : List (Bytes × Bytes × Json × Prop)).map
      (memberText (fun x => x.1) (fun x => x.2.1))) ++ [125]) = marshalLocation l := by
    simp [commas, memberText, marshalLocation]
  rw [e] at h
  refine ⟨h.first, fun h1 h2 h3 h4 => ?_⟩
  obtain ⟨h5, h6, h7⟩ := h.same h1 h2 h3 h4
  exact ⟨h5, h6, (h7 _ List.mem_cons_self).2, (h7 _ (List.mem_cons_of_mem _ List.mem_cons_self)).2⟩

theorem rigid_pathNode (p : PathNode) : Rigid (marshalPathNode p) (pathJson p) (∀ s, p = .str s → PlainText s) := by
  cases p with
  | str s =>
    have h := rigid_str s
    refine ⟨h.first, fun h1 h2 h3 h4 => ?_⟩
    obtain ⟨h5, h6, h7⟩ := h.same h1 h2 h3 h4
    exact ⟨h5, h6, fun s' e => by cases e; exact h7⟩
  | int i =>
    have h := rigid_int i
    refine ⟨h.first, fun h1 h2 h3 h4 => ?_⟩
    obtain ⟨h5, h6, -⟩ := h.same h1 h2 h3 h4
    exact ⟨h5, h6, fun s' e => by cases e⟩

/-- The members of the JSON of an error: name, text, value, and what makes the text right. -/
def errorMembers (e : GErr) : List (Bytes × Bytes × Json × Prop) :=
  [(b!"message", 34 :: e.message ++ [34], .str e.message, PlainText e.message)] ++
    (if e.locations = [] then [] else [(b!"locations", 91 :: commas (e.locations.map marshalLocation) ++ [93],
      .arr (e.locations.map fun l => .obj [(b!"line", .int l.line), (b!"column", .int l.col)]),
      ∀ l ∈ e.locations, (l.line : Int) = toUint64 l.line ∧ l.col = toUint64 l.col)]) ++
    (if e.path = [] then [] else [(b!"path", 91 :: commas (e.path.map marshalPathNode) ++ [93], .arr (e.path.map pathJson),
      ∀ p ∈ e.path, ∀ s, p = .str s → PlainText s)])

theorem errorMembers_text (e : GErr) : 123 :: commas ((errorMembers e).map (memberText (fun x => x.1) (fun x => x.2.1))) ++ [125] = marshalJSON e := by
  unfold errorMembers marshalJSON
  rw [entries_commas, entries_commas]
  by_cases h1 : e.locations = [] <;> by_cases h2 : e.path = [] <;> simp [h1, h2, commas, memberText, List.length_pos_iff]

theorem errorMembers_json (e : GErr) : Json.obj ((errorMembers e).map fun a => (a.1, a.2.2.1)) = errorJson e := by
  unfold errorMembers errorJson
  by_cases h1 : e.locations = [] <;> by_cases h2 : e.path = [] <;> simp [h1, h2]

theorem rigid_error (e : GErr) : Rigid (marshalJSON e) (errorJson e)
    (PlainText e.message ∧ (∀ l ∈ e.locations, (l.line : Int) = toUint64 l.line ∧ l.col = toUint64 l.col) ∧ ∀ p ∈ e.path, ∀ s, p = .str s → PlainText s) := by
  have h := rigid_obj (l := errorMembers e) (name := fun x => x.1) (f := fun x => x.2.1) (g := fun x => x.2.2.1) (ok := fun x => x.2.2.2) (by
    intro a ha
    unfold errorMembers at ha
    rcases List.mem_append.1 ha with ha | ha
    · rcases List.mem_append.1 ha with ha | ha
      · rw [List.mem_singleton.1 ha]; exact rigid_str _
      · split at ha
        · cases ha
        · rw [List.mem_singleton.1 ha]
          exact rigid_arr (ok := fun l : Location => (l.line : Int) = toUint64 l.line ∧ l.col = toUint64 l.col) fun l _ => rigid_location l
    · split at ha
      · cases ha
      · rw [List.mem_singleton.1 ha]
        exact rigid_arr (ok := fun p => ∀ s, p = .str s → PlainText s) fun p _ => rigid_pathNode p)
  rw [errorMembers_text, errorMembers_json] at h
  refine ⟨h.first, fun h1 h2 h3 h4 => ?_⟩
  obtain ⟨h5, h6, h7⟩ := h.same h1 h2 h3 h4
  refine ⟨h5, h6, (h7 _ (List.mem_append_left _ (List.mem_append_left _ (List.mem_singleton.2 rfl)))).2, ?_, ?_⟩
  · intro l hl
    have hne : e.locations ≠ [] := by rintro e; rw [e] at hl; cases hl
    exact (h7 (b!"locations", _, _, ∀ l ∈ e.locations, (l.line : Int) = toUint64 l.line ∧ l.col = toUint64 l.col) (by
      refine List.mem_append_left _ (List.mem_append_right _ ?_)
      rw [if_neg hne]
      exact List.mem_singleton.2 rfl)).2 l hl
  · intro p hp
    have hne : e.path ≠ [] := by rintro e; rw [e] at hp; cases hp
    exact (h7 (b!"path", _, _, ∀ p ∈ e.path, ∀ s, p = .str s → PlainText s) (by
      refine List.mem_append_right _ ?_
      rw [if_neg hne]
      exact List.mem_singleton.2 rfl)).2 p hp

/-- **C60, exactly**: the JSON of an error says what it should if and only if its message and the strings of its path need no escapes and no column is negative. -/
theorem C60_exact {e : GErr} (hg : GoLocations e) : JsonText (marshalJSON e) (errorJson e) ↔ PlainError e := by
  refine ⟨fun h => ?_, C60_partial⟩
  obtain ⟨h1, h2, h3⟩ := rigid_text (rigid_error e) h
  refine ⟨h1, fun l hl => ?_, fun s hs => h3 _ hs s rfl⟩
  have := hg l hl
  have := h2 l hl
  omega

/-- A message that ends with a backslash takes the quotation mark after it along. -/
example : GoLocations { message := b!"a\\" } ∧ ¬ PlainError { message := b!"a\\" } ∧ marshalJSON { message := b!"a\\" } = b!"{\"message\":\"a\\\"}" :=
  ⟨(fun l hl => by cases hl), fun h => absurd h.message (by decide), rfl⟩

/-- A message with an escape is well-formed JSON, but says something else. -/
example : JsonText (marshalJSON { message := b!"a\\n" }) (.obj [(b!"message", .str b!"a\n")]) ∧
    ¬ JsonText (marshalJSON { message := b!"a\\n" }) (errorJson { message := b!"a\\n" }) := by
  constructor
  · have := JsonValue.obj (member_one (plain_chars (t := b!"message") (by decide))
      (JsonValue.str (t := b!"a\\n") (s := b!"a\n") (.plain (by decide) (by decide) (by decide) (.escape (by decide) .nil))))
    exact ⟨[], _, [], noSpace, this, noSpace, rfl⟩
  · intro h
    exact absurd ((C60_exact (fun l hl => by cases hl)).1 h).message (by decide)

/-! ### C67 -/

section
variable {fmtF : Nat → Bytes}

/-- What `strconv.FormatFloat(x, 'f', 5, 64)` gives: a number, or the name of something that is none. -/
def Spec.GoFloats (fmtF : Nat → Bytes) : Prop := ∀ bits, Fixed5 (fmtF bits) ∨ fmtF bits ∈ [b!"NaN", b!"+Inf", b!"-Inf"]

theorem float_first (hF : GoFloats fmtF) (bits : Nat) : NoSpaceFirst (fmtF bits) := by
  rcases hF bits with ⟨m, n, f, e, hm, hn, -⟩ | h
  · rw [e]
    obtain ⟨b, r, rfl, hb⟩ := natural_first hn
    rcases hm with rfl | rfl
    · exact ⟨b, _, rfl, by omega⟩
    · exact ⟨45, _, rfl, by decide⟩
  · simp only [List.mem_cons, List.not_mem_nil, or_false] at h
    rcases h with h | h | h <;> rw [h] <;> exact ⟨_, _, rfl, by decide⟩

theorem float_number (hF : GoFloats fmtF) (bits : Nat)
    (h : ∃ m n u, fmtF bits = m ++ n ++ u ∧ (m = [] ∨ m = b!"-") ∧ JsonNatural n ∧ JsonTail u) : Fixed5 (fmtF bits) := by
  rcases hF bits with h' | h'
  · exact h'
  · obtain ⟨m, n, u, e, hm, hn, -⟩ := h
    obtain ⟨b, r, rfl, hb⟩ := natural_first hn
    exfalso
    simp only [List.mem_cons, List.not_mem_nil, or_false] at h'
    rcases h' with h' | h' | h' <;> rw [h'] at e <;> rcases hm with rfl | rfl <;> simp at e <;> omega

theorem marshalArr_commas : ∀ (vs : List RValue) (t : Bytes), marshalArr fmtF vs = some t → t = commas (vs.map fun v => (v.marshal fmtF).getD []) ∧ ∀ v ∈ vs, (v.marshal fmtF).isSome
  | [], t, h => by cases h; exact ⟨rfl, fun v hv => by cases hv⟩
  | [v], t, h => by
    rw [marshalArr] at h
    obtain ⟨a, ha, h⟩ := Option.bind_eq_some_iff.1 h
    obtain ⟨u, hu, rfl⟩ := Option.map_eq_some_iff.1 h
    cases hu
    exact ⟨by simp [commas, ha], by simp [ha]⟩
  | v :: w :: vs, t, h => by
    rw [marshalArr] at h
    obtain ⟨a, ha, h⟩ := Option.bind_eq_some_iff.1 h
    obtain ⟨u, hu, rfl⟩ := Option.map_eq_some_iff.1 h
    obtain ⟨h1, h2⟩ := marshalArr_commas (w :: vs) u hu
    refine ⟨?_, fun x hx => ?_⟩
    · rw [h1]; simp [commas, ha]
    · rcases List.mem_cons.1 hx with rfl | hx
      · simp [ha]
      · exact h2 x hx

theorem marshalObj_commas : ∀ (fs : List (Bytes × RValue)) (t : Bytes), marshalObj fmtF fs = some t →
    t = commas (fs.map (memberText (fun x => x.1) fun x => (x.2.marshal fmtF).getD [])) ∧ ∀ x ∈ fs, (x.2.marshal fmtF).isSome
  | [], t, h => by cases h; exact ⟨rfl, fun v hv => by cases hv⟩
  | [(n, v)], t, h => by
    rw [marshalObj] at h
    obtain ⟨a, ha, h⟩ := Option.bind_eq_some_iff.1 h
    obtain ⟨u, hu, rfl⟩ := Option.map_eq_some_iff.1 h
    cases hu
    exact ⟨by simp [commas, memberText, ha], by simp [ha]⟩
  | (n, v) :: w :: fs, t, h => by
    rw [marshalObj] at h
    obtain ⟨a, ha, h⟩ := Option.bind_eq_some_iff.1 h
    obtain ⟨u, hu, rfl⟩ := Option.map_eq_some_iff.1 h
    obtain ⟨h1, h2⟩ := marshalObj_commas (w :: fs) u hu
    refine ⟨?_, fun x hx => ?_⟩
    · rw [h1]; simp [commas, memberText, ha]
    · rcases List.mem_cons.1 hx with rfl | hx
      · simp [ha]
      · exact h2 x hx

theorem valuesJson_map (vs : List RValue) : valuesJson fmtF vs = vs.map (RValue.json fmtF) := by
  induction vs with
  | nil => rfl
  | cons v vs ih => rw [valuesJson, ih, List.map_cons]

theorem fieldsJson_map (fs : List (Bytes × RValue)) : fieldsJson fmtF fs = fs.map fun x => (x.1, RValue.json fmtF x.2) := by
  induction fs with
  | nil => rfl
  | cons v vs ih => obtain ⟨n, v⟩ := v; rw [fieldsJson, ih, List.map_cons]

theorem valuesPlain_iff (vs : List RValue) : ValuesPlain fmtF vs ↔ ∀ v ∈ vs, RValue.PlainV fmtF v := by
  induction vs with
  | nil => simp [ValuesPlain]
  | cons v vs ih => simp [ValuesPlain, ih]

theorem fieldsPlain_iff (fs : List (Bytes × RValue)) : FieldsPlain fmtF fs ↔ ∀ x ∈ fs, PlainText x.1 ∧ RValue.PlainV fmtF x.2 := by
  induction fs with
  | nil => simp [FieldsPlain]
  | cons v vs ih => obtain ⟨n, v⟩ := v; simp only [FieldsPlain, ih, List.mem_cons, forall_eq_or_imp, and_assoc]

mutual
theorem rigid_value (hF : GoFloats fmtF) : ∀ (v : RValue) (t : Bytes), v.marshal fmtF = some t → Rigid t (RValue.json fmtF v) (RValue.PlainV fmtF v)
  | .int i, t, h => by cases h; exact rigid_int i
  | .float b, t, h => by
    cases h
    have h := rigid_number (float_first hF b)
    exact ⟨h.first, fun h1 h2 h3 h4 => ⟨(h.same h1 h2 h3 h4).1, (h.same h1 h2 h3 h4).2.1, float_number hF b (h.same h1 h2 h3 h4).2.2⟩⟩
  | .str s, t, h => by cases h; exact rigid_str s
  | .bool b, t, h => by cases h; exact rigid_bool b
  | .null, t, h => by cases h; exact rigid_null
  | .other, t, h => by cases h
  | .arr vs, t, h => by
    rw [RValue.marshal] at h
    obtain ⟨u, hu, rfl⟩ := Option.map_eq_some_iff.1 h
    obtain ⟨h1, h2⟩ := marshalArr_commas vs u hu
    rw [RValue.json, RValue.PlainV, valuesJson_map, valuesPlain_iff, h1]
    exact rigid_arr (rigid_values hF vs h2)
  | .obj fs, t, h => by
    rw [RValue.marshal] at h
    obtain ⟨u, hu, rfl⟩ := Option.map_eq_some_iff.1 h
    obtain ⟨h1, h2⟩ := marshalObj_commas fs u hu
    rw [RValue.json, RValue.PlainV, fieldsJson_map, fieldsPlain_iff, h1]
    exact rigid_obj (rigid_fields hF fs h2)
theorem rigid_values (hF : GoFloats fmtF) : ∀ (vs : List RValue), (∀ v ∈ vs, (v.marshal fmtF).isSome) →
    ∀ v ∈ vs, Rigid ((v.marshal fmtF).getD []) (RValue.json fmtF v) (RValue.PlainV fmtF v)
  | [], _, v, hv => by cases hv
  | w :: vs, h, v, hv => by
    have h1 := rigid_value hF w
    have h2 := rigid_values hF vs fun x hx => h x (by simp [hx])
    rcases List.mem_cons.1 hv with e | hv
    · subst e
      have h3 := h v (by simp)
      exact h1 _ (by cases hm : v.marshal fmtF <;> simp_all)
    · exact h2 v hv
theorem rigid_fields (hF : GoFloats fmtF) : ∀ (fs : List (Bytes × RValue)), (∀ x ∈ fs, (x.2.marshal fmtF).isSome) →
    ∀ x ∈ fs, Rigid ((x.2.marshal fmtF).getD []) (RValue.json fmtF x.2) (RValue.PlainV fmtF x.2)
  | [], _, v, hv => by cases hv
  | (n, w) :: fs, h, v, hv => by
    have h1 := rigid_value hF w
    have h2 := rigid_fields hF fs fun x hx => h x (by simp [hx])
    rcases List.mem_cons.1 hv with e | hv
    · subst e
      have h3 := h (n, w) (by simp)
      exact h1 _ (by cases hm : w.marshal fmtF <;> simp_all)
    · exact h2 v hv
end

/-- **C67, exactly**: the text of a response is JSON that says `{"data": …}` if and only if its strings and names need no escapes and its floats are numbers. -/
theorem C67_exact (hF : GoFloats fmtF) (data : RValue) (t : Bytes) (h : marshalResponse fmtF data = some t) :
    JsonText t (.obj [(b!"data", RValue.json fmtF data)]) ↔ RValue.PlainV fmtF data := by
  refine ⟨fun ht => ?_, C67_partial data t h⟩
  have key : (data.marshal fmtF).map (fun t => b!"{" ++ b!"\"data\":" ++ t ++ b!"}") = some t := by
    cases data <;> first | exact h | cases h
  obtain ⟨u, hu, rfl⟩ := Option.map_eq_some_iff.1 key
  have hr := rigid_obj (α := Unit) (l := [()]) (name := fun _ => b!"data") (f := fun _ => u) (g := fun _ => RValue.json fmtF data) (ok := fun _ => RValue.PlainV fmtF data)
    fun _ _ => rigid_value hF data u hu
  have e : 123 :: commas (([()] : List Unit).map (memberText (fun _ => b!"data") fun _ => u)) ++ [125] = b!"{" ++ b!"\"data\":" ++ u ++ b!"}" := by
    simp [commas, memberText]
  rw [e] at hr
  exact (rigid_text hr ht () (by simp)).2

/-- A response with an infinite float, which has no JSON. -/
example (h : fmtF 9218868437227405312 = b!"+Inf") (hF : GoFloats fmtF) :
    marshalResponse fmtF (.obj [(b!"a", .float 9218868437227405312)]) = some b!"{\"data\":{\"a\":+Inf}}" ∧
    ¬ JsonText b!"{\"data\":{\"a\":+Inf}}" (.obj [(b!"data", RValue.json fmtF (.obj [(b!"a", .float 9218868437227405312)]))]) := by
  have e : marshalResponse fmtF (.obj [(b!"a", .float 9218868437227405312)]) = some b!"{\"data\":{\"a\":+Inf}}" := by
    simp only [marshalResponse, RValue.marshal, marshalObj, h]
    decide
  refine ⟨e, fun ht => ?_⟩
  have := (C67_exact hF _ _ e).1 ht
  simp only [RValue.PlainV, FieldsPlain, h] at this
  obtain ⟨-, ⟨m, n, f, e, hm, hn, -⟩, -⟩ := this
  obtain ⟨b, r, rfl, hb⟩ := natural_first hn
  rcases hm with rfl | rfl <;> simp at e
  omega

end

end GQL
