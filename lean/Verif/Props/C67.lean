/-
C67 A response is written as JSON that says the same (lab/server).
-/
import Verif.Model.Response
import Verif.Props.C60

namespace GQL
open Spec

namespace Spec

/-- What `strconv.FormatFloat(x, 'f', 5, 64)` gives for a number: an optional minus sign, digits, a point, five digits. -/
def Fixed5 (t : Bytes) : Prop := ∃ m n f, t = m ++ n ++ 46 :: f ∧ (m = [] ∨ m = b!"-") ∧ JsonNatural n ∧ JsonDigits f ∧ f.length = 5

variable (fmtF : Nat → Bytes)

mutual
/-- What the JSON of a value should say: a float is the number as written. -/
def RValue.json : RValue → Json
  | .int i => .int i
  | .float bits => .number (fmtF bits)
  | .str s => .str s
  | .bool b => .bool b
  | .null => .null
  | .arr vs => .arr (valuesJson vs)
  | .obj fs => .obj (fieldsJson fs)
  | .other => .null
def valuesJson : List RValue → List Json
  | [] => []
  | v :: vs => RValue.json v :: valuesJson vs
def fieldsJson : List (Bytes × RValue) → List (Bytes × Json)
  | [] => []
  | (n, v) :: fs => (n, RValue.json v) :: fieldsJson fs
end

mutual
/-- The value is of one of the kinds at every place. -/
def RValue.Kinds : RValue → Prop
  | .arr vs => ValuesKinds vs
  | .obj fs => FieldsKinds fs
  | .other => False
  | _ => True
def ValuesKinds : List RValue → Prop
  | [] => True
  | v :: vs => RValue.Kinds v ∧ ValuesKinds vs
def FieldsKinds : List (Bytes × RValue) → Prop
  | [] => True
  | (_, v) :: fs => RValue.Kinds v ∧ FieldsKinds fs
end

mutual
/-- Its strings and field names need no escapes, and its floats are numbers. -/
def RValue.PlainV : RValue → Prop
  | .str s => PlainText s
  | .float bits => Fixed5 (fmtF bits)
  | .arr vs => ValuesPlain vs
  | .obj fs => FieldsPlain fs
  | _ => True
def ValuesPlain : List RValue → Prop
  | [] => True
  | v :: vs => RValue.PlainV v ∧ ValuesPlain vs
def FieldsPlain : List (Bytes × RValue) → Prop
  | [] => True
  | (n, v) :: fs => PlainText n ∧ RValue.PlainV v ∧ FieldsPlain fs
end

end Spec

section
variable {fmtF : Nat → Bytes}

mutual
theorem marshal_kinds : ∀ (v : RValue), (v.marshal fmtF).isSome ↔ RValue.Kinds v
  | .int _ | .float _ | .str _ | .bool _ | .null | .other => by simp [RValue.marshal, RValue.Kinds]
  | .arr vs => by rw [RValue.marshal, Option.isSome_map, marshalArr_kinds vs, RValue.Kinds]
  | .obj fs => by rw [RValue.marshal, Option.isSome_map, marshalObj_kinds fs, RValue.Kinds]
theorem marshalArr_kinds : ∀ (vs : List RValue), (marshalArr fmtF vs).isSome ↔ ValuesKinds vs
  | [] => by simp [marshalArr, ValuesKinds]
  | v :: vs => by
    have h1 := marshal_kinds v
    have h2 := marshalArr_kinds vs
    rw [marshalArr, ValuesKinds, ← h1, ← h2]
    cases v.marshal fmtF <;> simp
theorem marshalObj_kinds : ∀ (fs : List (Bytes × RValue)), (marshalObj fmtF fs).isSome ↔ FieldsKinds fs
  | [] => by simp [marshalObj, FieldsKinds]
  | (n, v) :: fs => by
    have h1 := marshal_kinds v
    have h2 := marshalObj_kinds fs
    rw [marshalObj, FieldsKinds, ← h1, ← h2]
    cases v.marshal fmtF <;> simp
end

mutual
theorem marshal_json : ∀ (v : RValue) (t : Bytes), v.marshal fmtF = some t → RValue.PlainV fmtF v → JsonValue t (RValue.json fmtF v)
  | .int i, t, h, _ => by cases h; exact itoa_json i
  | .float b, t, h, hp => by
    cases h
    obtain ⟨m, n, f, e, hm, hn, hf, -⟩ := hp
    rw [RValue.json, e]
    exact .number hm hn (.frac hf)
  | .str s, t, h, hp => by cases h; exact .str (plain_chars hp)
  | .bool b, t, h, _ => by
    cases h
    cases b
    · exact .false
    · exact .true
  | .null, t, h, _ => by cases h; exact .null
  | .arr vs, t, h, hp => by
    rw [RValue.marshal] at h
    obtain ⟨u, hu, rfl⟩ := Option.map_eq_some_iff.1 h
    cases vs with
    | nil => cases hu; exact .empty (w := []) noSpace
    | cons v vs => exact .arr (marshalArr_json (v :: vs) u hu (by simp) hp)
  | .obj fs, t, h, hp => by
    rw [RValue.marshal] at h
    obtain ⟨u, hu, rfl⟩ := Option.map_eq_some_iff.1 h
    cases fs with
    | nil => cases hu; exact .none (w := []) noSpace
    | cons v fs => exact .obj (marshalObj_json (v :: fs) u hu (by simp) hp)
  | .other, t, h, _ => by cases h
theorem marshalArr_json : ∀ (vs : List RValue) (t : Bytes), marshalArr fmtF vs = some t → vs ≠ [] → ValuesPlain fmtF vs → JsonElements t (valuesJson fmtF vs)
  | [], _, _, h, _ => absurd rfl h
  | v :: vs, t, h, _, hp => by
    rw [marshalArr] at h
    obtain ⟨a, ha, h⟩ := Option.bind_eq_some_iff.1 h
    obtain ⟨u, hu, rfl⟩ := Option.map_eq_some_iff.1 h
    have h1 := marshal_json v a ha hp.1
    have h2 := marshalArr_json vs u hu
    cases vs with
    | nil => cases hu; have := JsonElements.one noSpace h1 noSpace; simpa [valuesJson] using this
    | cons w vs => have := JsonElements.cons noSpace h1 noSpace (h2 (by simp) hp.2); simpa [valuesJson] using this
theorem marshalObj_json : ∀ (fs : List (Bytes × RValue)) (t : Bytes), marshalObj fmtF fs = some t → fs ≠ [] → FieldsPlain fmtF fs → JsonMembers t (fieldsJson fmtF fs)
  | [], _, _, h, _ => absurd rfl h
  | (n, v) :: fs, t, h, _, hp => by
    rw [marshalObj] at h
    obtain ⟨a, ha, h⟩ := Option.bind_eq_some_iff.1 h
    obtain ⟨u, hu, rfl⟩ := Option.map_eq_some_iff.1 h
    have h0 := plain_chars hp.1
    have h1 := marshal_json v a ha hp.2.1
    have h2 := marshalObj_json fs u hu
    cases fs with
    | nil => cases hu; have := member_one h0 h1; simpa [fieldsJson] using this
    | cons w fs => have := member_cons h0 h1 (h2 (by simp) hp.2.2); simpa [fieldsJson] using this
end

/-- **C67, when a response is written**: if and only if the data is null or an object and every value in it is of one of the kinds. -/
theorem C67_returns (data : RValue) : (∃ t, marshalResponse fmtF data = some t) ↔ (data = .null ∨ ∃ fs, data = .obj fs) ∧ RValue.Kinds data := by
  rw [← Option.isSome_iff_exists]
  cases data with
  | null => simp [marshalResponse, RValue.marshal, RValue.Kinds]
  | obj fs =>
    have := marshal_kinds (fmtF := fmtF) (.obj fs)
    simp only [marshalResponse, Option.isSome_map, this]
    simp
  | _ => simp [marshalResponse]

/-- **C67, in part**: if strings and names need no escapes and floats are numbers, the text of a response is JSON that says `{"data": …}`.
Missing: other strings and floats (`C67_refuted`). -/
theorem C67_partial (data : RValue) (t : Bytes) (h : marshalResponse fmtF data = some t) (hp : RValue.PlainV fmtF data) :
    JsonText t (.obj [(b!"data", RValue.json fmtF data)]) := by
  have key : (data.marshal fmtF).map (fun t => b!"{" ++ b!"\"data\":" ++ t ++ b!"}") = some t := by
    cases data <;> first | exact h | cases h
  obtain ⟨u, hu, rfl⟩ := Option.map_eq_some_iff.1 key
  have := JsonValue.obj (member_one (plain_chars (t := b!"data") (by decide)) (marshal_json data u hu hp))
  exact ⟨[], _, [], noSpace, by simpa using this, noSpace, by simp⟩

/-- **C67 fails as stated**: strings are not escaped, so a string can pass for something else.  Here two responses that are different have the same text, and it is the JSON of the second one. -/
theorem C67_refuted : ∃ (v w : RValue) (t : Bytes), marshalResponse fmtF v = some t ∧ marshalResponse fmtF w = some t ∧
    v = .obj [(b!"user", .str b!"x\",\"admin\":\"yes")] ∧ w = .obj [(b!"user", .str b!"x"), (b!"admin", .str b!"yes")] ∧
    JsonText t (.obj [(b!"data", .obj [(b!"user", .str b!"x"), (b!"admin", .str b!"yes")])]) :=
  ⟨_, _, _, rfl, rfl, rfl, rfl, C67_partial (fmtF := fmtF) (.obj [(b!"user", .str b!"x"), (b!"admin", .str b!"yes")]) _ rfl
    (by simp only [RValue.PlainV, FieldsPlain]; decide)⟩

/-- A response with every kind of value. -/
example (h : fmtF 4609434218613702656 = b!"1.50000") :
    marshalResponse fmtF (.obj [(b!"a", .arr [.int (-3), .float 4609434218613702656, .null]), (b!"b", .obj []), (b!"c", .bool true), (b!"d", .str b!"x y")]) =
      some b!"{\"data\":{\"a\":[-3,1.50000,null],\"b\":{},\"c\":true,\"d\":\"x y\"}}" ∧
    RValue.PlainV fmtF (.obj [(b!"a", .arr [.int (-3), .float 4609434218613702656, .null]), (b!"b", .obj []), (b!"c", .bool true), (b!"d", .str b!"x y")]) := by
  constructor
  · simp only [marshalResponse, RValue.marshal, marshalArr, marshalObj, h]
    decide
  · simp only [RValue.PlainV, FieldsPlain, ValuesPlain, h]
    refine ⟨by decide, ⟨trivial, ⟨[], b!"1", b!"50000", rfl, .inl rfl, ⟨⟨by decide, by decide⟩, by decide⟩, ⟨by decide, by decide⟩, rfl⟩, trivial, trivial⟩, by decide, trivial, by decide, trivial, by decide, by decide, trivial⟩

end

end GQL
