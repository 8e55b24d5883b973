/-
C60, C61: the JSON of errors, and sorting them by it.
-/
import Verif.Model.Json
import Verif.Spec.Json
import Verif.Props.C39
import Verif.Props.C57

namespace GQL
open Spec

/-! ### Decimal numbers -/

theorem decimalLoop_spec : ∀ (fuel n : Nat), n < fuel →
    JsonDigits (decimalLoop fuel n) ∧ digitsValue (decimalLoop fuel n) = n ∧ (n ≠ 0 → (decimalLoop fuel n).head? ≠ some 48) ∧ (n = 0 → decimalLoop fuel n = [48])
  | 0, n, h => absurd h (by omega)
  | fuel + 1, n, h => by
    rw [decimalLoop]
    split
    · refine ⟨⟨by simp, by simp; omega⟩, by simp [digitsValue], fun _ => by simp; omega, by rintro rfl; rfl⟩
    · obtain ⟨⟨h1, h2⟩, h3, h4, h5⟩ := decimalLoop_spec fuel (n / 10) (by omega)
      refine ⟨⟨by simp, ?_⟩, ?_, fun _ => ?_, fun h => by omega⟩
      · intro b hb
        rcases List.mem_append.1 hb with hb | hb
        · exact h2 b hb
        · rw [List.mem_singleton.1 hb]; omega
      · unfold digitsValue at *
        rw [List.foldl_append, h3]
        simp; omega
      · rw [List.head?_append]
        cases hd : (decimalLoop fuel (n / 10)).head? with
        | none => exact absurd (List.head?_eq_none_iff.1 hd) h1
        | some x =>
          have := h4 (by omega)
          rw [hd] at this
          simpa using this

theorem decimal_natural (n : Nat) : JsonNatural (decimal n) := by
  obtain ⟨h1, -, h3, h4⟩ := decimalLoop_spec (n + 1) n (by omega)
  refine ⟨h1, fun h => ?_⟩
  by_cases hn : n = 0
  · exact h4 hn
  · exact absurd h (h3 hn)

theorem decimal_value (n : Nat) : digitsValue (decimal n) = n := (decimalLoop_spec (n + 1) n (by omega)).2.1

theorem decimal_json (n : Nat) : JsonValue (decimal n) (.int n) := by
  have := JsonValue.nat (decimal_natural n)
  rwa [decimal_value] at this

theorem itoa_json (i : Int) : JsonValue (itoa i) (.int i) := by
  unfold itoa
  split
  · have := JsonValue.neg (decimal_natural i.natAbs)
    rw [decimal_value] at this
    rwa [show (-(i.natAbs : Int)) = i by omega] at this
  · have := decimal_json i.natAbs
    rwa [show ((i.natAbs : Nat) : Int) = i by omega] at this

theorem toUint64_nat (i : Int) (h : 0 ≤ i) (h2 : i < 18446744073709551616) : (toUint64 i : Int) = i := by
  unfold toUint64; omega

/-! ### C60 -/

/-- Text that a JSON string holds as it is: no control characters, quotation marks or backslashes. -/
def Spec.PlainText (t : Bytes) : Prop := ∀ b ∈ t, 32 ≤ b ∧ b ≠ 34 ∧ b ≠ 92

instance (t : Bytes) : Decidable (Spec.PlainText t) := List.decidableBAll _ _

theorem plain_chars : ∀ {t : Bytes}, PlainText t → JsonChars t t
  | [], _ => .nil
  | b :: t, h => .plain (h b (by simp)).1 (h b (by simp)).2.1 (h b (by simp)).2.2 (plain_chars fun x hx => h x (by simp [hx]))

/-- What the JSON of a step of a path should say. -/
def Spec.pathJson : PathNode → Json
  | .str s => .str s
  | .int i => .int i

/-- What the JSON of an error should say: the message; the locations, if any; the path, if any. -/
def Spec.errorJson (e : GErr) : Json :=
  .obj ([(b!"message", .str e.message)] ++
    (if e.locations = [] then [] else [(b!"locations", .arr (e.locations.map fun l => .obj [(b!"line", .int l.line), (b!"column", .int l.col)]))]) ++
    (if e.path = [] then [] else [(b!"path", .arr (e.path.map pathJson))]))

/-- The numbers of the locations are numbers that Go's `int` can hold and not negative, and the texts are plain. -/
structure Spec.PlainError (e : GErr) : Prop where
  message : PlainText e.message
  locations : ∀ l ∈ e.locations, l.line < 9223372036854775808 ∧ 0 ≤ l.col ∧ l.col < 9223372036854775808
  path : ∀ s, .str s ∈ e.path → PlainText s

theorem noSpace : JsonSpace [] := fun _ h => by cases h

theorem member_one {k key t : Bytes} {v : Json} (hk : JsonChars k key) (hv : JsonValue t v) : JsonMembers (34 :: (k ++ 34 :: 58 :: t)) [(key, v)] := by
  have := JsonMembers.one noSpace hk noSpace noSpace hv noSpace
  simpa using this

theorem member_cons {k key t u : Bytes} {v : Json} {ms} (hk : JsonChars k key) (hv : JsonValue t v) (hu : JsonMembers u ms) :
    JsonMembers (34 :: (k ++ 34 :: 58 :: (t ++ 44 :: u))) ((key, v) :: ms) := by
  have := JsonMembers.cons noSpace hk noSpace noSpace hv noSpace hu
  simpa using this

theorem entries_cons {α : Type} (f : α → Bytes) (a : α) (l : List α) : entries f (a :: l) = f a ++ l.flatMap fun x => 44 :: f x := by
  unfold entries
  rw [List.zipIdx_cons, List.flatMap_cons]
  congr 1
  have : ∀ (l : List α) (n : Nat), n > 0 → (l.zipIdx n).flatMap (fun p => (if p.2 > 0 then b!"," else []) ++ f p.1) = l.flatMap fun x => 44 :: f x := by
    intro l
    induction l with
    | nil => intros; rfl
    | cons b l ih =>
      intro n hn
      rw [List.zipIdx_cons, List.flatMap_cons, ih _ (by omega), List.flatMap_cons]
      simp [hn]
  exact this l _ (by omega)

theorem entries_json {α : Type} (f : α → Bytes) (g : α → Json) : ∀ (a : α) (l : List α), (∀ x ∈ a :: l, JsonValue (f x) (g x)) →
    JsonElements (f a ++ l.flatMap fun x => 44 :: f x) ((a :: l).map g)
  | a, [], h => by
    have := JsonElements.one noSpace (h a (by simp)) noSpace
    simpa using this
  | a, b :: l, h => by
    have := JsonElements.cons noSpace (h a (by simp)) noSpace (entries_json f g b l fun x hx => h x (by simp at hx ⊢; exact .inr hx))
    simpa using this

theorem array_json {α : Type} {f : α → Bytes} {g : α → Json} {l : List α} (hn : l ≠ []) (h : ∀ x ∈ l, JsonValue (f x) (g x)) :
    JsonValue (91 :: entries f l ++ [93]) (.arr (l.map g)) := by
  cases l with
  | nil => exact absurd rfl hn
  | cons a l => rw [entries_cons]; exact .arr (entries_json f g a l h)

theorem location_json {l : Location} (h : l.line < 9223372036854775808 ∧ 0 ≤ l.col ∧ l.col < 9223372036854775808) :
    JsonValue (marshalLocation l) (.obj [(b!"line", .int l.line), (b!"column", .int l.col)]) := by
  have h1 := decimal_json (toUint64 l.line)
  have h2 := decimal_json (toUint64 l.col)
  rw [toUint64_nat _ (by omega) (by omega)] at h1 h2
  have := JsonValue.obj (member_cons (plain_chars (t := b!"line") (by decide)) h1 (member_one (plain_chars (t := b!"column") (by decide)) h2))
  unfold marshalLocation
  simpa using this

theorem pathNode_json {p : PathNode} (h : ∀ s, p = .str s → PlainText s) : JsonValue (marshalPathNode p) (pathJson p) := by
  cases p with
  | str s => have := JsonValue.str (plain_chars (h s rfl)); unfold marshalPathNode; simpa [pathJson] using this
  | int i => exact itoa_json i

/-- **C60, in part**: if the message and the strings of the path are plain, the JSON of an error says what it should.
Missing for the full property: messages with quotation marks (`C60_refuted`), backslashes or control characters. -/
theorem C60_partial {e : GErr} (h : PlainError e) : JsonText (marshalJSON e) (errorJson e) := by
  refine ⟨[], marshalJSON e, [], noSpace, ?_, noSpace, by simp⟩
  have hm := JsonValue.str (plain_chars h.message)
  have hl : e.locations ≠ [] → _ := fun hn => array_json (f := marshalLocation) hn fun l hl => location_json (h.locations l hl)
  have hp : e.path ≠ [] → _ := fun hn => array_json (f := marshalPathNode) hn fun p hp => pathNode_json fun s hs => h.path s (hs ▸ hp)
  have k1 := plain_chars (t := b!"message") (by decide)
  have k2 := plain_chars (t := b!"locations") (by decide)
  have k3 := plain_chars (t := b!"path") (by decide)
  unfold marshalJSON errorJson
  by_cases h1 : e.locations = [] <;> by_cases h2 : e.path = []
  · have := JsonValue.obj (member_one k1 hm)
    simpa [h1, h2] using this
  · have := JsonValue.obj (member_cons k1 hm (member_one k3 (hp h2)))
    simpa [h1, h2, List.length_pos_iff] using this
  · have := JsonValue.obj (member_cons k1 hm (member_one k2 (hl h1)))
    simpa [h1, h2, List.length_pos_iff] using this
  · have := JsonValue.obj (member_cons k1 hm (member_cons k2 (hl h1) (member_one k3 (hp h2))))
    simpa [h1, h2, List.length_pos_iff] using this

/-- An error with everything. -/
example : PlainError { message := b!"No fields.", locations := [⟨3, 7⟩, ⟨1, 0⟩], path := [.str b!"a", .int (-1)] } ∧
    marshalJSON { message := b!"No fields.", locations := [⟨3, 7⟩, ⟨1, 0⟩], path := [.str b!"a", .int (-1)] } =
      b!"{\"message\":\"No fields.\",\"locations\":[{\"line\":3,\"column\":7},{\"line\":1,\"column\":0}],\"path\":[\"a\",-1]}" := by
  refine ⟨⟨by decide, by decide, ?_⟩, by decide⟩
  intro s hs
  simp at hs
  subst hs
  decide

theorem chars_unique : ∀ {k s : Bytes}, JsonChars k s → ∀ {p r r' : Bytes}, PlainText p → k ++ 34 :: r = p ++ 34 :: r' → k = p ∧ r = r' := by
  intro k s h
  induction h with
  | nil =>
    intro p r r' hp he
    cases p with
    | nil => exact ⟨rfl, by simpa using he⟩
    | cons b p => simp at he; exact absurd he.1.symm (hp b (by simp)).2.1
  | plain h1 h2 h3 _ ih =>
    intro p r r' hp he
    cases p with
    | nil => simp at he; exact absurd he.1 h2
    | cons b p =>
      simp only [List.cons_append, List.cons.injEq] at he
      obtain ⟨h4, h5⟩ := ih (fun x hx => hp x (by simp [hx])) he.2
      exact ⟨by rw [he.1, h4], h5⟩
  | escape h1 _ ih =>
    intro p r r' hp he
    cases p with
    | nil => simp at he
    | cons b p => simp only [List.cons_append, List.cons.injEq] at he; exact absurd he.1.symm (hp b (by simp)).2.2
  | unicode _ _ _ _ _ _ ih =>
    intro p r r' hp he
    cases p with
    | nil => simp at he
    | cons b p => simp only [List.cons_append, List.cons.injEq] at he; exact absurd he.1.symm (hp b (by simp)).2.2
  | pair _ _ _ _ _ _ _ _ _ _ _ _ _ _ ih =>
    intro p r r' hp he
    cases p with
    | nil => simp at he
    | cons b p => simp only [List.cons_append, List.cons.injEq] at he; exact absurd he.1.symm (hp b (by simp)).2.2
  | half _ _ _ _ _ _ _ ih =>
    intro p r r' hp he
    cases p with
    | nil => simp at he
    | cons b p => simp only [List.cons_append, List.cons.injEq] at he; exact absurd he.1.symm (hp b (by simp)).2.2

/-- A value that starts with a quotation mark is a string; one that starts with a brace is an object. -/
theorem value_start {t : Bytes} {v : Json} (h : JsonValue t v) : ∃ b r, t = b :: r ∧
    (b = 34 → ∃ k s, t = 34 :: k ++ [34] ∧ JsonChars k s) ∧
    (b = 123 → (∃ w, JsonSpace w ∧ t = 123 :: w ++ [125]) ∨ ∃ u ms, JsonMembers u ms ∧ t = 123 :: u ++ [125]) ∧
    ¬ (b = 32 ∨ b = 9 ∨ b = 10 ∨ b = 13) := by
  have digits : ∀ {t u : Bytes}, JsonNatural t → ∃ b r, t ++ u = b :: r ∧ 48 ≤ b ∧ b ≤ 57 := by
    intro t u h
    cases t with
    | nil => exact absurd rfl h.1.1
    | cons b r => exact ⟨b, r ++ u, rfl, h.1.2 b (by simp)⟩
  cases h with
  | null => exact ⟨_, _, rfl, fun h => absurd h (by decide), fun h => absurd h (by decide), by decide⟩
  | true => exact ⟨_, _, rfl, fun h => absurd h (by decide), fun h => absurd h (by decide), by decide⟩
  | false => exact ⟨_, _, rfl, fun h => absurd h (by decide), fun h => absurd h (by decide), by decide⟩
  | str hc => exact ⟨_, _, rfl, fun _ => ⟨_, _, rfl, hc⟩, fun h => absurd h (by decide), by decide⟩
  | nat hn =>
    obtain ⟨b, r, he, h1⟩ := digits (u := []) hn
    rw [List.append_nil] at he
    exact ⟨b, r, he, fun h => by omega, fun h => by omega, by omega⟩
  | neg hn => exact ⟨_, _, rfl, fun h => absurd h (by decide), fun h => absurd h (by decide), by decide⟩
  | @number m t u hm hn hu =>
    obtain ⟨b, r, he, h1⟩ := digits (u := u) hn
    rcases hm with rfl | rfl
    · exact ⟨b, r, by simpa using he, fun h => by omega, fun h => by omega, by omega⟩
    · exact ⟨45, t ++ u, rfl, fun h => absurd h (by decide), fun h => absurd h (by decide), by decide⟩
  | empty hw => exact ⟨_, _, rfl, fun h => absurd h (by decide), fun h => absurd h (by decide), by decide⟩
  | arr hv => exact ⟨_, _, rfl, fun h => absurd h (by decide), fun h => absurd h (by decide), by decide⟩
  | none hw => exact ⟨_, _, rfl, fun h => absurd h (by decide), fun _ => .inl ⟨_, hw, rfl⟩, by decide⟩
  | obj hm => exact ⟨_, _, rfl, fun h => absurd h (by decide), fun _ => .inr ⟨_, _, hm, rfl⟩, by decide⟩

/-- Space before something that does not start with space is empty. -/
theorem space_nil {a r r' : Bytes} {b : Nat} (ha : JsonSpace a) (h : a ++ r = b :: r') (hb : ¬ (b = 32 ∨ b = 9 ∨ b = 10 ∨ b = 13)) : a = [] := by
  cases a with
  | nil => rfl
  | cons x a => simp at h; exact absurd (h.1 ▸ ha x (by simp)) hb

/-- The members of an object start with a key, a value, and then there is a comma or nothing more. -/
theorem members_start {u : Bytes} {ms} (h : JsonMembers u ms) : ∃ a k key b c t v x, JsonSpace a ∧ JsonChars k key ∧ JsonSpace b ∧ JsonSpace c ∧
    JsonValue t v ∧ u = a ++ 34 :: (k ++ 34 :: (b ++ 58 :: (c ++ t ++ x))) ∧ (JsonSpace x ∨ ∃ d y, JsonSpace d ∧ x = d ++ 44 :: y) := by
  cases h with
  | one ha hk hb hc hv hd => exact ⟨_, _, _, _, _, _, _, _, ha, hk, hb, hc, hv, rfl, .inl hd⟩
  | cons ha hk hb hc hv hd hu => exact ⟨_, _, _, _, _, _, _, _, ha, hk, hb, hc, hv, by simp only [List.append_assoc]; rfl, .inr ⟨_, _, hd, rfl⟩⟩

/-- **C60 as stated fails**, for every message with a quotation mark after which there is neither space nor a comma nor a brace, such as that of an error
that quotes a name: its JSON is not well-formed. -/
theorem C60_refuted {e : GErr} {p q : Bytes} {c : Nat} (hm : e.message = p ++ 34 :: c :: q) (hp : PlainText p)
    (hc : c ∉ [32, 9, 10, 13, 44, 125]) : ¬ ∃ v, JsonText (marshalJSON e) v := by
  rintro ⟨v, a, u, b, ha, hv, hb, he⟩
  have hx : ∃ rest, marshalJSON e = 123 :: 34 :: (b!"message" ++ 34 :: 58 :: 34 :: (p ++ 34 :: c :: rest)) := by
    unfold marshalJSON
    rw [hm]
    simp only [List.append_assoc, List.cons_append, List.nil_append]
    exact ⟨_, rfl⟩
  obtain ⟨rest, hx⟩ := hx
  rw [hx, List.append_assoc] at he
  have := space_nil ha he.symm (by decide)
  subst this
  obtain ⟨b1, r1, rfl, -, h2, -⟩ := value_start hv
  simp only [List.nil_append, List.cons_append, List.cons.injEq] at he
  rcases h2 he.1.symm with ⟨w, hw, h3⟩ | ⟨u, ms, hu, h3⟩
  · rw [← he.1] at h3
    simp only [List.cons_append, List.cons.injEq, true_and] at h3
    rw [h3] at he
    cases w with
    | nil => simp at he
    | cons x w =>
      simp only [List.cons_append, List.cons.injEq] at he
      have := hw x (by simp)
      omega
  · rw [← he.1] at h3
    simp only [List.cons_append, List.cons.injEq, true_and] at h3
    rw [h3] at he
    obtain ⟨a, k, key, b', c', t, v', x, ha, hk, hb', hc', hv', rfl, hx'⟩ := members_start hu
    have he := he.2
    simp only [List.append_assoc, List.cons_append] at he
    have := space_nil ha he.symm (by decide)
    subst this
    simp only [List.nil_append, List.cons.injEq, true_and] at he
    obtain ⟨-, he⟩ := chars_unique hk (p := b!"message") (by decide) he.symm
    have := space_nil hb' he (by decide)
    subst this
    simp only [List.nil_append, List.cons.injEq, true_and] at he
    have := space_nil hc' he (by decide)
    subst this
    obtain ⟨b2, r2, h4, h5, -, -⟩ := value_start hv'
    rw [h4] at he
    simp only [List.nil_append, List.cons_append, List.cons.injEq] at he
    obtain ⟨k2, s2, h6, hk2⟩ := h5 he.1
    rw [h4, he.1] at h6
    simp only [List.cons_append, List.cons.injEq, true_and] at h6
    rw [h6] at he
    have he := he.2
    rw [List.append_assoc, List.singleton_append] at he
    obtain ⟨-, he⟩ := chars_unique hk2 hp he
    rcases hx' with hx' | ⟨d, y, hd, rfl⟩
    · cases x with
      | nil => simp at he; simp [← he.1] at hc
      | cons z x => have := hx' z (by simp); simp at he; rw [he.1] at this; simp at hc; omega
    · cases d with
      | nil => simp at he; simp [← he.1] at hc
      | cons z d => have := hd z (by simp); simp at he; rw [he.1] at this; simp at hc; omega

/-- An error that `ParseDoc` returns and whose JSON is not well-formed. -/
theorem C60_refuted_document (pf : Bytes → Option Nat) : ∃ e, parseDoc pf b!"{a(x:1 x:2)}" none = .ret ⟨none, some [e], none⟩ ∧
    marshalJSON e = b!"{\"message\":\"There can be only one argument named \"x\".\"}" ∧ ¬ ∃ v, JsonText (marshalJSON e) v := by
  refine ⟨duplicateArgError b!"x", ?_, rfl, C60_refuted (p := b!"There can be only one argument named ") (c := 120) (q := b!"\".") rfl (by decide) (by decide)⟩
  unfold parseDoc
  rw [(parse_eq (ts := [⟨.punctuator, b!"{", 1, 1⟩, ⟨.name, b!"a", 1, 2⟩, ⟨.punctuator, b!"(", 1, 3⟩, ⟨.name, b!"x", 1, 4⟩, ⟨.punctuator, b!":", 1, 5⟩, ⟨.intValue, b!"1", 1, 6⟩, ⟨.name, b!"x", 1, 8⟩, ⟨.punctuator, b!":", 1, 9⟩, ⟨.intValue, b!"2", 1, 10⟩, ⟨.punctuator, b!")", 1, 11⟩, ⟨.punctuator, b!"}", 1, 12⟩, ⟨.eof, [], 1, 13⟩]) (by decide) rfl)]
  rfl

/-! ### C61 -/

theorem bytesLess_iff : ∀ a b : Bytes, bytesLess a b = true ↔ a < b
  | a, [] => by cases a <;> simp [bytesLess]
  | [], b :: bs => by simp [bytesLess]
  | a :: as, b :: bs => by
    rw [bytesLess, List.cons_lt_cons_iff]
    split
    · simp [*]
    · split
      · simp; omega
      · rw [bytesLess_iff as bs]
        have : a = b := by omega
        simp [this]

theorem less_weak {α : Type} (f : α → Bytes) : StrictWeak fun a b => bytesLess (f a) (f b) := by
  constructor
  · intro a
    rw [Bool.eq_false_iff, Ne, bytesLess_iff]
    exact List.lt_irrefl _
  · intro a b c
    simp only [bytesLess_iff]
    exact List.lt_trans
  · intro a b c h1 h2
    simp only [Bool.eq_false_iff, Ne, bytesLess_iff, List.not_lt] at *
    exact List.le_trans h2 h1

theorem sortErrors_eq (s : SliceSort GErr) (errs : List GErr) :
    sortErrors s errs = (s.sort (fun a b => bytesLess (marshalJSON a) (marshalJSON b)) errs).reverse := by
  unfold sortErrors
  rw [List.foldl_flip_cons_eq_append']
  simp

/-- **C61**: `SortErrors` returns the errors it was given, rearranged so that (going through the list) their JSON texts never increase. -/
theorem C61_sorted (s : SliceSort GErr) (errs : List GErr) : (sortErrors s errs).Perm errs ∧
    (sortErrors s errs).Pairwise fun a b => marshalJSON b ≤ marshalJSON a := by
  rw [sortErrors_eq]
  refine ⟨(List.reverse_perm _).trans (s.perm _ _), ?_⟩
  rw [List.pairwise_reverse]
  refine (s.sorted _ errs (less_weak marshalJSON)).imp fun h => ?_
  rwa [Bool.eq_false_iff, Ne, bytesLess_iff, List.not_lt] at h

theorem sorted_unique : ∀ {l l' : List Bytes}, l.Perm l' → l.Pairwise (fun a b => b ≤ a) → l'.Pairwise (fun a b => b ≤ a) → l = l'
  | [], l', hp, _, _ => hp.nil_eq
  | a :: l, [], hp, _, _ => absurd hp.eq_nil (by simp)
  | a :: l, b :: l', hp, h, h' => by
    have hab : a = b := by
      rw [List.pairwise_cons] at h h'
      have h1 : b ∈ a :: l := hp.mem_iff.2 (by simp)
      have h2 : a ∈ b :: l' := hp.mem_iff.1 (by simp)
      rcases List.mem_cons.1 h1 with h1 | h1
      · exact h1.symm
      · rcases List.mem_cons.1 h2 with h2 | h2
        · exact h2
        · exact List.le_antisymm (h'.1 a h2) (h.1 b h1)
    subst hab
    rw [sorted_unique hp.cons_inv (List.pairwise_cons.1 h).2 (List.pairwise_cons.1 h').2]

/-- **C61**: two lists with the same errors give the same sequence of JSON texts, in whatever order the errors were, and whatever `sort.Slice` does with
ties. -/
theorem C61_canonical (s s' : SliceSort GErr) {errs errs' : List GErr} (h : errs.Perm errs') :
    (sortErrors s errs).map marshalJSON = (sortErrors s' errs').map marshalJSON := by
  obtain ⟨h1, h2⟩ := C61_sorted s errs
  obtain ⟨h3, h4⟩ := C61_sorted s' errs'
  exact sorted_unique ((h1.trans (h.trans h3.symm)).map _) (by rwa [List.pairwise_map]) (by rwa [List.pairwise_map])

example : sortErrors mergeSorter [newError b!"b", newError b!"c", newError b!"a"] = [newError b!"c", newError b!"b", newError b!"a"] := by
  simp [sortErrors, mergeSorter, List.mergeSort, marshalJSON, bytesLess, newError, List.MergeSort.Internal.splitInTwo]

end GQL
