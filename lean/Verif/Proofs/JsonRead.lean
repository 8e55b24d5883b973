/-
Reading JSON that was written without escapes (for C60 and C67): if the text stands for what was written, nothing in it needed an escape.
-/
import Verif.Props.C60

namespace GQL
open Spec

theorem utf8Char_length (c : Char) : (utf8Char c).length ≤ 4 := by
  unfold utf8Char
  rw [List.length_map, String.length_utf8EncodeChar]
  exact Char.utf8Size_le_four c

theorem hex_no_quote {b : Nat} (h : JsonHex b) : b ≠ 34 := by
  unfold JsonHex at h; omega

/-- One piece of a string: what it stands for is not longer than its text. -/
theorem ahead_step {w e d t s x z : Bytes} (hl : d.length < w.length + e.length) (he : w ++ (e ++ t ++ 34 :: x) = d ++ s ++ 34 :: z) :
    ∃ w', w' ≠ [] ∧ w ++ e = d ++ w' ∧ w' ++ (t ++ 34 :: x) = s ++ 34 :: z := by
  have h : (w ++ e) ++ (t ++ 34 :: x) = d ++ (s ++ 34 :: z) := by simpa using he
  rcases List.append_eq_append_iff.1 h with ⟨a, h1, h2⟩ | ⟨c, h1, h2⟩
  · have := congrArg List.length h1
    simp at this
    omega
  · refine ⟨c, ?_, h1, h2.symm⟩
    rintro rfl
    have := congrArg List.length h1
    simp at this
    omega

/-- Text that is ahead of what it should stand for never gets back. -/
theorem chars_ahead : ∀ {t s : Bytes}, JsonChars t s → ∀ {w x z : Bytes}, w ≠ [] → 34 ∉ w → w ++ (t ++ 34 :: x) = s ++ 34 :: z → False := by
  have key : ∀ {w e d t s x z : Bytes}, (∀ {w x z : Bytes}, w ≠ [] → 34 ∉ w → w ++ (t ++ 34 :: x) = s ++ 34 :: z → False) →
      34 ∉ w → 34 ∉ e → d.length < w.length + e.length → w ++ (e ++ t ++ 34 :: x) = d ++ s ++ 34 :: z → False := by
    intro w e d t s x z ih hw he hl h
    obtain ⟨w', h1, h2, h3⟩ := ahead_step hl h
    refine ih h1 (fun hm => ?_) h3
    have : 34 ∈ w ++ e := by rw [h2]; simp [hm]
    rcases List.mem_append.1 this with h | h
    · exact hw h
    · exact he h
  intro t s h
  induction h with
  | nil =>
    intro w x z h1 h2 h3
    cases w with
    | nil => exact h1 rfl
    | cons b w => simp at h3; simp [h3.1] at h2
  | @plain b t s g1 g2 g3 _ ih =>
    intro w x z h1 h2 h3
    have := List.length_pos_iff.2 h1
    exact key (e := [b]) (d := [b]) ih h2 (by simpa using g2.symm) (by simp; omega) (by simpa using h3)
  | @escape c r t s g _ ih =>
    intro w x z h1 h2 h3
    have := List.length_pos_iff.2 h1
    by_cases hc : c = 34
    · subst hc
      have hr : r = 34 := by simp [jsonEscapes] at g; exact g
      subst hr
      cases w with
      | nil => exact h1 rfl
      | cons b w => simp at h3; simp [h3.1] at h2
    · exact key (e := [92, c]) (d := [r]) ih h2 (by simp; exact fun h => hc h.symm) (by simp <;> omega) (by simpa using h3)
  | @unicode a b c d t s y ha hb hc hd _ _ ih =>
    intro w x z h1 h2 h3
    have := utf8Char_length y
    refine key (e := [92, 117, a, b, c, d]) (d := utf8Char y) ih h2 ?_ (by simp; omega) (by simpa using h3)
    simp [(hex_no_quote ha).symm, (hex_no_quote hb).symm, (hex_no_quote hc).symm, (hex_no_quote hd).symm]
  | @pair a b c d a' b' c' d' t s y ha hb hc hd ha' hb' hc' hd' _ _ _ _ _ _ ih =>
    intro w x z h1 h2 h3
    have := utf8Char_length y
    refine key (e := [92, 117, a, b, c, d, 92, 117, a', b', c', d']) (d := utf8Char y) ih h2 ?_ (by simp; omega) (by simpa using h3)
    simp [(hex_no_quote ha).symm, (hex_no_quote hb).symm, (hex_no_quote hc).symm, (hex_no_quote hd).symm,
      (hex_no_quote ha').symm, (hex_no_quote hb').symm, (hex_no_quote hc').symm, (hex_no_quote hd').symm]
  | @half a b c d t s ha hb hc hd _ _ _ ih =>
    intro w x z h1 h2 h3
    refine key (e := [92, 117, a, b, c, d]) (d := [0xEF, 0xBF, 0xBD]) ih h2 ?_ (by simp <;> omega) (by simpa using h3)
    simp [(hex_no_quote ha).symm, (hex_no_quote hb).symm, (hex_no_quote hc).symm, (hex_no_quote hd).symm]

/-- A string that was written as it is reads as itself only if it needs no escapes. -/
theorem chars_same {t s : Bytes} (h : JsonChars t s) : ∀ {x y : Bytes}, t ++ 34 :: x = s ++ 34 :: y → t = s ∧ x = y ∧ PlainText s := by
  have key : ∀ {e d t s x z : Bytes}, JsonChars t s → 34 ∉ e → d.length < e.length → e ++ t ++ 34 :: x = d ++ s ++ 34 :: z → False := by
    intro e d t s x z ht he hl h
    obtain ⟨w', h1, h2, h3⟩ := ahead_step (w := []) (e := e) (by simpa using hl) (by simpa using h)
    refine chars_ahead ht h1 (fun hm => ?_) h3
    have : 34 ∈ e := by rw [List.nil_append] at h2; rw [h2]; simp [hm]
    exact he this
  induction h with
  | nil => intro x y he; exact ⟨rfl, by simpa using he, fun b hb => by cases hb⟩
  | @plain b t s g1 g2 g3 _ ih =>
    intro x y he
    simp only [List.cons_append, List.cons.injEq, true_and] at he
    obtain ⟨h1, h2, h3⟩ := ih he
    refine ⟨by rw [h1], h2, ?_⟩
    intro c hc
    rcases List.mem_cons.1 hc with rfl | hc
    · exact ⟨g1, g2, g3⟩
    · exact h3 c hc
  | @escape c r t s g ht ih =>
    intro x y he
    by_cases hc : c = 34
    · subst hc
      have hr : r = 34 := by simp [jsonEscapes] at g; exact g
      subst hr
      simp at he
    · exact (key (e := [92, c]) (d := [r]) ht (by simp; exact fun h => hc h.symm) (by simp) (by simpa using he)).elim
  | @unicode a b c d t s y' ha hb hc hd _ ht ih =>
    intro x y he
    have := utf8Char_length y'
    refine (key (e := [92, 117, a, b, c, d]) (d := utf8Char y') ht ?_ (by simp; omega) (by simpa using he)).elim
    simp [(hex_no_quote ha).symm, (hex_no_quote hb).symm, (hex_no_quote hc).symm, (hex_no_quote hd).symm]
  | @pair a b c d a' b' c' d' t s y' ha hb hc hd ha' hb' hc' hd' _ _ _ _ _ ht ih =>
    intro x y he
    have := utf8Char_length y'
    refine (key (e := [92, 117, a, b, c, d, 92, 117, a', b', c', d']) (d := utf8Char y') ht ?_ (by simp; omega) (by simpa using he)).elim
    simp [(hex_no_quote ha).symm, (hex_no_quote hb).symm, (hex_no_quote hc).symm, (hex_no_quote hd).symm,
      (hex_no_quote ha').symm, (hex_no_quote hb').symm, (hex_no_quote hc').symm, (hex_no_quote hd').symm]
  | @half a b c d t s ha hb hc hd _ _ ht ih =>
    intro x y he
    refine (key (e := [92, 117, a, b, c, d]) (d := [0xEF, 0xBF, 0xBD]) (x := x) (z := y) ht ?_ (by simp) he).elim
    simp [(hex_no_quote ha).symm, (hex_no_quote hb).symm, (hex_no_quote hc).symm, (hex_no_quote hd).symm]

/-- No digit comes next. -/
def EndsNumber (t : Bytes) : Prop := ∀ b r, t = b :: r → ¬ (48 ≤ b ∧ b ≤ 57)

/-- The text starts, and not with space. -/
def NoSpaceFirst (t : Bytes) : Prop := ∃ b r, t = b :: r ∧ ¬ (b = 32 ∨ b = 9 ∨ b = 10 ∨ b = 13)

/-- If text that begins like `text` stands for `v`, it is `text`, and `ok` holds. -/
structure Rigid (text : Bytes) (v : Json) (ok : Prop) : Prop where
  first : NoSpaceFirst text
  same : ∀ {t x y : Bytes}, JsonValue t v → t ++ x = text ++ y → EndsNumber x → EndsNumber y → t = text ∧ x = y ∧ ok

theorem rigid_str (s : Bytes) : Rigid (34 :: s ++ [34]) (.str s) (PlainText s) where
  first := ⟨34, s ++ [34], rfl, by decide⟩
  same := by
    intro t x y h he _ _
    cases h with
    | @str t' _ h =>
      simp only [List.cons_append, List.append_assoc, List.singleton_append, List.cons.injEq, true_and] at he
      obtain ⟨h1, h2, h3⟩ := chars_same h he
      exact ⟨by rw [h1], h2, h3⟩

theorem digits_same : ∀ {a b x y : Bytes}, (∀ c ∈ a, 48 ≤ c ∧ c ≤ 57) → (∀ c ∈ b, 48 ≤ c ∧ c ≤ 57) → a ++ x = b ++ y → EndsNumber x → EndsNumber y → a = b ∧ x = y
  | [], [], _, _, _, _, h, _, _ => ⟨rfl, by simpa using h⟩
  | [], c :: b, _, _, _, h2, h, hx, _ => absurd (h2 c (by simp)) (hx _ _ (by simpa using h))
  | c :: a, [], _, _, h1, _, h, _, hy => absurd (h1 c (by simp)) (hy _ _ (by simpa using h.symm))
  | c :: a, d :: b, x, y, h1, h2, h, hx, hy => by
    simp only [List.cons_append, List.cons.injEq] at h
    obtain ⟨h3, h4⟩ := digits_same (fun c hc => h1 c (by simp [hc])) (fun c hc => h2 c (by simp [hc])) h.2 hx hy
    exact ⟨by rw [h.1, h3], h4⟩

theorem natural_first {t : Bytes} (h : JsonNatural t) : ∃ b r, t = b :: r ∧ 48 ≤ b ∧ b ≤ 57 := by
  cases t with
  | nil => exact absurd rfl h.1.1
  | cons b r => exact ⟨b, r, rfl, h.1.2 b (by simp)⟩

theorem rigid_nat (i : Int) (n : Nat) : Rigid (decimal n) (.int i) (i = n) where
  first := by
    obtain ⟨b, r, h, hb⟩ := natural_first (decimal_natural n)
    exact ⟨b, r, h, by omega⟩
  same := by
    intro t x y h he hx hy
    cases h with
    | nat h =>
      obtain ⟨h1, h2⟩ := digits_same h.1.2 (decimal_natural n).1.2 he hx hy
      exact ⟨h1, h2, by rw [h1, decimal_value]⟩
    | neg h =>
      obtain ⟨b, r, h, hb⟩ := natural_first (decimal_natural n)
      rw [h] at he
      simp at he
      omega

theorem rigid_int (i : Int) : Rigid (itoa i) (.int i) True := by
  unfold itoa
  split
  · refine ⟨⟨45, _, rfl, by decide⟩, ?_⟩
    intro t x y h he hx hy
    cases h with
    | @nat t h =>
      obtain ⟨b, r, h, hb⟩ := natural_first h
      rw [h] at he
      simp at he
      omega
    | neg h =>
      simp only [List.cons_append, List.cons.injEq, true_and] at he
      obtain ⟨h1, h2⟩ := digits_same h.1.2 (decimal_natural _).1.2 he hx hy
      exact ⟨congrArg _ h1, h2, trivial⟩
  · have h := rigid_nat i i.natAbs
    exact ⟨h.first, fun h1 h2 h3 h4 => ⟨(h.same h1 h2 h3 h4).1, (h.same h1 h2 h3 h4).2.1, trivial⟩⟩

theorem rigid_null : Rigid b!"null" .null True :=
  ⟨⟨_, _, rfl, by decide⟩, fun h he _ _ => by cases h; exact ⟨rfl, List.append_cancel_left he, trivial⟩⟩

theorem rigid_bool (b : Bool) : Rigid (if b then b!"true" else b!"false") (.bool b) True := by
  cases b
  · exact ⟨⟨_, _, rfl, by decide⟩, fun h he _ _ => by cases h; exact ⟨rfl, List.append_cancel_left he, trivial⟩⟩
  · exact ⟨⟨_, _, rfl, by decide⟩, fun h he _ _ => by cases h; exact ⟨rfl, List.append_cancel_left he, trivial⟩⟩

theorem rigid_number {text : Bytes} (h : NoSpaceFirst text) :
    Rigid text (.number text) (∃ m n u, text = m ++ n ++ u ∧ (m = [] ∨ m = b!"-") ∧ JsonNatural n ∧ JsonTail u) := by
  refine ⟨h, fun h he _ _ => ?_⟩
  cases h with
  | number h1 h2 h3 => exact ⟨rfl, List.append_cancel_left he, _, _, _, rfl, h1, h2, h3⟩

/-- Space before something that is not space. -/
theorem no_space {a r text : Bytes} (ha : JsonSpace a) (ht : NoSpaceFirst text) {y : Bytes} (h : a ++ r = text ++ y) : a = [] := by
  obtain ⟨b, r', rfl, hb⟩ := ht
  exact space_nil ha h hb

/-- Space, and then a comma or a bracket, ends a number. -/
theorem space_ends {a r : Bytes} {b : Nat} (ha : JsonSpace a) (hb : ¬ (48 ≤ b ∧ b ≤ 57)) : EndsNumber (a ++ b :: r) := by
  intro c r' h
  cases a with
  | nil => simp at h; rw [← h.1]; exact hb
  | cons x a => simp at h; have := ha x (by simp); omega

theorem cons_ends {b : Nat} {r : Bytes} (hb : ¬ (48 ≤ b ∧ b ≤ 57)) : EndsNumber (b :: r) := space_ends (a := []) noSpace hb

/-- Texts of the elements or members, separated by commas. -/
def commas : List Bytes → Bytes
  | [] => []
  | [t] => t
  | t :: u :: ts => t ++ 44 :: commas (u :: ts)

section
variable {α : Type} {f : α → Bytes} {g : α → Json} {ok : α → Prop}

theorem rigid_elements {c : Nat} (hc : ¬ (48 ≤ c ∧ c ≤ 57)) (hs : ¬ (c = 32 ∨ c = 9 ∨ c = 10 ∨ c = 13)) (hn : c ≠ 44) : ∀ {l : List α}, (∀ a ∈ l, Rigid (f a) (g a) (ok a)) → ∀ {t x y : Bytes}, JsonElements t (l.map g) →
    t ++ c :: x = commas (l.map f) ++ c :: y → t = commas (l.map f) ∧ x = y ∧ ∀ a ∈ l, ok a
  | [], _, _, _, _, h, _ => by cases h
  | [e], h, t, x, y, ht, he => by
    cases ht with
    | @one a t b _ ha hv hb =>
      simp only [List.map_cons, List.map_nil, commas, List.append_assoc] at he
      have := no_space ha (h e (by simp)).first he
      subst this
      obtain ⟨h1, h2, h3⟩ := (h e (by simp)).same hv he (space_ends hb hc) (cons_ends hc)
      have := space_nil hb h2 hs
      subst this
      exact ⟨by simp [commas, h1], by simpa using h2, fun a ha => by rw [List.mem_singleton.1 ha]; exact h3⟩
    | cons _ _ _ hu => cases hu
  | e :: e' :: l, h, t, x, y, ht, he => by
    cases ht with
    | @cons a t b u _ _ ha hv hb hu =>
      simp only [List.map_cons, commas, List.append_assoc, List.cons_append] at he
      have := no_space ha (h e (by simp)).first he
      subst this
      obtain ⟨h1, h2, h3⟩ := (h e (by simp)).same hv he (space_ends hb (by decide)) (cons_ends (by decide))
      have := space_nil hb h2 (by decide)
      subst this
      simp only [List.nil_append, List.cons.injEq, true_and] at h2
      obtain ⟨h4, h5, h6⟩ := rigid_elements hc hs hn (l := e' :: l) (fun a ha => h a (by simp only [List.mem_cons] at ha ⊢; exact .inr ha)) hu
        (by simpa only [List.map_cons] using h2)
      refine ⟨by rw [h1, h4]; simp [commas], h5, fun a ha => ?_⟩
      rcases List.mem_cons.1 ha with rfl | ha
      · exact h3
      · exact h6 a ha

theorem rigid_arr {l : List α} (h : ∀ a ∈ l, Rigid (f a) (g a) (ok a)) : Rigid (91 :: commas (l.map f) ++ [93]) (.arr (l.map g)) (∀ a ∈ l, ok a) := by
  refine ⟨⟨91, _, rfl, by decide⟩, ?_⟩
  intro t x y ht he _ _
  generalize hg : l.map g = vs at ht
  cases ht with
  | empty hw =>
    have hl : l = [] := by simpa using hg
    subst hl
    simp only [List.map_nil, commas, List.cons_append, List.nil_append, List.append_assoc, List.cons.injEq, true_and] at he
    have := space_nil hw he (by decide)
    subst this
    exact ⟨rfl, by simpa using he, fun a ha => by cases ha⟩
  | arr hv =>
    rw [← hg] at hv
    simp only [List.cons_append, List.nil_append, List.append_assoc, List.cons.injEq, true_and] at he
    obtain ⟨h1, h2, h3⟩ := rigid_elements (by decide) (by decide) (by decide) h hv he
    exact ⟨by rw [h1], h2, h3⟩

variable {name : α → Bytes}

/-- One member of an object, written without escapes. -/
def memberText (name f : α → Bytes) (a : α) : Bytes := 34 :: (name a ++ 34 :: 58 :: f a)

theorem rigid_members : ∀ {l : List α}, (∀ a ∈ l, Rigid (f a) (g a) (ok a)) → ∀ {t x y : Bytes}, JsonMembers t (l.map fun a => (name a, g a)) →
    t ++ 125 :: x = commas (l.map (memberText name f)) ++ 125 :: y → t = commas (l.map (memberText name f)) ∧ x = y ∧ ∀ a ∈ l, PlainText (name a) ∧ ok a
  | [], _, _, _, _, h, _ => by cases h
  | [e], h, t, x, y, ht, he => by
    cases ht with
    | @one a k b c t d _ _ ha hk hb hc hv hd =>
      simp only [List.map_cons, List.map_nil, commas, memberText, List.append_assoc, List.cons_append] at he
      have := space_nil ha he (by decide)
      subst this
      simp only [List.nil_append, List.cons.injEq, true_and] at he
      obtain ⟨h1, h2, h3⟩ := chars_same hk he
      subst h1
      have := space_nil hb h2 (by decide)
      subst this
      simp only [List.nil_append, List.cons.injEq, true_and] at h2
      have := no_space hc (h e (by simp)).first h2
      subst this
      obtain ⟨h4, h5, h6⟩ := (h e (by simp)).same hv (by simpa using h2) (space_ends hd (by decide)) (cons_ends (by decide))
      have := space_nil hd h5 (by decide)
      subst this
      refine ⟨by simp [commas, memberText, h4], by simpa using h5, fun a ha => ?_⟩
      rw [List.mem_singleton.1 ha]
      exact ⟨h3, h6⟩
    | cons _ _ _ _ _ _ hu => cases hu
  | e :: e' :: l, h, t, x, y, ht, he => by
    cases ht with
    | @cons a k b c t d u _ _ _ ha hk hb hc hv hd hu =>
      simp only [List.map_cons, commas, memberText, List.append_assoc, List.cons_append] at he
      have := space_nil ha he (by decide)
      subst this
      simp only [List.nil_append, List.cons.injEq, true_and] at he
      obtain ⟨h1, h2, h3⟩ := chars_same hk he
      subst h1
      have := space_nil hb h2 (by decide)
      subst this
      simp only [List.nil_append, List.cons.injEq, true_and] at h2
      have := no_space hc (h e (by simp)).first h2
      subst this
      obtain ⟨h4, h5, h6⟩ := (h e (by simp)).same hv (by simpa using h2) (space_ends hd (by decide)) (cons_ends (by decide))
      have := space_nil hd h5 (by decide)
      subst this
      simp only [List.nil_append, List.cons.injEq, true_and] at h5
      obtain ⟨h7, h8, h9⟩ := rigid_members (l := e' :: l) (fun a ha => h a (by simp only [List.mem_cons] at ha ⊢; exact .inr ha)) hu
        (by simpa only [List.map_cons, memberText] using h5)
      refine ⟨by rw [h4, h7]; simp [commas, memberText], h8, fun a ha => ?_⟩
      rcases List.mem_cons.1 ha with rfl | ha
      · exact ⟨h3, h6⟩
      · exact h9 a ha

theorem rigid_obj {l : List α} (h : ∀ a ∈ l, Rigid (f a) (g a) (ok a)) :
    Rigid (123 :: commas (l.map (memberText name f)) ++ [125]) (.obj (l.map fun a => (name a, g a))) (∀ a ∈ l, PlainText (name a) ∧ ok a) := by
  refine ⟨⟨123, _, rfl, by decide⟩, ?_⟩
  intro t x y ht he _ _
  generalize hg : (l.map fun a => (name a, g a)) = vs at ht
  cases ht with
  | none hw =>
    have hl : l = [] := by simpa using hg
    subst hl
    simp only [List.map_nil, commas, List.cons_append, List.nil_append, List.append_assoc, List.cons.injEq, true_and] at he
    have := space_nil hw he (by decide)
    subst this
    exact ⟨rfl, by simpa using he, fun a ha => by cases ha⟩
  | obj hv =>
    rw [← hg] at hv
    simp only [List.cons_append, List.nil_append, List.append_assoc, List.cons.injEq, true_and] at he
    obtain ⟨h1, h2, h3⟩ := rigid_members h hv he
    exact ⟨by rw [h1], h2, h3⟩

end

/-- A whole text. -/
theorem rigid_text {text : Bytes} {v : Json} {ok : Prop} (h : Rigid text v ok) (ht : JsonText text v) : ok := by
  obtain ⟨a, u, b, ha, hu, hb, he⟩ := ht
  have := no_space ha h.first (y := []) (r := u ++ b) (by rw [List.append_nil, ← List.append_assoc]; exact he.symm)
  subst this
  refine (h.same (x := b) (y := []) hu (by rw [he]; simp) ?_ (fun c r h => by cases h)).2.2
  intro c r hc
  have := hb c (by rw [hc]; simp)
  omega

end GQL
