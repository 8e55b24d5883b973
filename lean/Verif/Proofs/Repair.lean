/-
Bytes and their text (for C80).
-/
import Verif.Proofs.LexTwinTok

namespace GQL
open Spec

theorem decode_utf8Char (c : Char) (t : Bytes) : decodeRune (utf8Char c ++ t) = (c.toNat, (utf8Char c).length) := by
  rw [utf8Char_eq]
  exact decode_encode c.toNat (char_valid c) t

/-- No character is the beginning of another. -/
theorem utf8Char_prefix {c d : Char} {s t : Bytes} (h : utf8Char c ++ s = utf8Char d ++ t) : c = d ∧ s = t := by
  have h1 := decode_utf8Char c s
  rw [h, decode_utf8Char d t] at h1
  have e : d = c := toNat_inj (Prod.mk.inj h1).1
  subst e
  exact ⟨rfl, List.append_cancel_left h⟩

/-- The bytes of a character after the first are not the first of any. -/
theorem utf8Char_tail (c : Char) {x : Nat} {a u : Bytes} (h : utf8Char c = a ++ x :: u) (ha : a ≠ []) : 128 ≤ x ∧ x < 192 := by
  have : ∀ y ∈ (utf8Char c).tail, 128 ≤ y ∧ y < 192 := by
    rw [utf8Char_eq, encodeRune_eq _ (char_valid c)]
    repeat' split
    all_goals (intro y hy; simp at hy; try omega)
  refine this x ?_
  cases a with
  | nil => exact absurd rfl ha
  | cons z a => rw [h]; simp

theorem utf8Char_head (c : Char) {x : Nat} {u : Bytes} (h : utf8Char c = x :: u) : x < 128 ∨ 192 ≤ x := by
  have : ∀ y ∈ (utf8Char c).head?, y < 128 ∨ 192 ≤ y := by
    have hv := char_valid c
    unfold Nat.isValidChar at hv
    rw [utf8Char_eq, encodeRune_eq _ (char_valid c)]
    repeat' split
    all_goals (intro y hy; simp at hy; omega)
  exact this x (by rw [h]; rfl)

theorem repaired_total : ∀ (n : Nat) (b : Bytes), b.length ≤ n → ∃ cs, Repaired b cs
  | _, [], _ => ⟨[], .nil⟩
  | 0, x :: b, h => by simp at h
  | n + 1, x :: b, h => by
    by_cases hc : ∃ c t, x :: b = utf8Char c ++ t
    · obtain ⟨c, t, e⟩ := hc
      have h1 := congrArg List.length e
      have h2 := utf8Char_length_pos c
      simp at h1 h
      obtain ⟨cs, hr⟩ := repaired_total n t (by omega)
      exact ⟨c :: cs, e ▸ .char c hr⟩
    · obtain ⟨cs, hr⟩ := repaired_total n b (by simp at h; omega)
      exact ⟨replacement :: cs, .bad (fun c t e => hc ⟨c, t, e⟩) hr⟩

theorem repaired_unique {b : Bytes} {cs : List Char} (h : Repaired b cs) : ∀ {ds}, Repaired b ds → cs = ds := by
  induction h with
  | nil =>
    intro ds h
    generalize e : ([] : Bytes) = b at h
    cases h with
    | nil => rfl
    | char d h => exact absurd (congrArg List.length e) (by have := utf8Char_length_pos d; simp; omega)
    | bad => cases e
  | @char c b cs _ ih =>
    intro ds h
    generalize e : utf8Char c ++ b = b2 at h
    cases h with
    | nil => exact absurd (List.append_eq_nil_iff.1 e).1 (utf8Char_ne_nil c)
    | char d h =>
      obtain ⟨rfl, rfl⟩ := utf8Char_prefix e
      rw [ih h]
    | bad hx h => exact absurd e.symm (hx c b)
  | @bad x b cs hx _ ih =>
    intro ds h
    generalize e : x :: b = b2 at h
    cases h with
    | nil => cases e
    | char d h => exact absurd e (hx d _)
    | bad _ h => cases e; rw [ih h]

theorem ends_of_char {c : Char} {b : Bytes} (h : EndsInChar (utf8Char c ++ b)) : EndsInChar b := by
  rcases h with h | ⟨a, d, h⟩
  · exact absurd (List.append_eq_nil_iff.1 h).1 (utf8Char_ne_nil c)
  rcases List.append_eq_append_iff.1 h with ⟨u, e1, e2⟩ | ⟨u, e1, e2⟩
  · exact .inr ⟨u, d, e2⟩
  · cases u with
    | nil => exact .inr ⟨[], d, e2.symm⟩
    | cons x u =>
      by_cases ha : a = []
      · subst ha
        rw [List.nil_append] at e1
        rw [← e1] at e2
        have : utf8Char d ++ [] = utf8Char c ++ b := by rw [List.append_nil, e2]
        exact .inl (utf8Char_prefix this).2.symm
      · have h1 := utf8Char_tail c e1 ha
        have h2 := utf8Char_head d e2
        omega

theorem twin_of {b : Bytes} {cs : List Char} (h : Repaired b cs) : EndsInChar b → Twin b cs := by
  induction h with
  | nil => exact fun _ => .nil
  | char c _ ih => exact fun he => .char c (ih (ends_of_char he))
  | @bad x b cs hx _ ih =>
    rintro (he | ⟨a, d, he⟩)
    · cases he
    · cases a with
      | nil => exact absurd (by simpa using he) (hx d [])
      | cons y a =>
        have he2 : b = a ++ utf8Char d := (List.cons.inj he).2
        refine .bad hx ?_ (ih (.inr ⟨a, d, he2⟩))
        rw [he2]
        exact fun h => utf8Char_ne_nil d (List.append_eq_nil_iff.1 h).2

theorem noNul_repaired {b : Bytes} {cs : List Char} (h : Repaired b cs) (h0 : 0 ∉ b) : '\x00' ∉ cs := by
  induction h with
  | nil => simp
  | @char c b cs _ ih =>
    rw [List.mem_append] at h0
    rintro (_ | ⟨_, hc⟩)
    · exact h0 (.inl (by decide))
    · exact ih (fun h => h0 (.inr h)) hc
  | bad _ _ ih =>
    rintro (_ | ⟨_, hc⟩)
    exact ih (fun h => h0 (by simp [h])) hc

/-- ASCII text comes from itself. -/
theorem rep_ascii {b b' : Bytes} (h : RepB b b') (ha : ∀ x ∈ b', x < 128) : b = b' := by
  obtain ⟨m, h, rfl⟩ := h
  induction h with
  | nil => rfl
  | @char c b m _ ih => rw [utf8_cons] at ha ⊢; rw [ih fun x hx => ha x (by simp [hx])]
  | @bad x b m _ _ ih =>
    have := ha 0xEF (by rw [utf8_cons]; exact List.mem_append_left _ (by decide))
    omega

theorem rep_nil {b b' : Bytes} (h : RepB b b') : b = [] ↔ b' = [] := by
  obtain ⟨m, h, rfl⟩ := h
  cases h with
  | nil => exact ⟨fun _ => rfl, fun _ => rfl⟩
  | char c _ => rw [utf8_cons]; simp [utf8Char_ne_nil]
  | bad _ _ => rw [utf8_cons]; simp [utf8Char_ne_nil]

end GQL
