/-
Inserting ignorable text between tokens (for C11).
-/
import Verif.Props.C03

namespace GQL
open Spec

theorem Spec.Sep.head {c : Char} {t : List Char} (h : Sep (c :: t)) : ignored c = true ∨ c = '#' := by
  cases h with
  | ign h => exact .inl h
  | comment => exact .inr rfl

/-- What may follow a token is unchanged if the next character is the same, ignored or `#`. -/
def Follow (rest rest' : List Char) : Prop :=
  ∀ c t, rest' = c :: t → (ignored c = true ∨ c = '#') ∨ ∃ t', rest = c :: t'

theorem notNext_follow {p : Char → Bool} {rest rest' : List Char} (h : notNext p rest)
    (hf : Follow rest rest') (hp : ∀ c, (ignored c = true ∨ c = '#') → p c = false) :
    notNext p rest' := by
  intro c t e
  rcases hf c t e with h1 | ⟨t', h1⟩
  · exact hp c h1
  · exact h c t' h1

theorem ignored_cases {c : Char} (h : ignored c = true ∨ c = '#') :
    c = '\uFEFF' ∨ c = '\t' ∨ c = ' ' ∨ c = '\n' ∨ c = '\r' ∨ c = ',' ∨ c = '#' := by
  simp only [ignored, lineTerm, Bool.or_eq_true, beq_iff_eq] at h
  rcases h with ((((h | h) | h) | (h | h)) | h) | h <;> simp [h]

theorem strText_follow {s v rest : List Char} (h : StrText s v rest) :
    ∃ lx, s = lx ++ rest ∧ ∀ rest', StrText (lx ++ rest') v rest' := by
  induction h with
  | close rest => exact ⟨['"'], rfl, fun r => .close r⟩
  | char c h1 h2 h3 _ ih =>
    obtain ⟨lx, rfl, h⟩ := ih; exact ⟨c :: lx, rfl, fun r => .char c h1 h2 h3 (h r)⟩
  | esc e x he _ ih =>
    obtain ⟨lx, rfl, h⟩ := ih; exact ⟨'\\' :: e :: lx, rfl, fun r => .esc e x he (h r)⟩
  | @unicode a b c d _ _ _ _ _ _ _ h1 h2 h3 h4 _ ih =>
    obtain ⟨lx, rfl, h⟩ := ih
    exact ⟨'\\' :: 'u' :: a :: b :: c :: d :: lx, rfl, fun r => .unicode h1 h2 h3 h4 (h r)⟩

theorem prefix3_congr {c x y z : Char} {l r r' : List Char} :
    quotes3 <+: (c :: (x :: y :: z :: l) ++ r) ↔ quotes3 <+: (c :: (x :: y :: z :: l) ++ r') := by
  simp [quotes3, List.cons_prefix_cons]

theorem goBlockText_follow {s v rest : List Char} (h : GoBlockText s v rest) :
    ∃ x y z lx, s = (x :: y :: z :: lx) ++ rest ∧
      ∀ rest', GoBlockText ((x :: y :: z :: lx) ++ rest') v rest' := by
  induction h with
  | close rest => exact ⟨_, _, _, [], rfl, fun r => .close r⟩
  | esc _ ih =>
    obtain ⟨x, y, z, lx, rfl, h⟩ := ih
    exact ⟨'\\', '"', '"', '"' :: x :: y :: z :: lx, rfl, fun r => .esc (h r)⟩
  | pair c hq _ ih =>
    obtain ⟨x, y, z, lx, rfl, h⟩ := ih
    exact ⟨'\\', c, x, y :: z :: lx, rfl, fun r => .pair c (fun hh => hq (prefix3_congr.1 hh)) (h r)⟩
  | cr _ ih =>
    obtain ⟨x, y, z, lx, rfl, h⟩ := ih
    exact ⟨'\r', x, y, z :: lx, rfl, fun r => .cr (h r)⟩
  | char c h1 h2 hq h4 _ ih =>
    obtain ⟨x, y, z, lx, rfl, h⟩ := ih
    exact ⟨c, x, y, z :: lx, rfl,
      fun r => .char c h1 h2 (fun hh => hq (prefix3_congr.1 hh)) h4 (h r)⟩

theorem lexeme_follow {s rest lx : List Char} {tok : Tok} (h : Lexeme GoBlock s tok rest)
    (hs : s = lx ++ rest) {rest' : List Char} (hf : Follow rest rest') :
    Lexeme GoBlock (lx ++ rest') tok rest' := by
  cases h with
  | punct c rest hc =>
    have : lx = [c] := (List.append_cancel_right (show [c] ++ rest = lx ++ rest from hs)).symm
    subst this; exact .punct c _ hc
  | spread =>
    have : lx = ['.', '.', '.'] :=
      (List.append_cancel_right (show ['.', '.', '.'] ++ rest = lx ++ rest from hs)).symm
    subst this; exact .spread _
  | name c w rest h1 h2 h3 =>
    have : lx = c :: w := (List.append_cancel_right (show c :: w ++ rest = lx ++ rest from hs)).symm
    subst this
    refine .name c w _ h1 h2 (notNext_follow h3 hf ?_)
    intro c hc; rcases ignored_cases hc with rfl | rfl | rfl | rfl | rfl | rfl | rfl <;> decide
  | int i rest hi h3 =>
    have := List.append_cancel_right hs; subst this
    refine .int i _ hi (notNext_follow h3 hf ?_)
    intro c hc; rcases ignored_cases hc with rfl | rfl | rfl | rfl | rfl | rfl | rfl <;> decide
  | fraction i f rest hi h2 h3 =>
    have := List.append_cancel_right hs; subst this
    refine .fraction i f _ hi h2 (notNext_follow h3 hf ?_)
    intro c hc; rcases ignored_cases hc with rfl | rfl | rfl | rfl | rfl | rfl | rfl <;> decide
  | exponent i f rest hi h2 h3 =>
    have := List.append_cancel_right hs; subst this
    refine .exponent i f _ hi h2 (notNext_follow h3 hf ?_)
    intro c hc; rcases ignored_cases hc with rfl | rfl | rfl | rfl | rfl | rfl | rfl <;> decide
  | fracExp i f e rest hi h2 h4 h3 =>
    have := List.append_cancel_right hs; subst this
    refine .fracExp i f e _ hi h2 h4 (notNext_follow h3 hf ?_)
    intro c hc; rcases ignored_cases hc with rfl | rfl | rfl | rfl | rfl | rfl | rfl <;> decide
  | string h h2 =>
    obtain ⟨x, rfl, h'⟩ := strText_follow h
    have : '"' :: x = lx := List.append_cancel_right (show '"' :: x ++ rest = lx ++ rest from hs)
    subst this
    refine .string (h' _) fun hv => notNext_follow (h2 hv) hf ?_
    intro c hc; rcases ignored_cases hc with rfl | rfl | rfl | rfl | rfl | rfl | rfl <;> decide
  | block h =>
    obtain ⟨raw, h, e⟩ := h
    obtain ⟨x, y, z, w, rfl, h'⟩ := goBlockText_follow h
    have : quotes3 ++ x :: y :: z :: w = lx :=
      List.append_cancel_right (show quotes3 ++ x :: y :: z :: w ++ rest = lx ++ rest by simpa using hs)
    subst this
    have := Lexeme.block (B := GoBlock) ⟨raw, h' rest', e⟩
    simpa using this

theorem Spec.Sep.lex {B : List Char → List Char → List Char → Prop} {pre s text rest : List Char}
    {items : List Item} (h : Sep s) (hl : Lex B (pre ++ s) text items rest) :
    Lex B pre (s ++ text) items rest := by
  induction h generalizing pre with
  | nil => simpa using hl
  | ign hc _ ih => exact .ignore hc (ih (by simpa using hl))
  | @comment body t s h1 h2 _ ih =>
    have : Lex B (pre ++ '#' :: body) (t :: (s ++ text)) items rest := by
      refine .ignore (by simp [ignored, h2]) (ih ?_)
      simpa using hl
    have := Lex.comment h1 (by rintro c t' e; cases e; exact h2) this
    simpa using this

/-- The tokens do not depend on what comes before. -/
theorem lex_rebase {B : List Char → List Char → List Char → Prop} {pre s rest : List Char}
    {items : List Item} (h : Lex B pre s items rest) (pre' : List Char) :
    ∃ items', Lex B pre' s items' rest ∧ items'.map (·.tok) = items.map (·.tok) := by
  induction h generalizing pre' with
  | done => exact ⟨[], .done _ _, rfl⟩
  | ignore hc _ ih => obtain ⟨i, h, e⟩ := ih _; exact ⟨i, .ignore hc h, e⟩
  | comment h1 h2 _ ih => obtain ⟨i, h, e⟩ := ih _; exact ⟨i, .comment h1 h2 h, e⟩
  | token h1 _ ih =>
    obtain ⟨i, h, e⟩ := ih _; exact ⟨_, .token h1 h, by simp [e]⟩

/-- Every token lies after `pre` and is not empty. -/
theorem lex_before {pre s rest : List Char} {items : List Item} (h : Lex GoBlock pre s items rest) :
    ∀ i ∈ items, (∃ x, i.before = pre ++ x) ∧ i.chars ≠ [] := by
  induction h with
  | done => intro i hi; cases hi
  | ignore _ _ ih =>
    intro i hi; obtain ⟨⟨x, e⟩, h⟩ := ih i hi; exact ⟨⟨_ , by rw [e, List.append_assoc]⟩, h⟩
  | comment _ _ _ ih =>
    intro i hi; obtain ⟨⟨x, e⟩, h⟩ := ih i hi; exact ⟨⟨_ , by rw [e, List.append_assoc]⟩, h⟩
  | token hl _ ih =>
    intro i hi
    rcases List.mem_cons.1 hi with rfl | hi
    · obtain ⟨lx, e, hne⟩ := lexeme_split hl
      exact ⟨⟨[], by simp⟩, by rw [List.append_cancel_right e]; exact hne⟩
    · obtain ⟨⟨x, e⟩, h⟩ := ih i hi; exact ⟨⟨_ , by rw [e, List.append_assoc]⟩, h⟩

theorem lex_insert {pre text rest : List Char} {items : List Item} (h : Lex GoBlock pre text items rest)
    {s : List Char} (hs : Sep s) {i : Item} (hi : i ∈ items) {a b : List Char} (hab : text = a ++ b)
    (ha : pre ++ a = i.before ∨ pre ++ a = i.before ++ i.chars) (pre' : List Char) :
    ∃ items', Lex GoBlock pre' (a ++ s ++ b) items' rest ∧ items'.map (·.tok) = items.map (·.tok) := by
  have hfol : ∀ {a b : List Char}, Follow (a ++ b) (a ++ s ++ b) := by
    intro a b c t e
    cases a with
    | cons d a => right; cases e; exact ⟨_, rfl⟩
    | nil =>
      cases s with
      | nil => right; exact ⟨t, by simpa using e⟩
      | cons d s => left; cases e; exact hs.head
  induction h generalizing a b pre' with
  | done => cases hi
  | @ignore pre c text items rest hc hl ih =>
    obtain ⟨⟨x, e⟩, -⟩ := lex_before hl i hi
    obtain ⟨a', rfl⟩ : ∃ a', a = [c] ++ a' := by
      rw [e] at ha
      rcases ha with ha | ha
      · rw [List.append_assoc, List.append_cancel_left_eq] at ha; exact ⟨_, ha⟩
      · rw [List.append_assoc, List.append_assoc, List.append_cancel_left_eq] at ha; exact ⟨_, ha⟩
    obtain ⟨i', h', e'⟩ := ih hi (a := a') (b := b) (by simpa using hab)
      (by rw [List.append_assoc]; exact ha) (pre' ++ [c])
    exact ⟨i', .ignore hc h', e'⟩
  | @comment pre body text items rest h1 h2 hl ih =>
    obtain ⟨⟨x, e⟩, -⟩ := lex_before hl i hi
    obtain ⟨a', rfl⟩ : ∃ a', a = ('#' :: body) ++ a' := by
      rw [e] at ha
      rcases ha with ha | ha
      · rw [List.append_assoc, List.append_cancel_left_eq] at ha; exact ⟨_, ha⟩
      · rw [List.append_assoc, List.append_assoc, List.append_cancel_left_eq] at ha; exact ⟨_, ha⟩
    have hab' : text = a' ++ b := by
      rw [List.append_assoc] at hab; exact List.append_cancel_left hab
    have ha' : pre ++ '#' :: body ++ a' = i.before ∨ pre ++ '#' :: body ++ a' = i.before ++ i.chars := by
      rw [List.append_assoc]; exact ha
    obtain ⟨i', h', e'⟩ := ih hi hab' ha' (pre' ++ '#' :: body)
    refine ⟨i', ?_, e'⟩
    have := Lex.comment (pre := pre') h1 (text := a' ++ s ++ b) ?_ h'
    · simpa using this
    · cases a' with
      | cons d a' =>
        intro c t e; cases e
        exact h2 d (a' ++ b) (by rw [hab']; rfl)
      | nil =>
        exfalso
        rw [List.append_nil] at ha'
        cases hl with
        | done => cases hi
        | @ignore pre c text' items rest hc hl' =>
          obtain ⟨⟨x, e⟩, -⟩ := lex_before hl' i hi
          rw [e, List.append_assoc (pre ++ '#' :: body)] at ha'
          rcases ha' with ha' | ha'
          · have := congrArg List.length ha'; simp at this
          · have := congrArg List.length ha'; simp at this
        | @comment pre body2 text' items rest h1' h2' hl' =>
          have := h2 '#' _ rfl
          exact absurd this (by decide)
        | @token _ lx text' tok items rest hlx hl' =>
          obtain ⟨lx', e, hne⟩ := lexeme_split hlx
          cases List.append_cancel_right e
          cases lx with
          | nil => exact hne rfl
          | cons d lx =>
            have hh := h2 d _ rfl
            have := (lexeme_not_ignored hlx).1
            simp [ignored, hh] at this
  | @token pre lx text tok items rest hlx hl ih =>
    have tail : ∀ {a'}, i ∈ items → a = lx ++ a' → ∃ items', Lex GoBlock pre' (a ++ s ++ b) items' rest ∧
        items'.map (·.tok) = List.map (·.tok) (⟨tok, pre, lx⟩ :: items) := by
      rintro a' hi rfl
      have hab' : text = a' ++ b := by
        rw [List.append_assoc] at hab; exact List.append_cancel_left hab
      have ha' : pre ++ lx ++ a' = i.before ∨ pre ++ lx ++ a' = i.before ++ i.chars := by
        rw [List.append_assoc]; exact ha
      obtain ⟨i', h', e'⟩ := ih hi hab' ha' (pre' ++ lx)
      have := Lex.token (lexeme_follow hlx rfl (rest' := a' ++ s ++ b) (hab' ▸ hfol)) h'
      exact ⟨_, by simpa using this, by simp [e']⟩
    rcases List.mem_cons.1 hi with rfl | hi
    · rcases ha with ha | ha
      · have ha : a = [] := List.append_cancel_left (ha.trans (List.append_nil pre).symm)
        subst ha
        obtain ⟨i', h', e'⟩ := lex_rebase (Lex.token hlx hl) (pre' ++ s)
        rw [List.nil_append] at hab ⊢
        exact ⟨i', hab ▸ hs.lex h', e'⟩
      · have ha : a = lx := List.append_cancel_left ha
        subst ha
        have hb := List.append_cancel_left hab; subst hb
        obtain ⟨i', h', e'⟩ := lex_rebase hl (pre' ++ a ++ s)
        have := Lex.token (lexeme_follow hlx rfl (rest' := s ++ text) (hfol (a := []) (b := text))) (hs.lex h')
        exact ⟨_, by simpa using this, by simp [e']⟩
    · obtain ⟨⟨x, e⟩, -⟩ := lex_before hl i hi
      rw [e] at ha
      rcases ha with ha | ha
      · rw [List.append_assoc, List.append_cancel_left_eq] at ha; exact tail hi ha
      · rw [List.append_assoc, List.append_assoc, List.append_cancel_left_eq] at ha; exact tail hi ha

end GQL
