/-
At every text either a token begins or something is wrong that has a message.
-/
import Verif.Proofs.LexError

namespace GQL
open Spec

/-- A token begins here, or there is a message. -/
def Told (s : List Char) : Prop := (∃ tok rest, Lexeme GoBlock s tok rest) ∨ ∃ m, LexError s m

theorem notNext_or (p : Char → Bool) (s : List Char) : notNext p s ∨ ∃ c t, s = c :: t ∧ p c = true := by
  cases s with
  | nil => left; intro c t h; cases h
  | cons c t =>
    cases h : p c with
    | true => exact .inr ⟨c, t, rfl, h⟩
    | false => left; intro d u e; cases e; exact h

theorem told_frac {i f rest : List Char} (hi : IsIntegerPart i) (hf : f = [] ∨ IsFraction f)
    (hr : notNext Char.isDigit rest) (hd : f = [] → notNext (· == '.') rest) : Told (i ++ f ++ rest) := by
  rcases notNext_or (fun c => c == 'e' || c == 'E') rest with hn | ⟨e, u, rfl, he⟩
  · left
    rcases hf with rfl | hf
    · rw [List.append_nil]
      refine ⟨_, _, Lexeme.int i rest hi ?_⟩
      intro c t e
      have h1 := hr c t e; have h2 := hn c t e; have h3 := hd rfl c t e
      simp only [Bool.or_eq_false_iff] at h2 ⊢
      exact ⟨⟨⟨h1, h3⟩, h2.1⟩, h2.2⟩
    · refine ⟨_, _, .fraction i f rest hi hf ?_⟩
      intro c t e
      have h1 := hr c t e; have h2 := hn c t e
      simp only [Bool.or_eq_false_iff] at h2 ⊢
      exact ⟨⟨h1, h2.1⟩, h2.2⟩
  · have he : e = 'e' ∨ e = 'E' := by simpa using he
    have fin : ∀ s t, (s = [] ∧ notNext (fun c => c == '+' || c == '-') t ∨ s = ['+'] ∨ s = ['-']) →
        u = s ++ t → Told (i ++ f ++ e :: u) := by
      intro s t hs hu
      subst hu
      rcases notNext_or Char.isDigit t with hn | ⟨d, v, rfl, hd'⟩
      · right
        exact ⟨_, by simpa using LexError.exponent hi hf he hs hn⟩
      · left
        obtain ⟨ds, r2, e1, h1, h2⟩ := span Char.isDigit (d :: v)
        have hds : IsDigits ds := by
          refine ⟨?_, h1⟩
          rintro rfl
          have := h2 d v (by rw [e1]; rfl)
          rw [hd'] at this; cases this
        rw [e1]
        have hex : IsExponent (e :: (s ++ ds)) := by
          rcases hs with ⟨rfl, -⟩ | rfl | rfl
          · exact .plain e ds he hds
          · exact .signed e '+' ds he (.inl rfl) hds
          · exact .signed e '-' ds he (.inr rfl) hds
        rcases hf with rfl | hf
        · exact ⟨_, _, by simpa using Lexeme.exponent i _ r2 hi hex h2⟩
        · exact ⟨_, _, by simpa using Lexeme.fracExp i f _ r2 hi hf hex h2⟩
    rcases notNext_or (fun c => c == '+' || c == '-') u with hn | ⟨s, v, rfl, hs⟩
    · exact fin [] u (.inl ⟨rfl, hn⟩) rfl
    · simp only [Bool.or_eq_true, beq_iff_eq] at hs
      rcases hs with rfl | rfl
      · exact fin ['+'] v (.inr (.inl rfl)) rfl
      · exact fin ['-'] v (.inr (.inr rfl)) rfl

theorem told_int {i rest : List Char} (hi : IsIntegerPart i) (hr : notNext Char.isDigit rest) :
    Told (i ++ rest) := by
  rcases notNext_or (· == '.') rest with hn | ⟨x, u, rfl, hx⟩
  · simpa using told_frac (f := []) hi (.inl rfl) hr (fun _ => hn)
  · have hx : x = '.' := by simpa using hx
    subst hx
    rcases notNext_or Char.isDigit u with hn | ⟨d, v, rfl, hd⟩
    · exact .inr ⟨_, .fraction hi hn⟩
    · obtain ⟨ds, r2, e1, h1, h2⟩ := span Char.isDigit (d :: v)
      have hds : IsDigits ds := by
        refine ⟨?_, h1⟩
        rintro rfl
        have := h2 d v (by rw [e1]; rfl)
        rw [hd] at this; cases this
      rw [e1]
      simpa using told_frac (f := '.' :: ds) hi (.inr (.mk ds hds)) h2 (fun h => by cases h)

theorem told_digits {sign : List Char} {d : Char} {t : List Char} (hs : sign = [] ∨ sign = ['-'])
    (hd : d.isDigit = true) : Told (sign ++ d :: t) := by
  by_cases h0 : d = '0'
  · subst h0
    rcases notNext_or Char.isDigit t with hn | ⟨e, u, rfl, he⟩
    · have hi : IsIntegerPart (sign ++ ['0']) := by
        rcases hs with rfl | rfl
        · exact .zero
        · exact .negZero
      simpa using told_int hi hn
    · exact .inr ⟨_, .zero hs he⟩
  · obtain ⟨ds, r2, e1, h1, h2⟩ := span Char.isDigit t
    subst e1
    have hi : IsIntegerPart (sign ++ d :: ds) := by
      rcases hs with rfl | rfl
      · exact .pos d ds hd h0 h1
      · exact .neg d ds hd h0 h1
    simpa using told_int hi h2

/-! ### Strings -/

theorem strScan_total (n : Nat) : ∀ s : List Char, s.length < n → ∃ es x, StrScan s es x := by
  induction n with
  | zero => intro s h; omega
  | succ n ih =>
    intro s hn
    cases s with
    | nil => exact ⟨_, _, .stop (.inr (by decide))⟩
    | cons c s =>
      by_cases h1 : c = '"'
      · exact ⟨_, _, .stop (.inl h1)⟩
      by_cases h2 : c = '\\'
      · subst h2
        by_cases hu : peek s = 'u'
        · obtain _ | ⟨u, s⟩ := s
          · cases hu
          have : u = 'u' := hu
          subst this
          obtain ⟨es, x, h⟩ := ih (s.drop 4) (by simp at hn ⊢; omega)
          exact ⟨_, _, .unicode h⟩
        · obtain ⟨es, x, h⟩ := ih s.tail (by simp at hn ⊢; omega)
          exact ⟨_, _, .esc hu h⟩
      · cases h3 : printable c with
        | false => exact ⟨_, _, .stop (.inr h3)⟩
        | true =>
          obtain ⟨es, x, h⟩ := ih s (by simp at hn ⊢; omega)
          exact ⟨_, _, .char h1 h2 h3 h⟩

theorem strText_of_scan {s : List Char} {es : List (List Char)} {x : Char} (h : StrScan s es x) (hx : x = '"')
    (hg : ∀ e ∈ es, GoodEscape e) : ∃ v rest, StrText s v rest := by
  induction h with
  | @stop s hs =>
    cases s with
    | nil => cases hx
    | cons c s => have : c = '"' := hx; subst this; exact ⟨_, _, .close s⟩
  | char h1 h2 h3 _ ih =>
    obtain ⟨v, rest, h⟩ := ih hx hg
    exact ⟨_, _, .char _ h1 h2 h3 h⟩
  | @esc s es x h1 _ ih =>
    obtain ⟨v, rest, h⟩ := ih hx (fun e he => hg e (List.mem_cons_of_mem _ he))
    have hp := hg _ (List.mem_cons_self ..)
    generalize hq : peek s = q at hp
    cases hp with
    | simple hm =>
      cases s with
      | nil => subst hq; exact absurd ((simpleEscape_table _ _).1 hm) (by simp [peek, simpleEscape])
      | cons d s => have : d = q := hq; subst this; exact ⟨_, _, .esc _ _ hm h⟩
  | @unicode s es x hsc ih =>
    subst hx
    obtain ⟨a, b, c, d, t, rfl⟩ := four hsc
    obtain ⟨v, rest, h⟩ := ih rfl (fun e he => hg e (List.mem_cons_of_mem _ he))
    have hg' : GoodEscape ['u', a, b, c, d] := hg _ (List.mem_cons_self ..)
    cases hg' with
    | unicode g1 g2 g3 g4 =>
      obtain ⟨i, g1⟩ := Option.isSome_iff_exists.1 g1
      obtain ⟨j, g2⟩ := Option.isSome_iff_exists.1 g2
      obtain ⟨k, g3⟩ := Option.isSome_iff_exists.1 g3
      obtain ⟨m, g4⟩ := Option.isSome_iff_exists.1 g4
      exact ⟨_, _, .unicode g1 g2 g3 g4 h⟩

theorem firstBad (es : List (List Char)) : (∀ e ∈ es, GoodEscape e) ∨
    ∃ before e after, es = before ++ e :: after ∧ (∀ f ∈ before, GoodEscape f) ∧ ¬ GoodEscape e := by
  induction es with
  | nil => left; intro e h; cases h
  | cons e es ih =>
    by_cases h : GoodEscape e
    · rcases ih with ih | ⟨b, f, a, rfl, h1, h2⟩
      · left; intro f hf
        rcases List.mem_cons.1 hf with rfl | hf
        · exact h
        · exact ih f hf
      · refine .inr ⟨e :: b, f, a, rfl, ?_, h2⟩
        intro g hg
        rcases List.mem_cons.1 hg with rfl | hg
        · exact h
        · exact h1 g hg
    · exact .inr ⟨[], e, es, rfl, by simp, h⟩

theorem told_string {s : List Char} (hn : ¬ ['"', '"'] <+: s) : Told ('"' :: s) := by
  obtain ⟨es, x, h⟩ := strScan_total (s.length + 1) s (by omega)
  by_cases hx : x = '"'
  · subst hx
    rcases firstBad es with hg | ⟨b, e, a, rfl, h1, h2⟩
    · left
      obtain ⟨v, rest, hst⟩ := strText_of_scan h rfl hg
      refine ⟨_, _, .string hst ?_⟩
      rintro rfl c t rfl
      cases hst with
      | close =>
        cases hc : c == '"' with
        | false => exact hc
        | true => rw [beq_iff_eq] at hc; subst hc; exact absurd ⟨t, rfl⟩ hn
    · exact .inr ⟨_, .string hn (.escape h h1 h2)⟩
  · exact .inr ⟨_, .string hn (.stopped h hx)⟩

/-! ### Block strings -/

theorem blockScan_total (n : Nat) : ∀ s : List Char, NoNul s → s.length < n →
    (∃ raw rest, GoBlockText s raw rest) ∨ ∃ x, BlockScan s x := by
  induction n with
  | zero => intro s _ h; omega
  | succ n ih =>
    intro s hz hn
    cases s with
    | nil => exact .inr ⟨_, .eof⟩
    | cons c s =>
      simp only [List.length_cons] at hn
      by_cases h1 : c = '"'
      · subst h1
        by_cases hq : ['"', '"'] <+: s
        · obtain ⟨t, rfl⟩ := hq
          exact .inl ⟨_, _, .close t⟩
        · have hl := passLast_length s
          rcases ih (passLast s) (passLast_noNul hz.tail) (by omega) with ⟨raw, rest, h⟩ | ⟨x, h⟩
          · left
            by_cases h1 : s.length = 1
            · unfold passLast at h; rw [if_pos h1] at h
              obtain ⟨a, b, c, t, e⟩ := h.three; cases e
            · unfold passLast at h; rw [if_neg h1] at h
              refine ⟨_, _, .char '"' (by decide) (by decide) ?_ (.inl (by decide)) h⟩
              intro hh
              obtain ⟨t, e⟩ := hh
              apply hq
              exact ⟨t, by simpa [quotes3] using e⟩
          · exact .inr ⟨x, .quote hq h⟩
      by_cases h2 : c = '\\'
      · subst h2
        by_cases hp : peek s = '"'
        · obtain _ | ⟨q, s⟩ := s
          · cases hp
          have : q = '"' := hp
          subst this
          simp only [List.length_cons] at hn
          by_cases hq : ['"', '"'] <+: s
          · obtain ⟨t, rfl⟩ := hq
            rcases ih t (hz.tail.tail.right (a := ['"', '"'])) (by simp at hn; omega) with ⟨raw, rest, h⟩ | ⟨x, h⟩
            · exact .inl ⟨_, _, .esc h⟩
            · exact .inr ⟨x, .escQuotes h⟩
          · have hl := passLast_length s
            rcases ih (passLast s) (passLast_noNul hz.tail.tail) (by omega) with ⟨raw, rest, h⟩ | ⟨x, h⟩
            · left
              by_cases h1 : s.length = 1
              · unfold passLast at h; rw [if_pos h1] at h
                obtain ⟨a, b, c, t, e⟩ := h.three; cases e
              · unfold passLast at h; rw [if_neg h1] at h
                refine ⟨_, _, .pair '"' ?_ h⟩
                intro hh
                obtain ⟨t, e⟩ := hh
                apply hq
                exact ⟨t, by simpa [quotes3] using e⟩
            · exact .inr ⟨x, .escQuote hq h⟩
        · obtain _ | ⟨d, s⟩ := s
          · exact .inr ⟨_, .esc hp .eof⟩
          simp only [List.length_cons] at hn
          rcases ih s hz.tail.tail (by omega) with ⟨raw, rest, h⟩ | ⟨x, h⟩
          · refine .inl ⟨_, _, .pair d ?_ h⟩
            intro hh
            exact hp (pref3' hh)
          · exact .inr ⟨x, .esc hp h⟩
      · by_cases h3 : printable c = true ∨ lineTerm c = true
        · rcases ih s hz.tail (by omega) with ⟨raw, rest, h⟩ | ⟨x, h⟩
          · left
            by_cases hcr : c = '\r'
            · subst hcr; exact ⟨_, _, .cr h⟩
            · refine ⟨_, _, .char c h2 hcr (fun hh => h1 (pref3' hh)) ?_ h⟩
              rcases h3 with h3 | h3
              · exact .inl h3
              · simp only [lineTerm, Bool.or_eq_true, beq_iff_eq] at h3
                exact .inr (h3.resolve_right hcr)
          · exact .inr ⟨x, .char h1 h2 h3 h⟩
        · refine .inr ⟨c, .control ?_ ?_⟩
          · cases hh : printable c with
            | false => rfl
            | true => exact absurd (.inl hh) h3
          · cases hh : lineTerm c with
            | false => rfl
            | true => exact absurd (.inr hh) h3

/-- Every text at which no token begins has a message. -/
theorem told {c : Char} {t : List Char} (hz : NoNul (c :: t)) (hi : ignored c = false) (hh : c ≠ '#') :
    Told (c :: t) := by
  by_cases hns : nameStart c = true
  · obtain ⟨w, rest, e, h1, h2⟩ := span nameCont t
    subst e
    exact .inl ⟨_, _, .name c w rest hns h1 h2⟩
  by_cases hp : c ∈ punctuators
  · exact .inl ⟨_, _, .punct c t hp⟩
  by_cases hdot : c = '.'
  · subst hdot
    by_cases hq : ['.', '.'] <+: t
    · obtain ⟨r, rfl⟩ := hq
      exact .inl ⟨_, _, .spread r⟩
    · exact .inr ⟨_, .dots hq⟩
  by_cases hd : c.isDigit = true
  · exact told_digits (sign := []) (.inl rfl) hd
  by_cases hm : c = '-'
  · subst hm
    rcases notNext_or Char.isDigit t with hn | ⟨d, u, rfl, hd⟩
    · exact .inr ⟨_, .minus hn⟩
    · exact told_digits (sign := ['-']) (.inr rfl) hd
  by_cases hq : c = '"'
  · subst hq
    by_cases h2 : ['"', '"'] <+: t
    · obtain ⟨s, rfl⟩ := h2
      rcases blockScan_total (s.length + 1) s (hz.right (a := quotes3)) (by omega) with ⟨raw, rest, h⟩ | ⟨x, h⟩
      · exact .inl ⟨_, _, .block ⟨raw, h, rfl⟩⟩
      · by_cases hx : x = '\x00'
        · subst hx; exact .inr ⟨_, .unclosed h⟩
        · exact .inr ⟨_, .block h hx⟩
    · exact told_string h2
  · refine .inr ⟨[c], .char (by simpa using hns) hp (by simpa using hd) ?_ hi⟩
    simp [hdot, hm, hq, hh]

/-- An Illegal token and any other token do not come from the same text. -/
theorem lexError_stuck {s m : List Char} (hz : NoNul s) (h : LexError s m) : Stuck GoBlock s := by
  have hcons : ∃ c t, s = c :: t ∧ ignored c = false ∧ c ≠ '#' := by
    have dig : ∀ {c : Char}, (c.isDigit = true ∨ c = '-') → ignored c = false ∧ c ≠ '#' := by
      rintro c (h | rfl)
      · constructor
        · cases hi : ignored c with
          | false => rfl
          | true =>
            exfalso
            simp only [ignored, lineTerm, Bool.or_eq_true, beq_iff_eq] at hi
            rcases hi with (((rfl | rfl) | rfl) | rfl | rfl) | rfl <;> revert h <;> decide
        · rintro rfl; revert h; decide
      · decide
    have num : ∀ {i x}, IsIntegerPart i → ∃ c t, i ++ x = c :: t ∧ ignored c = false ∧ c ≠ '#' := by
      intro i x hi
      obtain ⟨c, w, rfl, -, hcd⟩ := intPart_head hi
      exact ⟨c, w ++ x, rfl, dig hcd⟩
    cases h with
    | @char c t h1 h2 h3 h4 h5 => exact ⟨c, t, rfl, h5, fun hh => h4 (by simp [hh])⟩
    | dots => exact ⟨_, _, rfl, by decide, by decide⟩
    | zero hs hd =>
      rcases hs with rfl | rfl
      · exact ⟨_, _, rfl, by decide, by decide⟩
      · exact ⟨_, _, rfl, by decide, by decide⟩
    | minus => exact ⟨_, _, rfl, by decide, by decide⟩
    | fraction hi => exact num hi
    | @exponent i f e s t hi =>
      obtain ⟨c, t', e', h'⟩ := num (x := f ++ e :: s ++ t) hi
      exact ⟨c, t', by rw [← e']; simp, h'⟩
    | string => exact ⟨_, _, rfl, by decide, by decide⟩
    | unclosed => exact ⟨_, _, rfl, by decide, by decide⟩
    | block => exact ⟨_, _, rfl, by decide, by decide⟩
  obtain ⟨c, t, rfl, h1, h2⟩ := hcons
  refine ⟨c, t, rfl, h1, h2, ?_⟩
  intro tok rest hlx
  obtain ⟨tk, l', e, hk, -⟩ := scanTok_refused (lS := newLexer (utf8 (c :: t))) ⟨Nat.zero_le _, rfl⟩ hz h
  obtain ⟨lx, e2, -⟩ := lexeme_split hlx
  have ha : At (newLexer (utf8 (c :: t))) (lx ++ rest) := by rw [← e2]; exact ⟨Nat.zero_le _, rfl⟩
  rw [e2] at hlx hz
  obtain ⟨t', l'', e3, s⟩ := lexeme_complete hlx ha hz
  rw [← e2, e] at e3
  cases e3
  have := s.kind
  rw [hk] at this
  cases hkk : tok.kind <;> rw [hkk] at this <;> cases this

end GQL
