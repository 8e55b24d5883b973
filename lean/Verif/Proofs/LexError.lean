/-
The messages of Illegal tokens.
-/
import Verif.Proofs.LexRun
import Verif.Spec.LexError

namespace GQL
open Spec

theorem nxt_peek (s : List Char) : nxt s = (peek s).toNat := by cases s <;> rfl

theorem ne34 {c : Char} (h : c ≠ '"') : ¬ c.toNat = 34 := toNat_ne (d := '"') h
theorem ne92 {c : Char} (h : c ≠ '\\') : ¬ c.toNat = 92 := toNat_ne (d := '\\') h
theorem ne117 {c : Char} (h : c ≠ 'u') : ¬ c.toNat = 117 := toNat_ne (d := 'u') h

theorem escape_ascii : ∀ n, n < 128 →
    goEscapeRune 39 n = utf8 (goEscape '\'' (Char.ofNat n)) ∧
    goEscapeRune 34 n = utf8 (goEscape '"' (Char.ofNat n)) := by
  set_option maxRecDepth 20000 in decide

theorem ofNat_toNat (c : Char) : Char.ofNat c.toNat = c := toNat_inj (toNat_ofNat (char_valid c))

theorem escape_wide {q : Char} (hq : q.toNat < 128) {c : Char} (h : ¬ c.toNat < 128) :
    goEscapeRune q.toNat c.toNat = utf8 (goEscape q c) := by
  have h1 : ¬ (c.toNat = q.toNat ∨ c.toNat = 92) := by omega
  have h2 : ¬ (c = q ∨ c = '\\') := by
    rintro (rfl | rfl)
    · exact h hq
    · exact h (by decide)
  unfold goEscapeRune goEscape
  rw [if_neg h1, if_pos (by omega), if_neg h2]
  have h3 : goEscapes.lookup c = none := by
    rw [List.lookup_eq_none_iff]
    intro p hp
    simp only [goEscapes, List.mem_cons, List.not_mem_nil, or_false] at hp
    rw [bne_iff_ne]
    rintro rfl
    rcases hp with rfl | rfl | rfl | rfl | rfl | rfl | rfl <;> exact h (by decide)
  rw [h3]; dsimp only
  rw [if_neg (by omega)]
  simp [utf8, utf8Char_eq]

theorem escape_single (c : Char) : goEscapeRune 39 c.toNat = utf8 (goEscape '\'' c) := by
  by_cases h : c.toNat < 128
  · have := (escape_ascii _ h).1; rwa [ofNat_toNat] at this
  · exact escape_wide (q := '\'') (by decide) h

theorem escape_double (c : Char) : goEscapeRune 34 c.toNat = utf8 (goEscape '"' c) := by
  by_cases h : c.toNat < 128
  · have := (escape_ascii _ h).2; rwa [ofNat_toNat] at this
  · exact escape_wide (q := '"') (by decide) h

theorem quoteRune_char (c : Char) : quoteRune c.toNat = utf8 (goChar c) := by
  unfold quoteRune goChar
  rw [escape_single, utf8_append, utf8_append]; rfl

theorem bytes_text (s : String) (b : Bytes) (h : b = utf8 s.toList) (t : List Char) :
    b ++ utf8 t = utf8 (s.toList ++ t) := by rw [h, utf8_append]

theorem msgBadStringChar_char (c : Char) : msgBadStringChar c.toNat =
    utf8 ("invalid character within string: ".toList ++ goChar c) := by
  unfold msgBadStringChar; rw [quoteRune_char]; exact bytes_text _ _ (by decide) _

theorem msgBadBlockChar_char (c : Char) : msgBadBlockChar c.toNat =
    utf8 ("invalid character within block string: ".toList ++ goChar c) := by
  unfold msgBadBlockChar; rw [quoteRune_char]; exact bytes_text _ _ (by decide) _

theorem msgDigitAfterZero_char (c : Char) : msgDigitAfterZero c.toNat =
    utf8 ("invalid number, unexpected digit after 0: ".toList ++ goChar c) := by
  unfold msgDigitAfterZero; rw [quoteRune_char]; exact bytes_text _ _ (by decide) _

theorem msgNotDigit_char (c : Char) : msgNotDigit c.toNat =
    utf8 ("invalid number, expected digit but got: ".toList ++ goChar c) := by
  unfold msgNotDigit; rw [quoteRune_char]; exact bytes_text _ _ (by decide) _

theorem msgEofInBlock_text : msgEofInBlock =
    utf8 "unexpected eof, probably unclosed block string".toList := by decide

theorem msgBadPunct_char (a b c : Char) : msgBadPunct a.toNat b.toNat c.toNat =
    utf8 ("invalid punctuator, expected \"...\" but got: ".toList ++ goString [a, b, c]) := by
  unfold msgBadPunct goString
  rw [escape_double, escape_double, escape_double]
  have h : b!"invalid punctuator, expected \"...\" but got: \"" =
      utf8 "invalid punctuator, expected \"...\" but got: ".toList ++ utf8 ['"'] := by decide
  have h' : b!"\"" = utf8 ['"'] := by decide
  rw [h, h']
  simp only [utf8_append, List.flatMap_cons, List.flatMap_nil, List.append_nil, List.append_assoc]

theorem msgBadEscape_char (c : Char) : msgBadEscape c.toNat =
    utf8 ("invalid character escape sequence: \\".toList ++ [c]) := by
  unfold msgBadEscape
  rw [← utf8Char_eq, show utf8Char c = utf8 [c] by simp [utf8]]
  exact bytes_text _ _ (by decide) _

theorem msgBadUnicode_char (a b c d : Char) : msgBadUnicode a.toNat b.toNat c.toNat d.toNat =
    utf8 ("invalid character escape sequence: \\".toList ++ ['u', a, b, c, d]) := by
  unfold msgBadUnicode
  have h : b!"invalid character escape sequence: \\u" =
    utf8 "invalid character escape sequence: \\".toList ++ utf8 ['u'] := by decide
  rw [h]
  simp only [← utf8Char_eq, utf8_append, List.append_assoc]
  simp [utf8]

/-- An Illegal token with the given message. -/
def Refused (o : Out (Token × Lexer)) (m : List Char) : Prop :=
  ∃ t l', o = .ret (t, l') ∧ t.kind = .illegal ∧ t.lit = utf8 m

/-! ### Punctuators and numbers -/

theorem scanSpread_refused {lS : Lexer} {t : List Char} (h : At lS ('.' :: t)) (w : Nat)
    (hn : ¬ ['.', '.'] <+: t) :
    Refused (scanPunctuator (lS.advs ['.']) 46 w)
      ("invalid punctuator, expected \"...\" but got: ".toList ++ goString ['.', peek t, peek t.tail]) := by
  have h1 := h.adv1
  unfold scanPunctuator
  rw [if_pos rfl, rd_at h1]; dsimp only
  rw [rd_at h1.step]; dsimp only
  rw [if_pos]
  · refine ⟨_, _, rfl, rfl, ?_⟩
    dsimp only
    rw [nxt_peek, nxt_peek]
    exact msgBadPunct_char '.' _ _
  · apply Classical.byContradiction
    intro hh
    apply hn
    have h12 : nxt t = 46 ∧ nxt t.tail = 46 := by omega
    match t, h12 with
    | [], h12 => simp [nxt] at h12
    | [_], h12 => simp [nxt] at h12
    | a :: b :: r, h12 =>
      simp only [nxt, List.tail_cons] at h12
      have ha := toNat_inj (c := a) (d := '.') h12.1
      have hb := toNat_inj (c := b) (d := '.') h12.2
      subst ha; subst hb
      exact ⟨r, rfl⟩

theorem nxt_notDigit {t : List Char} (h : notNext Char.isDigit t) : isDigit (nxt t) = false := by
  cases t with
  | nil => rfl
  | cons c t => show isDigit c.toNat = false; rw [isDigit_char]; exact h c t rfl

theorem readDigits_refused {l : Lexer} {t : List Char} (h : notNext Char.isDigit t) :
    readDigits l (nxt t) = .ret (.error (utf8 ("invalid number, expected digit but got: ".toList
      ++ goChar (peek t)))) := by
  unfold readDigits
  rw [nxt_notDigit h, nxt_peek, msgNotDigit_char]; rfl

theorem numberFrac_refused {lS : Lexer} {c : Char} {w t : List Char}
    (h : At lS (c :: w ++ '.' :: t)) (hn : notNext Char.isDigit t) :
    Refused (numberFrac (lS.advs [c]) (nxt ('.' :: t)) (nxtW ('.' :: t))
      ((lS.advs (c :: w)).step ('.' :: t)))
      ("invalid number, expected digit but got: ".toList ++ goChar (peek t)) := by
  have h1 : At (lS.advs (c :: w)) ('.' :: t) := h.advs
  have h2 := h1.adv1
  unfold numberFrac
  have hdot : nxt ('.' :: t) = 46 := rfl
  have hstep : (lS.advs (c :: w)).step ('.' :: t) = (lS.advs (c :: w)).advs ['.'] := rfl
  rw [if_pos hdot, hstep, rd_at h2]; dsimp only
  rw [readDigits_refused hn]
  exact ⟨_, _, rfl, rfl, rfl⟩

theorem numberExp_refused {lS : Lexer} {c e : Char} {w s t : List Char} (f : Bool)
    (h : At lS (c :: w ++ e :: (s ++ t))) (hee : e = 'e' ∨ e = 'E')
    (hs : s = [] ∧ notNext (fun c => c == '+' || c == '-') t ∨ s = ['+'] ∨ s = ['-'])
    (hn : notNext Char.isDigit t) :
    Refused (numberExp (lS.advs [c]) f (nxt (e :: (s ++ t))) (nxtW (e :: (s ++ t)))
      ((lS.advs (c :: w)).step (e :: (s ++ t))))
      ("invalid number, expected digit but got: ".toList ++ goChar (peek t)) := by
  have h1 : At (lS.advs (c :: w)) (e :: (s ++ t)) := h.advs
  have hne : nxt (e :: (s ++ t)) = 101 ∨ nxt (e :: (s ++ t)) = 69 := by
    rcases hee with rfl | rfl
    · exact .inl rfl
    · exact .inr rfl
  have h2 : At ((lS.advs (c :: w)).advs [e]) (s ++ t) := h1.adv1
  have hstep : (lS.advs (c :: w)).step (e :: (s ++ t)) = (lS.advs (c :: w)).advs [e] := rfl
  unfold numberExp
  rw [if_pos hne, hstep, rd_at h2]; dsimp only
  rcases hs with ⟨rfl, hs⟩ | hs
  · have hns : ¬ (nxt ([] ++ t) = 43 ∨ nxt ([] ++ t) = 45) := by
      cases t with
      | nil => decide
      | cons x t =>
        have := hs x t rfl
        simp only [Bool.or_eq_false_iff, beq_eq_false_iff_ne] at this
        rintro (hh | hh)
        · exact this.1 (toNat_inj (d := '+') hh)
        · exact this.2 (toNat_inj (d := '-') hh)
    simp only [hns, decide_false, readIf]
    have := readDigits_refused (l := (((lS.advs (c :: w)).advs [e]).step ([] ++ t))) hn
    simp only [List.nil_append] at this ⊢
    rw [if_neg (by decide)]
    rw [this]
    exact ⟨_, _, rfl, rfl, rfl⟩
  · have hns : nxt (s ++ t) = 43 ∨ nxt (s ++ t) = 45 := by
      rcases hs with rfl | rfl
      · exact .inl rfl
      · exact .inr rfl
    have h3 : At (((lS.advs (c :: w)).advs [e]).step (s ++ t)) t := by
      rcases hs with rfl | rfl <;> exact h2.step
    simp only [hns, decide_true, readIf, if_true]
    rw [rd_at h3]; dsimp only
    rw [readDigits_refused hn]
    exact ⟨_, _, rfl, rfl, rfl⟩

theorem scanNumber_minus {lS : Lexer} {t : List Char} (h : At lS ('-' :: t))
    (hn : notNext Char.isDigit t) :
    Refused (scanNumber (lS.advs ['-']) 45)
      ("invalid number, expected digit but got: ".toList ++ goChar (peek t)) := by
  unfold scanNumber
  have hr : readIf (decide (45 = 45)) 45 (lS.advs ['-']) = (nxt t, (lS.advs ['-']).step t) := by
    simp only [readIf, decide_true, if_true, rd_at h.adv1]
  rw [hr]; dsimp only
  have h0 : ¬ nxt t = 48 := by
    intro e
    have := nxt_notDigit hn
    rw [e] at this; exact absurd this (by decide)
  rw [if_neg h0, readDigits_refused hn]
  exact ⟨_, _, rfl, rfl, rfl⟩

theorem scanNumber_zero {lS : Lexer} {sign : List Char} {d : Char} {t : List Char}
    (hs : sign = [] ∨ sign = ['-']) (h : At lS (sign ++ '0' :: d :: t)) (hd : d.isDigit = true) :
    Refused (scanNumber (lS.step (sign ++ '0' :: d :: t)) (nxt (sign ++ '0' :: d :: t)))
      ("invalid number, unexpected digit after 0: ".toList ++ goChar d) := by
  have key : ∀ (l : Lexer), At l (d :: t) → ∀ l0 : Lexer, Refused
      (let (r, w, l2) := l.rd
       if isDigit r then
        .ret (⟨.illegal, msgDigitAfterZero r, l2.line, l0.lpos⟩, l2)
       else numberFrac l0 r w l2) ("invalid number, unexpected digit after 0: ".toList ++ goChar d) := by
    intro l hl l0
    rw [rd_cons hl]; dsimp only
    rw [isDigit_char, hd, if_pos rfl]
    exact ⟨_, _, rfl, rfl, msgDigitAfterZero_char d⟩
  unfold scanNumber
  rcases hs with rfl | rfl
  · have hr : readIf (decide (nxt ([] ++ '0' :: d :: t) = 45)) (nxt ([] ++ '0' :: d :: t))
        (lS.step ([] ++ '0' :: d :: t)) = (48, lS.advs ['0']) := rfl
    rw [hr]; dsimp only
    rw [if_pos rfl]
    exact key _ h.adv1 _
  · have h' : At (lS.step (['-'] ++ '0' :: d :: t)) ('0' :: d :: t) := h.adv1
    have hr : readIf (decide (nxt (['-'] ++ '0' :: d :: t) = 45)) (nxt (['-'] ++ '0' :: d :: t))
        (lS.step (['-'] ++ '0' :: d :: t)) = (48, (lS.advs ['-']).advs ['0']) := by
      have : decide (nxt (['-'] ++ '0' :: d :: t) = 45) = true := rfl
      simp only [readIf, this, if_true, rd_cons h']
      rfl
    rw [hr]; dsimp only
    rw [if_pos rfl]
    exact key _ h'.adv1 _

/-! ### Strings -/

theorem notPrintable_nat {c : Char} (h : printable c = false) : c.toNat < 32 ∧ c.toNat ≠ 9 := by
  apply Classical.byContradiction
  intro hh
  rw [not_printable_nat hh] at h; cases h

/-- The first pass over a string. -/
theorem pass1_scan {s : List Char} {es : List (List Char)} {x : Char} (h : StrScan s es x)
    {l : Lexer} (ha : At l s) {n : Nat} (hn : s.length < n) (esc : Bool) :
    (x ≠ '"' → ∃ l', stringPass1 n esc l = .ret (.error (x.toNat, l'))) ∧
    (x = '"' → ∃ l', stringPass1 n esc l = .ret (.ok (esc || !es.isEmpty, l'))) := by
  induction h generalizing l n esc with
  | @stop s hs =>
    obtain _ | n := n
    · simp at hn
    unfold stringPass1
    rw [rd_at ha, nxt_peek]; dsimp only
    constructor
    · intro hx
      rw [if_neg (ne34 hx), if_pos (notPrintable_nat (hs.resolve_left hx))]
      exact ⟨_, rfl⟩
    · intro hx
      rw [hx, if_pos (by decide)]
      exact ⟨l.step s, by simp⟩
  | @char c s es x h1 h2 h3 _ ih =>
    obtain _ | n := n
    · simp at hn
    unfold stringPass1
    rw [rd_cons ha]; dsimp only
    rw [if_neg (ne34 h1), if_neg (printable_nat h3), if_neg (ne92 h2)]
    exact ih ha.adv1 (by simp only [List.length_cons] at hn; omega) esc
  | @esc s es x h1 _ ih =>
    obtain _ | n := n
    · simp at hn
    unfold stringPass1
    rw [rd_cons ha]; dsimp only
    rw [if_neg (show ¬ ('\\').toNat = 34 by decide), if_neg (show ¬ (('\\').toNat < 32 ∧ ('\\').toNat ≠ 9) by decide),
      if_pos (show ('\\').toNat = 92 by decide)]
    rw [rd_at ha.adv1, nxt_peek]; dsimp only
    rw [if_neg (ne117 h1)]
    have := ih ha.adv1.step (n := n) (by simp only [List.length_cons] at hn; simp; omega) true
    simpa using this
  | @unicode s es x _ ih =>
    obtain _ | n := n
    · simp at hn
    unfold stringPass1
    rw [rd_cons ha]; dsimp only
    rw [if_neg (show ¬ ('\\').toNat = 34 by decide), if_neg (show ¬ (('\\').toNat < 32 ∧ ('\\').toNat ≠ 9) by decide),
      if_pos (show ('\\').toNat = 92 by decide)]
    rw [rd_cons ha.adv1]; dsimp only
    rw [if_pos (show ('u').toNat = 117 by decide)]
    have a1 := ha.adv1.adv1
    rw [rd_at a1]; dsimp only
    rw [rd_at a1.step]; dsimp only
    rw [rd_at a1.step.step]; dsimp only
    rw [rd_at a1.step.step.step]; dsimp only
    have a5 := a1.step.step.step.step
    have e : s.tail.tail.tail.tail = s.drop 4 := by
      match s with
      | [] => rfl
      | [_] => rfl
      | [_, _] => rfl
      | [_, _, _] => rfl
      | _ :: _ :: _ :: _ :: _ => rfl
    rw [e] at a5
    have := ih a5 (n := n) (by simp only [List.length_cons] at hn; simp; omega) true
    simpa using this

theorem not_simple {c : Char} (h : ¬ GoodEscape [c]) : simpleEscape c.toNat = none := by
  cases hs : simpleEscape c.toNat with
  | none => rfl
  | some y =>
    exfalso
    apply h
    have hv := (simpleEscape_some hs).2.2
    exact .simple (x := Char.ofNat y) ((simpleEscape_table _ _).2 (by rw [toNat_ofNat hv]; exact hs))

theorem simple_some {c : Char} (h : GoodEscape [c]) : ∃ y, simpleEscape c.toNat = some y := by
  cases h with
  | simple h => exact ⟨_, (simpleEscape_table _ _).1 h⟩

theorem StrScan_nil {es : List (List Char)} {x : Char} (h : StrScan [] es x) : x ≠ '"' := by
  cases h; decide

theorem four {s : List Char} {es : List (List Char)} (h : StrScan (s.drop 4) es '"') :
    ∃ a b c d t, s = a :: b :: c :: d :: t := by
  match s, h with
  | [], h => exact absurd rfl (StrScan_nil h)
  | [_], h => exact absurd rfl (StrScan_nil h)
  | [_, _], h => exact absurd rfl (StrScan_nil h)
  | [_, _, _], h => exact absurd rfl (StrScan_nil h)
  | a :: b :: c :: d :: t, _ => exact ⟨a, b, c, d, t, rfl⟩

/-- The second pass finds the first wrong escape. -/
theorem pass2_refused {s : List Char} {es : List (List Char)} {x : Char} (h : StrScan s es x) (hx : x = '"')
    {before e after} (he : es = before ++ e :: after) (hb : ∀ f ∈ before, GoodEscape f)
    (hbad : ¬ GoodEscape e) {l : Lexer} (ha : At l s) {n : Nat} (hn : s.length < n) (acc : Bytes)
    (col line : Nat) :
    Refused (stringPass2 col line n acc l) ("invalid character escape sequence: \\".toList ++ e) := by
  induction h generalizing l n acc before with
  | stop => cases before <;> cases he
  | @char c s es x h1 h2 h3 _ ih =>
    obtain _ | n := n
    · simp at hn
    unfold stringPass2
    rw [rd_cons ha]; dsimp only
    have h0 : c.toNat ≠ 0 := by have := printable_nat h3; omega
    rw [if_neg (by rintro (h | h); exact toNat_ne (d := '"') h1 h; exact h0 h),
      if_neg (ne92 h2)]
    exact ih hx he hb ha.adv1 (by simp only [List.length_cons] at hn; omega) _
  | @esc s es x h1 hsc ih =>
    obtain _ | n := n
    · simp at hn
    unfold stringPass2
    rw [rd_cons ha]; dsimp only
    rw [if_neg (show ¬ (('\\').toNat = 34 ∨ ('\\').toNat = 0) by decide),
      if_pos (show ('\\').toNat = 92 by decide)]
    cases before with
    | nil =>
      cases he
      have : escapedChar (l.advs ['\\']) = (.error (msgBadEscape (nxt s)), (l.advs ['\\']).step s) := by
        unfold escapedChar
        rw [rd_at ha.adv1]; dsimp only
        rw [nxt_peek, not_simple hbad]; dsimp only
        rw [if_neg (ne117 h1)]
      rw [this]
      refine ⟨_, _, rfl, rfl, ?_⟩
      dsimp only
      rw [nxt_peek, msgBadEscape_char]
    | cons b before =>
      rw [List.cons_append, List.cons.injEq] at he
      obtain ⟨e1, e2⟩ := he
      obtain ⟨y, hy⟩ := simple_some (c := peek s) (by rw [e1]; exact hb _ (List.mem_cons_self ..))
      obtain _ | ⟨d, s⟩ := s
      · exact absurd rfl (simpleEscape_some hy).1
      rw [escapedChar_simple ha.adv1 hy]; dsimp only
      exact ih hx e2 (fun f hf => hb f (List.mem_cons_of_mem _ hf)) ha.adv1.adv1
        (by simp only [List.length_cons] at hn; simp; omega) _
  | @unicode s es x hsc ih =>
    subst hx
    obtain _ | n := n
    · simp at hn
    obtain ⟨a, b, c, d, t, rfl⟩ := four hsc
    unfold stringPass2
    rw [rd_cons ha]; dsimp only
    rw [if_neg (show ¬ (('\\').toNat = 34 ∨ ('\\').toNat = 0) by decide),
      if_pos (show ('\\').toNat = 92 by decide)]
    cases before with
    | nil =>
      have he' : ['u', a, b, c, d] = e := by
        rw [List.nil_append, List.cons.injEq] at he; exact he.1
      subst he'
      have hu : unicodeCodePointToRune a.toNat b.toNat c.toNat d.toNat = none := by
        unfold unicodeCodePointToRune
        split
        · rename_i i j k m e1 e2 e3 e4
          exfalso; apply hbad
          refine .unicode ?_ ?_ ?_ ?_ <;> rw [hexVal_eq] <;> simp [e1, e2, e3, e4]
        · rfl
      have h1 := ha.adv1
      have h2 := h1.adv1
      have h3 := h2.adv1
      have h4 := h3.adv1
      have h5 := h4.adv1
      have : ∃ l', escapedChar (l.advs ['\\']) = (.error (msgBadUnicode a.toNat b.toNat c.toNat d.toNat), l') := by
        unfold escapedChar
        rw [rd_cons h1]; dsimp only
        have : simpleEscape ('u').toNat = none := rfl
        rw [this]; dsimp only
        rw [if_pos (show ('u').toNat = 117 by decide), rd_cons h2]; dsimp only
        rw [rd_cons h3]; dsimp only
        rw [rd_cons h4]; dsimp only
        rw [rd_cons h5]; dsimp only
        rw [hu]
        exact ⟨_, rfl⟩
      obtain ⟨l', e⟩ := this
      rw [e]
      exact ⟨_, _, rfl, rfl, msgBadUnicode_char ..⟩
    | cons b0 before =>
      rw [List.cons_append, List.cons.injEq] at he
      obtain ⟨e1, e2⟩ := he
      have hg : GoodEscape ['u', a, b, c, d] := by
        have := hb _ (List.mem_cons_self ..)
        rw [← e1] at this; exact this
      cases hg with
      | unicode g1 g2 g3 g4 =>
        obtain ⟨i, g1⟩ := Option.isSome_iff_exists.1 g1
        obtain ⟨j, g2⟩ := Option.isSome_iff_exists.1 g2
        obtain ⟨k, g3⟩ := Option.isSome_iff_exists.1 g3
        obtain ⟨m, g4⟩ := Option.isSome_iff_exists.1 g4
        rw [escapedChar_unicode ha.adv1 g1 g2 g3 g4]; dsimp only
        exact ih rfl e2 (fun f hf => hb f (List.mem_cons_of_mem _ hf))
          (At.advs (a := ['u', a, b, c, d]) ha.adv1)
          (by simp only [List.length_cons] at hn; simp; omega) _

theorem scanString_refused {l : Lexer} {s m : List Char} (ha : At l s) (h : StrError s m) :
    Refused (scanString l) m := by
  have hn : s.length < l.fuel := fuel_length ha
  unfold scanString
  cases h with
  | stopped h hx =>
    obtain ⟨l', e⟩ := (pass1_scan h ha hn false).1 hx
    rw [e]
    exact ⟨_, _, rfl, rfl, msgBadStringChar_char _⟩
  | escape h hb he =>
    obtain ⟨l', e⟩ := (pass1_scan h ha hn false).2 rfl
    rw [e]; dsimp only
    rw [if_pos (by simp)]
    exact pass2_refused h rfl rfl hb he ha hn _ _ _

/-! ### Block strings -/

theorem prefix2 {a b : Char} {s : List Char} : ['"', '"'] <+: a :: b :: s ↔ (a = '"' ∧ b = '"') := by
  simp [List.cons_prefix_cons, eq_comm]

theorem isTrip_pass {l : Lexer} {s : List Char} (h : At l s) (hz : NoNul s) (hn : ¬ ['"', '"'] <+: s) :
    ∃ l', isTripQuotes l = (false, l') ∧ At l' (passLast s) := by
  obtain _ | ⟨a, _ | ⟨b, s⟩⟩ := s
  · exact isTrip_short h hz (by simp)
  · exact isTrip_short h hz (by simp)
  · refine ⟨l, isTrip_no h hz (fun hh => hn (prefix2.2 hh)), ?_⟩
    unfold passLast; rw [if_neg (by simp)]; exact h

theorem passLast_noNul {s : List Char} (h : NoNul s) : NoNul (passLast s) := by
  unfold passLast; split
  · intro c hc; cases hc
  · exact h

theorem passLast_length (s : List Char) : (passLast s).length ≤ s.length := by
  unfold passLast; split <;> simp

/-- The message for the character at which a block string breaks off. -/
def blockMsg (x : Char) : Bytes := if x = '\x00' then msgEofInBlock else msgBadBlockChar x.toNat

theorem lineTerm_nat {c : Char} (h : lineTerm c = false) : c.toNat ≠ 10 ∧ c.toNat ≠ 13 := by
  unfold lineTerm at h
  simp only [Bool.or_eq_false_iff, beq_eq_false_iff_ne] at h
  exact ⟨toNat_ne (d := '\n') h.1, toNat_ne (d := '\r') h.2⟩

theorem blockPass1_scan {s : List Char} {x : Char} (h : BlockScan s x) {l : Lexer} (ha : At l s)
    (hz : NoNul s) {n : Nat} (hn : s.length < n) (cr e : Bool) :
    ∃ l', blockPass1 n cr e l = .ret (.error (blockMsg x, l')) := by
  induction h generalizing l n cr e with
  | eof =>
    obtain _ | n := n
    · simp at hn
    unfold blockPass1
    rw [rd_eof ha]; exact ⟨_, rfl⟩
  | @control c s h1 h2 =>
    obtain _ | n := n
    · simp at hn
    unfold blockPass1
    rw [rd_cons ha]; dsimp only
    have p1 := notPrintable_nat h1
    have p2 := lineTerm_nat h2
    have p0 := hz.head
    rw [if_neg (by omega), if_neg (by omega), if_neg p0, if_pos (by omega)]
    have hm : blockMsg c = msgBadBlockChar c.toNat := by
      unfold blockMsg
      rw [if_neg (fun hh => p0 (by rw [hh]; rfl))]
    rw [hm]; exact ⟨_, rfl⟩
  | @char c s x h1 h2 h3 _ ih =>
    obtain _ | n := n
    · simp at hn
    unfold blockPass1
    rw [rd_cons ha]; dsimp only
    have p0 := hz.head
    have p2 : ¬ (c.toNat < 32 ∧ c.toNat ≠ 9 ∧ c.toNat ≠ 10 ∧ c.toNat ≠ 13) := by
      rcases h3 with h3 | h3
      · have := printable_nat h3; omega
      · unfold lineTerm at h3
        simp only [Bool.or_eq_true, beq_iff_eq] at h3
        rcases h3 with rfl | rfl <;> decide
    rw [if_neg (ne92 h2)]
    by_cases hc : c.toNat = 13
    · rw [if_pos hc]
      exact ih ha.adv1 hz.tail (by simp only [List.length_cons] at hn; omega) _ _
    · rw [if_neg hc, if_neg p0, if_neg p2, if_neg (ne34 h1)]
      exact ih ha.adv1 hz.tail (by simp only [List.length_cons] at hn; omega) _ _
  | @quote s x h1 _ ih =>
    obtain _ | n := n
    · simp at hn
    unfold blockPass1
    rw [rd_cons ha]; dsimp only
    rw [if_neg (show ¬ ('"').toNat = 92 by decide), if_neg (show ¬ ('"').toNat = 13 by decide),
      if_neg (show ¬ ('"').toNat = 0 by decide),
      if_neg (show ¬ (('"').toNat < 32 ∧ ('"').toNat ≠ 9 ∧ ('"').toNat ≠ 10 ∧ ('"').toNat ≠ 13) by decide),
      if_pos (show ('"').toNat = 34 by decide)]
    obtain ⟨l', e1, e2⟩ := isTrip_pass ha.adv1 hz.tail h1
    rw [e1]; dsimp only
    rw [if_neg (by decide)]
    have := passLast_length s
    exact ih e2 (passLast_noNul hz.tail) (by simp only [List.length_cons] at hn; omega) _ _
  | @escQuotes s x _ ih =>
    obtain _ | n := n
    · simp at hn
    have ha' : At l ('\\' :: '"' :: '"' :: '"' :: s) := ha
    unfold blockPass1
    rw [rd_cons ha']; dsimp only
    rw [if_pos (show ('\\').toNat = 92 by decide), rd_cons ha'.adv1]; dsimp only
    rw [if_pos (show ('"').toNat = 34 by decide), isTrip_yes ha'.adv1.adv1]; dsimp only
    exact ih (At.advs (a := ['"', '"']) ha'.adv1.adv1) (hz.right (a := '\\' :: quotes3))
      (by simp [quotes3] at hn; omega) _ _
  | @escQuote s x h1 _ ih =>
    obtain _ | n := n
    · simp at hn
    unfold blockPass1
    rw [rd_cons ha]; dsimp only
    rw [if_pos (show ('\\').toNat = 92 by decide), rd_cons ha.adv1]; dsimp only
    rw [if_pos (show ('"').toNat = 34 by decide)]
    obtain ⟨l', e1, e2⟩ := isTrip_pass ha.adv1.adv1 hz.tail.tail h1
    rw [e1]; dsimp only
    have := passLast_length s
    exact ih e2 (passLast_noNul hz.tail.tail) (by simp only [List.length_cons] at hn; omega) _ _
  | @esc s x h1 _ ih =>
    obtain _ | n := n
    · simp at hn
    unfold blockPass1
    rw [rd_cons ha]; dsimp only
    rw [if_pos (show ('\\').toNat = 92 by decide), rd_at ha.adv1, nxt_peek]; dsimp only
    rw [if_neg (ne34 h1)]
    exact ih ha.adv1.step (fun d hd => hz d (List.mem_cons_of_mem _ (List.mem_of_mem_tail hd)))
      (by simp only [List.length_cons] at hn; simp; omega) _ _

theorem scanBlock_refused {l : Lexer} {s : List Char} {x : Char} (ha : At l s) (hz : NoNul s)
    (h : BlockScan s x) {m : List Char} (hm : blockMsg x = utf8 m) : Refused (scanBlockString l) m := by
  obtain ⟨l', e⟩ := blockPass1_scan h ha hz (fuel_length ha) false false
  unfold scanBlockString
  rw [e]
  exact ⟨_, _, rfl, rfl, hm⟩

/-! ### All tokens -/

/-- `Scan` says what is wrong. -/
theorem scanTok_refused {lS : Lexer} {s m : List Char} (ha : At lS s) (hz : NoNul s) (h : LexError s m) :
    Refused (scanTok (nxt s) (nxtW s) (lS.step s)) m := by
  cases h with
  | @char c t h1 h2 h3 h4 h5 =>
    simp only [List.mem_cons, List.not_mem_nil, or_false, not_or] at h4
    show Refused (scanTok c.toNat (cw c) (lS.advs [c])) _
    unfold scanTok
    rw [isNameStart_char, h1, if_neg (by decide), isPunct_char]
    have hp : (decide (c ∈ punctuators) || c == '.') = false := by simp [h2, h4.1]
    rw [hp, if_neg (by decide), isDigit_char, h3,
      if_neg (by rintro (h | h); cases h; exact toNat_ne (d := '-') h4.2.1 h),
      if_neg (ne34 h4.2.2.1), if_neg hz.head]
    exact ⟨_, _, rfl, rfl, by simp [utf8, utf8Char_eq]⟩
  | @dots t h =>
    have e := (scanTok_punct (c := '.') (w := nxtW ('.' :: t)) (l := lS.step ('.' :: t)) (.inr rfl))
    show Refused (scanTok ('.').toNat _ _) _
    rw [e]
    exact scanSpread_refused ha _ h
  | @zero sign d t hs hd =>
    have e : scanTok (nxt (sign ++ '0' :: d :: t)) (nxtW (sign ++ '0' :: d :: t)) (lS.step (sign ++ '0' :: d :: t))
        = scanNumber (lS.step (sign ++ '0' :: d :: t)) (nxt (sign ++ '0' :: d :: t)) := by
      rcases hs with rfl | rfl
      · exact scanTok_number (c := '0') (.inl rfl)
      · exact scanTok_number (c := '-') (.inr rfl)
    rw [e]
    exact scanNumber_zero hs ha hd
  | @minus t hn =>
    have e := scanTok_number (c := '-') (w := nxtW ('-' :: t)) (l := lS.step ('-' :: t)) (.inr rfl)
    show Refused (scanTok ('-').toNat _ _) _
    rw [e]
    exact scanNumber_minus ha hn
  | @fraction i t hi hn =>
    obtain ⟨c, w, rfl, hc, hcd⟩ := intPart_head hi
    have hfd : notNext Char.isDigit ('.' :: t) := by intro d t hd; cases hd; decide
    show Refused (scanTok c.toNat _ _) _
    rw [scanTok_number hcd]
    have := (scanNumber_at ha hi hfd)
    show Refused (scanNumber (lS.advs [c]) c.toNat) _
    rw [this]
    exact numberFrac_refused ha hn
  | @exponent i f e s t hi hf he hs hn =>
    obtain ⟨c, w, rfl, hc, hcd⟩ := intPart_head hi
    have hed : notNext Char.isDigit (e :: (s ++ t)) ∧ notNext (· == '.') (e :: (s ++ t)) := by
      rcases he with rfl | rfl <;>
        exact ⟨by intro d t hd; cases hd; decide, by intro d t hd; cases hd; decide⟩
    show Refused (scanTok c.toNat _ _) _
    rw [scanTok_number hcd]
    show Refused (scanNumber (lS.advs [c]) c.toNat) _
    rcases hf with rfl | hf
    · have ha' : At lS (c :: w ++ e :: (s ++ t)) := by simpa using ha
      rw [scanNumber_at ha' hi hed.1, numberFrac_none hed.2]
      exact numberExp_refused false ha' he hs hn
    · have hfd : notNext Char.isDigit (f ++ e :: (s ++ t)) := by
        cases hf; intro d t hd; cases hd; decide
      have ha' : At lS (c :: w ++ (f ++ e :: (s ++ t))) := by simpa using ha
      have ha2 : At lS (c :: (w ++ f) ++ e :: (s ++ t)) := by simpa using ha
      rw [scanNumber_at ha' hi hfd, numberFrac_at ha' hf hed.1]
      exact numberExp_refused true ha2 he hs hn
  | @string s m hn h =>
    have a1 : At (lS.step ('"' :: s)) s := ha.step
    obtain ⟨lp, e1, -⟩ := scanQuote_string a1 (fun t e => hn ⟨t, by rw [e]; rfl⟩)
    show Refused (scanTok 34 _ _) _
    rw [scanTok_quote, e1]
    exact scanString_refused ⟨a1.le, a1.eq⟩ h
  | @unclosed s h =>
    have ha' : At lS ('"' :: '"' :: '"' :: s) := ha
    have a1 : At (lS.step ('"' :: '"' :: '"' :: s)) ('"' :: '"' :: s) := ha'.step
    show Refused (scanTok 34 _ _) _
    rw [scanTok_quote]
    show Refused (scanQuote (lS.step ('"' :: '"' :: '"' :: s))) _
    rw [scanQuote_block a1]
    exact scanBlock_refused (At.advs (a := ['"', '"']) a1) (hz.right (a := quotes3)) h msgEofInBlock_text
  | @block s x h hx =>
    have ha' : At lS ('"' :: '"' :: '"' :: s) := ha
    have a1 : At (lS.step ('"' :: '"' :: '"' :: s)) ('"' :: '"' :: s) := ha'.step
    show Refused (scanTok 34 _ _) _
    rw [scanTok_quote]
    show Refused (scanQuote (lS.step ('"' :: '"' :: '"' :: s))) _
    rw [scanQuote_block a1]
    exact scanBlock_refused (At.advs (a := ['"', '"']) a1) (hz.right (a := quotes3)) h
      (by unfold blockMsg; rw [if_neg hx]; exact msgBadBlockChar_char x)

end GQL
