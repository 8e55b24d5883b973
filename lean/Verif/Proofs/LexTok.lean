/-
Names, punctuators and numbers: the scanners of the model against the lexical grammar.
-/
import Verif.Proofs.LexAt

namespace GQL
open Spec

theorem toNat_eq (c d : Char) : c.toNat = d.toNat ↔ c = d := ⟨toNat_inj, fun h => h ▸ rfl⟩

theorem isDigit_char (c : Char) : isDigit c.toNat = c.isDigit := by
  simp [isDigit, Char.isDigit, UInt32.le_iff_toNat_le]

theorem isNameStart_char (c : Char) : isNameStart c.toNat = nameStart c := by
  have h95 : (c.toNat == 95) = (c == '_') := by
    rw [Bool.eq_iff_iff]; simp only [beq_iff_eq]; exact toNat_eq c '_'
  unfold isNameStart nameStart
  rw [h95]
  simp [Char.isAlpha, Char.isUpper, Char.isLower, UInt32.le_iff_toNat_le]
  cases (decide (97 ≤ c.toNat) && decide (c.toNat ≤ 122)) <;>
    cases (decide (65 ≤ c.toNat) && decide (c.toNat ≤ 90)) <;> rfl

theorem isNameCont_char (c : Char) : isNameCont c.toNat = nameCont c := by
  unfold isNameCont nameCont
  rw [isDigit_char, isNameStart_char]
  unfold nameStart Char.isAlphanum
  cases c.isDigit <;> cases c.isAlpha <;> simp

theorem nameCont_of_start {c : Char} (h : nameStart c = true) : nameCont c = true := by
  unfold nameStart at h; unfold nameCont Char.isAlphanum
  cases h1 : c.isAlpha <;> simp_all

theorem span (p : Char → Bool) (cs : List Char) :
    ∃ w rest, cs = w ++ rest ∧ (∀ d ∈ w, p d = true) ∧ notNext p rest := by
  induction cs with
  | nil => exact ⟨[], [], rfl, by simp, by intro c t h; cases h⟩
  | cons c cs ih =>
    by_cases hc : p c = true
    · obtain ⟨w, rest, e, h1, h2⟩ := ih
      refine ⟨c :: w, rest, by rw [e]; rfl, ?_, h2⟩
      intro d hd
      rcases List.mem_cons.1 hd with rfl | hd
      · exact hc
      · exact h1 d hd
    · refine ⟨[], c :: cs, rfl, by simp, ?_⟩
      intro d t h; cases h; simpa using hc

/-- The rune read at a text (0 at its end), its width and the lexer afterwards. -/
def nxt : List Char → Nat
  | [] => 0
  | c :: _ => c.toNat
def nxtW : List Char → Nat
  | [] => 0
  | c :: _ => cw c
def Lexer.step (l : Lexer) : List Char → Lexer
  | [] => l
  | c :: _ => l.advs [c]

theorem rd_at {l : Lexer} {cs : List Char} (h : At l cs) : l.rd = (nxt cs, nxtW cs, l.step cs) := by
  cases cs with
  | nil => exact rd_eof h
  | cons c cs => exact rd_cons h

theorem At.step {l : Lexer} {cs : List Char} (h : At l cs) : At (l.step cs) cs.tail := by
  cases cs with
  | nil => exact h
  | cons c cs => exact h.adv1

theorem advs_line (l : Lexer) (cs) : (l.advs cs).line = l.line := rfl
theorem step_line (l : Lexer) (cs) : (l.step cs).line = l.line := by cases cs <;> rfl
theorem advs_input (l : Lexer) (cs) : (l.advs cs).input = l.input := rfl
theorem advs_pos (l : Lexer) (cs) : (l.advs cs).pos = l.pos + (utf8 cs).length := rfl
theorem advs_lpos (l : Lexer) (cs) : (l.advs cs).lpos = l.lpos + cs.length := rfl

theorem nxt_ne_zero {c : Char} {cs : List Char} (h : NoNul (c :: cs)) : nxt (c :: cs) ≠ 0 := h.head

/-! ### Names -/

theorem scanNameLoop_at {n : Nat} {l : Lexer} {w rest : List Char} (h : At l (w ++ rest))
    (hw : ∀ d ∈ w, nameCont d = true) (hr : notNext nameCont rest) (hz : NoNul rest)
    (hn : w.length < n) : scanNameLoop n l = .ret (l.advs w) := by
  induction w generalizing n l with
  | nil =>
    obtain _ | n := n
    · simp at hn
    simp only [List.nil_append] at h
    unfold scanNameLoop
    rw [rd_at h, advs_nil]; dsimp only
    cases rest with
    | nil => simp [nxt, isNameCont, isDigit, isNameStart, Lexer.step]
    | cons c t =>
      have : isNameCont c.toNat = false := by rw [isNameCont_char]; exact hr c t rfl
      have h0 : ¬ c.toNat = 0 := hz.head
      simp only [nxt, this, Bool.false_eq_true, if_false, h0, nxtW, Lexer.step, unread_adv]
  | cons c w ih =>
    obtain _ | n := n
    · simp at hn
    unfold scanNameLoop
    rw [List.cons_append] at h
    rw [rd_cons h]; dsimp only
    rw [isNameCont_char, hw c (List.mem_cons_self ..), if_pos rfl, advs_cons l c w]
    exact ih h.adv1 (fun d hd => hw d (List.mem_cons_of_mem _ hd)) (by simp at hn; omega)

theorem cw_ascii {c : Char} (h : c.toNat < 128) : cw c = 1 := by
  rw [cw, utf8Char_ascii c h]; rfl

theorem nameStart_ascii {c : Char} (h : nameStart c = true) : c.toNat < 128 := by
  rw [← isNameStart_char] at h
  simp [isNameStart] at h; omega

theorem digit_ascii {c : Char} (h : c.isDigit = true) : c.toNat < 128 := by
  rw [← isDigit_char] at h; simp [isDigit] at h; omega

/-- The slice from the character before `l.advs [c]`. -/
theorem slice_from {lS : Lexer} {c : Char} {w rest : List Char} (h : At lS (c :: w ++ rest))
    (hc : c.toNat < 128) :
    slice lS.input ((lS.advs [c]).pos - 1) (lS.advs (c :: w)).pos = some (utf8 (c :: w)) := by
  have e1 : (lS.advs [c]).pos - 1 = lS.pos := by
    rw [advs_one, cw_ascii hc]; simp
  rw [e1]
  exact slice_at (a := c :: w) (b := rest) h

theorem scanName_at {lS : Lexer} {c : Char} {w rest : List Char} (h : At lS (c :: w ++ rest))
    (hc : nameStart c = true) (hw : ∀ d ∈ w, nameCont d = true) (hr : notNext nameCont rest)
    (hz : NoNul rest) :
    scanName (lS.advs [c]) =
      .ret (⟨.name, utf8 (c :: w), lS.line, (lS.lpos + 1 : Nat)⟩, lS.advs (c :: w)) := by
  have h1 : At (lS.advs [c]) (w ++ rest) := At.advs (a := [c]) h
  unfold scanName
  rw [scanNameLoop_at h1 hw hr hz (by have := fuel_length h1; simp at this; omega)]
  dsimp only
  rw [← advs_cons]
  rw [advs_input, slice_from h (nameStart_ascii hc)]
  rfl

/-! ### Punctuators -/

theorem isPunct_char (c : Char) : isPunct c.toNat = (decide (c ∈ punctuators) || c == '.') := by
  have key : ∀ d : Char, (c.toNat == d.toNat) = (c == d) := fun d => by
    rw [Bool.eq_iff_iff]; simp only [beq_iff_eq]; exact toNat_eq c d
  have k := fun d => (key d)
  rw [Bool.eq_iff_iff]
  have e : isPunct c.toNat = (c.toNat == '{'.toNat || c.toNat == '}'.toNat || c.toNat == '['.toNat ||
    c.toNat == ']'.toNat || c.toNat == '!'.toNat || c.toNat == '$'.toNat || c.toNat == '('.toNat ||
    c.toNat == ')'.toNat || c.toNat == ':'.toNat || c.toNat == '@'.toNat || c.toNat == '&'.toNat ||
    c.toNat == '.'.toNat || c.toNat == '='.toNat || c.toNat == '|'.toNat) := rfl
  rw [e]
  simp only [key]
  simp [punctuators]
  grind

theorem scanPunct_at {lS : Lexer} {c : Char} {rest : List Char} (h : At lS (c :: rest))
    (hc : c ∈ punctuators) :
    scanPunctuator (lS.advs [c]) c.toNat (cw c) =
      .ret (⟨.punctuator, utf8 [c], lS.line, (lS.lpos + 1 : Nat)⟩, lS.advs [c]) := by
  have hne : ¬ c.toNat = 46 := by
    intro e
    have := toNat_inj (c := c) (d := '.') e
    subst this; revert hc; decide
  unfold scanPunctuator
  rw [if_neg hne]
  have e1 : (lS.advs [c]).pos - cw c = lS.pos := by rw [advs_one]; simp
  rw [e1]
  have := slice_at (l := lS) (a := [c]) (b := rest) h
  rw [advs_input, advs_pos, this]
  rfl

theorem scanSpread_at {lS : Lexer} {rest : List Char} (h : At lS ('.' :: rest)) (w : Nat)
    (hz : NoNul rest) :
    (∃ rest', rest = '.' :: '.' :: rest' ∧ scanPunctuator (lS.advs ['.']) 46 w =
      .ret (⟨.punctuator, utf8 ['.', '.', '.'], lS.line, (lS.lpos + 1 : Nat)⟩, lS.advs ['.', '.', '.'])) ∨
    ((∀ rest', rest ≠ '.' :: '.' :: rest') ∧
      ∃ t l', scanPunctuator (lS.advs ['.']) 46 w = .ret (t, l') ∧ t.kind = .illegal) := by
  have h1 := h.adv1
  have h2 := h1.step
  unfold scanPunctuator
  rw [if_pos rfl, rd_at h1]
  dsimp only
  rw [rd_at h2]; dsimp only
  split
  · rename_i hne
    refine .inr ⟨?_, _, _, rfl, rfl⟩
    rintro rest' rfl
    simp [nxt] at hne
  · rename_i hne
    left
    have h12 : nxt rest = 46 ∧ nxt rest.tail = 46 := by omega
    match rest, h12 with
    | [], h12 => simp [nxt] at h12
    | [_], h12 => simp [nxt] at h12
    | a :: b :: r, h12 =>
      simp only [nxt, List.tail_cons] at h12
      have ha := toNat_inj (c := a) (d := '.') h12.1
      have hb := toNat_inj (c := b) (d := '.') h12.2
      subst ha; subst hb
      refine ⟨r, rfl, ?_⟩
      simp only [Lexer.step, List.tail_cons]
      rw [← advs_append, ← advs_append]
      simp [advs_line, advs_lpos, utf8, utf8Char_ascii]

/-! ### Numbers -/

theorem readDigitsLoop_at {n : Nat} {l : Lexer} {ds rest : List Char} (h : At l (ds ++ rest))
    (hw : ∀ d ∈ ds, d.isDigit = true) (hr : notNext Char.isDigit rest) (hn : ds.length < n) :
    readDigitsLoop n l = .ret (nxt rest, nxtW rest, (l.advs ds).step rest) := by
  induction ds generalizing n l with
  | nil =>
    obtain _ | n := n
    · simp at hn
    simp only [List.nil_append] at h
    unfold readDigitsLoop
    rw [rd_at h, advs_nil]; dsimp only
    cases rest with
    | nil => simp [nxt, isDigit]
    | cons c t =>
      have : isDigit (nxt (c :: t)) = false := by
        show isDigit c.toNat = false
        rw [isDigit_char]; exact hr c t rfl
      rw [this]; simp
  | cons c w ih =>
    obtain _ | n := n
    · simp at hn
    unfold readDigitsLoop
    rw [List.cons_append] at h
    rw [rd_cons h]; dsimp only
    rw [isDigit_char, hw c (List.mem_cons_self ..), if_pos rfl, advs_cons l c w]
    exact ih h.adv1 (fun d hd => hw d (List.mem_cons_of_mem _ hd)) (by simp at hn; omega)

/-- `readDigits` called with the first digit already read. -/
theorem readDigits_at {l : Lexer} {c : Char} {ds rest : List Char} (h : At (l.advs [c]) (ds ++ rest))
    (hc : c.isDigit = true)
    (hw : ∀ d ∈ ds, d.isDigit = true) (hr : notNext Char.isDigit rest) :
    readDigits (l.advs [c]) c.toNat = .ret (.ok (nxt rest, nxtW rest, (l.advs (c :: ds)).step rest)) := by
  unfold readDigits
  rw [isDigit_char, hc, if_pos rfl, readDigitsLoop_at h hw hr
    (by have := fuel_length h; simp at this; omega)]
  rw [← advs_cons]

theorem readDigits_bad {l : Lexer} {r : Nat} (h : isDigit r = false) :
    ∃ e, readDigits l r = .ret (.error e) := by
  unfold readDigits; rw [h]; exact ⟨_, rfl⟩

theorem unread_step {l : Lexer} {rest : List Char} (hz : NoNul rest) :
    (if nxt rest ≠ 0 then (l.step rest).unread (nxtW rest) else l.step rest) = l := by
  cases rest with
  | nil => simp [nxt, Lexer.step]
  | cons c t =>
    rw [if_pos (nxt_ne_zero hz)]
    exact unread_adv l c

theorem numberEnd_at {lS : Lexer} {c : Char} {w rest : List Char} (f : Bool)
    (h : At lS (c :: w ++ rest)) (hc : c.toNat < 128) (hz : NoNul rest) :
    numberEnd (lS.advs [c]) f (nxt rest) (nxtW rest) ((lS.advs (c :: w)).step rest) =
      .ret (⟨if f then .floatValue else .intValue, utf8 (c :: w), lS.line, (lS.lpos + 1 : Nat)⟩,
        lS.advs (c :: w)) := by
  unfold numberEnd
  dsimp only
  rw [unread_step hz, advs_input, slice_from h hc]
  rfl

/-- Result of scanning the float `lex`. -/
def floatRes (lS : Lexer) (lex : List Char) : Out (Token × Lexer) :=
  .ret (⟨.floatValue, utf8 lex, lS.line, (lS.lpos + 1 : Nat)⟩, lS.advs lex)

theorem not_exp {c : Char} {t : List Char} (h : nxt (c :: t) = 101 ∨ nxt (c :: t) = 69) :
    c = 'e' ∨ c = 'E' := by
  rcases h with h | h
  · exact .inl (toNat_inj (d := 'e') h)
  · exact .inr (toNat_inj (d := 'E') h)

/-- Number with an exponent. -/
theorem numberExp_complete {lS : Lexer} {c : Char} {w ex rest : List Char} (f : Bool)
    (h : At lS (c :: w ++ (ex ++ rest))) (hc : c.toNat < 128) (hz : NoNul rest)
    (he : IsExponent ex) (hr : notNext Char.isDigit rest) :
    numberExp (lS.advs [c]) f (nxt (ex ++ rest)) (nxtW (ex ++ rest))
      ((lS.advs (c :: w)).step (ex ++ rest)) = floatRes lS (c :: w ++ ex) := by
  have h1 : At (lS.advs (c :: w)) (ex ++ rest) := h.advs
  have hend : ∀ ex', ex' = ex →
      numberEnd (lS.advs [c]) true (nxt rest) (nxtW rest) ((lS.advs (c :: (w ++ ex'))).step rest)
        = floatRes lS (c :: w ++ ex') := by
    intro ex' hex
    rw [hex]
    have h' : At lS (c :: (w ++ ex) ++ rest) := by simpa using h
    rw [numberEnd_at true h' hc hz]; rfl
  unfold numberExp
  cases he with
  | plain e ds hee hds =>
    have hne : nxt (e :: ds ++ rest) = 101 ∨ nxt (e :: ds ++ rest) = 69 := by
      rcases hee with rfl | rfl
      · exact .inl rfl
      · exact .inr rfl
    rw [if_pos hne]
    obtain ⟨hd0, hds⟩ := hds
    match ds, hd0, hds with
    | d :: ds, _, hds =>
      have hd := hds d (List.mem_cons_self ..)
      have h2 : At ((lS.advs (c :: w)).advs [e]) (d :: (ds ++ rest)) := At.advs (a := [e]) (by simpa using h1)
      have hstep : (lS.advs (c :: w)).step (e :: d :: ds ++ rest) = (lS.advs (c :: w)).advs [e] := rfl
      rw [hstep, rd_cons h2]; dsimp only
      have hns : readIf (decide (d.toNat = 43 ∨ d.toNat = 45)) d.toNat
          (((lS.advs (c :: w)).advs [e]).advs [d]) = (d.toNat, ((lS.advs (c :: w)).advs [e]).advs [d]) := by
        have : ¬ (d.toNat = 43 ∨ d.toNat = 45) := by
          rw [← isDigit_char] at hd; simp [isDigit] at hd; omega
        simp [readIf, this]
      rw [hns]; dsimp only
      rw [readDigits_at (l := (lS.advs (c :: w)).advs [e]) h2.adv1 hd
        (fun x hx => hds x (List.mem_cons_of_mem _ hx)) hr]
      dsimp only
      rw [← advs_append, ← advs_append]
      exact hend (e :: d :: ds) rfl
  | signed e s ds hee hs hds =>
    have hne : nxt (e :: s :: ds ++ rest) = 101 ∨ nxt (e :: s :: ds ++ rest) = 69 := by
      rcases hee with rfl | rfl
      · exact .inl rfl
      · exact .inr rfl
    rw [if_pos hne]
    obtain ⟨hd0, hds⟩ := hds
    match ds, hd0, hds with
    | d :: ds, _, hds =>
      have hd := hds d (List.mem_cons_self ..)
      have h2 : At ((lS.advs (c :: w)).advs [e]) (s :: d :: (ds ++ rest)) :=
        At.advs (a := [e]) (by simpa using h1)
      have hstep : (lS.advs (c :: w)).step (e :: s :: d :: ds ++ rest) = (lS.advs (c :: w)).advs [e] := rfl
      rw [hstep, rd_cons h2]; dsimp only
      have hns : readIf (decide (s.toNat = 43 ∨ s.toNat = 45)) s.toNat
          (((lS.advs (c :: w)).advs [e]).advs [s]) =
          (d.toNat, (((lS.advs (c :: w)).advs [e]).advs [s]).advs [d]) := by
        have : (s.toNat = 43 ∨ s.toNat = 45) := by
          rcases hs with rfl | rfl
          · exact .inl rfl
          · exact .inr rfl
        simp only [readIf, this, decide_true, if_true, rd_cons h2.adv1]
      rw [hns]; dsimp only
      rw [readDigits_at (l := ((lS.advs (c :: w)).advs [e]).advs [s]) h2.adv1.adv1 hd
        (fun x hx => hds x (List.mem_cons_of_mem _ hx)) hr]
      dsimp only
      rw [← advs_append, ← advs_append, ← advs_append]
      simpa using hend (e :: s :: d :: ds) rfl

/-- Number without an exponent. -/
theorem numberExp_none {lS : Lexer} {c : Char} {w rest : List Char} (f : Bool)
    (h : At lS (c :: w ++ rest)) (hc : c.toNat < 128) (hz : NoNul rest)
    (hr : notNext (fun c => c == 'e' || c == 'E') rest) :
    numberExp (lS.advs [c]) f (nxt rest) (nxtW rest) ((lS.advs (c :: w)).step rest) =
      .ret (⟨if f then .floatValue else .intValue, utf8 (c :: w), lS.line, (lS.lpos + 1 : Nat)⟩,
        lS.advs (c :: w)) := by
  unfold numberExp
  rw [if_neg, numberEnd_at f h hc hz]
  intro hh
  cases rest with
  | nil => simp [nxt] at hh
  | cons d t =>
    have := hr d t rfl
    rcases not_exp hh with rfl | rfl <;> simp at this

/-- After `e` or `E`, either an exponent follows or the token is Illegal. -/
theorem numberExp_sound {lS : Lexer} {c e : Char} {w t : List Char} (f : Bool)
    (h : At lS (c :: w ++ e :: t)) (hee : e = 'e' ∨ e = 'E') :
    (∃ ex rest, e :: t = ex ++ rest ∧ IsExponent ex ∧ notNext Char.isDigit rest) ∨
    ∃ tk l', numberExp (lS.advs [c]) f (nxt (e :: t)) (nxtW (e :: t))
      ((lS.advs (c :: w)).step (e :: t)) = .ret (tk, l') ∧ tk.kind = .illegal := by
  have h1 : At (lS.advs (c :: w)) (e :: t) := h.advs
  have hne : nxt (e :: t) = 101 ∨ nxt (e :: t) = 69 := by
    rcases hee with rfl | rfl
    · exact .inl rfl
    · exact .inr rfl
  have h2 : At ((lS.advs (c :: w)).advs [e]) t := h1.adv1
  have hstep : (lS.advs (c :: w)).step (e :: t) = (lS.advs (c :: w)).advs [e] := rfl
  unfold numberExp
  rw [if_pos hne, hstep, rd_at h2]; dsimp only
  have bad : ∀ s : Nat × Lexer, isDigit s.1 = false → ∃ tk l',
      (match readDigits s.2 s.1 with
        | .ret (.ok (r3, w3, l3)) => numberEnd (lS.advs [c]) true r3 w3 l3
        | .ret (.error e) => .ret (⟨.illegal, e, s.2.line, (lS.advs [c]).lpos⟩, s.2)
        | .panic => .panic
        | .oof => .oof) = .ret (tk, l') ∧ tk.kind = TokenKind.illegal := by
    intro s hs
    obtain ⟨er, he⟩ := readDigits_bad (l := s.2) hs
    rw [he]; exact ⟨_, _, rfl, rfl⟩
  by_cases hsign : nxt t = 43 ∨ nxt t = 45
  · match t, h1, h2, hsign with
    | s :: t, h1, h2, hsign =>
      have hs : s = '+' ∨ s = '-' := by
        rcases hsign with hh | hh
        · exact .inl (toNat_inj (d := '+') hh)
        · exact .inr (toNat_inj (d := '-') hh)
      simp only [hsign, decide_true, readIf, if_true]
      have h3 : At (((lS.advs (c :: w)).advs [e]).step (s :: t)) t := h2.step
      rw [rd_at h3]; dsimp only
      by_cases hd : isDigit (nxt t) = true
      · left
        match t, h3, hd with
        | d :: t, h3, hd =>
          obtain ⟨ds, rest, e1, h4, h5⟩ := span Char.isDigit (d :: t)
          refine ⟨e :: s :: ds, rest, by rw [e1]; rfl, .signed e s ds hee hs ⟨?_, h4⟩, h5⟩
          rintro rfl
          have : Char.isDigit d = false := h5 d t (by rw [e1]; rfl)
          simp only [nxt, isDigit_char, this] at hd; cases hd
      · right
        exact bad (nxt t, _) (by simpa using hd)
  · simp only [hsign, decide_false, readIf]
    by_cases hd : isDigit (nxt t) = true
    · left
      match t, hd with
      | d :: t, hd =>
        obtain ⟨ds, rest, e1, h4, h5⟩ := span Char.isDigit (d :: t)
        refine ⟨e :: ds, rest, by rw [e1]; rfl, .plain e ds hee ⟨?_, h4⟩, h5⟩
        rintro rfl
        have : Char.isDigit d = false := h5 d t (by rw [e1]; rfl)
        simp only [nxt, isDigit_char, this] at hd; cases hd
    · right
      exact bad (nxt t, _) (by simpa using hd)

/-- Fraction present. -/
theorem numberFrac_at {lS : Lexer} {c : Char} {w f rest : List Char}
    (h : At lS (c :: w ++ (f ++ rest))) (hf : IsFraction f) (hr : notNext Char.isDigit rest) :
    numberFrac (lS.advs [c]) (nxt (f ++ rest)) (nxtW (f ++ rest)) ((lS.advs (c :: w)).step (f ++ rest)) =
      numberExp (lS.advs [c]) true (nxt rest) (nxtW rest) ((lS.advs (c :: (w ++ f))).step rest) := by
  have h1 : At (lS.advs (c :: w)) (f ++ rest) := h.advs
  cases hf with
  | mk ds hds =>
    obtain ⟨hd0, hds⟩ := hds
    match ds, hd0, hds with
    | d :: ds, _, hds =>
      have hd := hds d (List.mem_cons_self ..)
      unfold numberFrac
      have hdot : nxt ('.' :: d :: ds ++ rest) = 46 := rfl
      rw [if_pos hdot]
      have h2 : At ((lS.advs (c :: w)).advs ['.']) (d :: (ds ++ rest)) :=
        At.advs (a := ['.']) (by simpa using h1)
      have hstep : (lS.advs (c :: w)).step ('.' :: d :: ds ++ rest) = (lS.advs (c :: w)).advs ['.'] := rfl
      rw [hstep, rd_cons h2]; dsimp only
      rw [readDigits_at (l := (lS.advs (c :: w)).advs ['.']) h2.adv1 hd
        (fun x hx => hds x (List.mem_cons_of_mem _ hx)) hr]
      dsimp only
      rw [← advs_append, ← advs_append]
      rfl

theorem numberFrac_none {lS : Lexer} {c : Char} {w rest : List Char}
    (hr : notNext (· == '.') rest) :
    numberFrac (lS.advs [c]) (nxt rest) (nxtW rest) ((lS.advs (c :: w)).step rest) =
      numberExp (lS.advs [c]) false (nxt rest) (nxtW rest) ((lS.advs (c :: w)).step rest) := by
  unfold numberFrac
  rw [if_neg]
  intro hh
  cases rest with
  | nil => simp [nxt] at hh
  | cons d t =>
    have h1 := toNat_inj (c := d) (d := '.') hh
    subst h1
    have := hr '.' t rfl
    simp at this

theorem numberFrac_sound {lS : Lexer} {c : Char} {w t : List Char}
    (h : At lS (c :: w ++ '.' :: t)) :
    (∃ f rest, '.' :: t = f ++ rest ∧ IsFraction f ∧ notNext Char.isDigit rest) ∨
    ∃ tk l', numberFrac (lS.advs [c]) (nxt ('.' :: t)) (nxtW ('.' :: t))
      ((lS.advs (c :: w)).step ('.' :: t)) = .ret (tk, l') ∧ tk.kind = .illegal := by
  have h1 : At (lS.advs (c :: w)) ('.' :: t) := h.advs
  have h2 := h1.adv1
  unfold numberFrac
  have hdot : nxt ('.' :: t) = 46 := rfl
  have hstep : (lS.advs (c :: w)).step ('.' :: t) = (lS.advs (c :: w)).advs ['.'] := rfl
  rw [if_pos hdot, hstep, rd_at h2]; dsimp only
  by_cases hd : isDigit (nxt t) = true
  · left
    match t, hd with
    | d :: t, hd =>
      obtain ⟨ds, rest, e1, h4, h5⟩ := span Char.isDigit (d :: t)
      refine ⟨'.' :: ds, rest, by rw [e1]; rfl, .mk ds ⟨?_, h4⟩, h5⟩
      rintro rfl
      have : Char.isDigit d = false := h5 d t (by rw [e1]; rfl)
      simp only [nxt, isDigit_char, this] at hd; cases hd
  · right
    obtain ⟨er, he⟩ := readDigits_bad (l := ((lS.advs (c :: w)).advs ['.']).step t) (r := nxt t) (by simpa using hd)
    rw [he]; exact ⟨_, _, rfl, rfl⟩

theorem intPart_head {i : List Char} (h : IsIntegerPart i) :
    ∃ c w, i = c :: w ∧ c.toNat < 128 ∧ (c.isDigit = true ∨ c = '-') := by
  cases h with
  | zero => exact ⟨_, _, rfl, by decide, by decide⟩
  | negZero => exact ⟨_, _, rfl, by decide, by decide⟩
  | pos c ds h1 h2 h3 => exact ⟨_, _, rfl, digit_ascii h1, .inl h1⟩
  | neg c ds h1 h2 h3 => exact ⟨_, _, rfl, by decide, by decide⟩

theorem scanNumber_at {lS : Lexer} {c : Char} {w rest : List Char}
    (h : At lS (c :: w ++ rest)) (hi : IsIntegerPart (c :: w)) (hr : notNext Char.isDigit rest) :
    scanNumber (lS.advs [c]) c.toNat =
      numberFrac (lS.advs [c]) (nxt rest) (nxtW rest) ((lS.advs (c :: w)).step rest) := by
  have h1 : At (lS.advs [c]) (w ++ rest) := At.advs (a := [c]) h
  have hnd : isDigit (nxt rest) = false := by
    cases rest with
    | nil => rfl
    | cons d t => show isDigit d.toNat = false; rw [isDigit_char]; exact hr d t rfl
  unfold scanNumber
  cases hi with
  | zero =>
    have : readIf (decide (('0').toNat = 45)) ('0').toNat (lS.advs ['0']) = (48, lS.advs ['0']) := by
      simp [readIf]
    rw [this]
    simp only [if_true]
    rw [rd_at h1]
    simp only [List.nil_append, hnd]
    rfl
  | negZero =>
    have h1' : At (lS.advs ['-']) ('0' :: rest) := h1
    have : readIf (decide (('-').toNat = 45)) ('-').toNat (lS.advs ['-']) =
        (48, (lS.advs ['-']).advs ['0']) := by
      simp [readIf, rd_cons h1']
    rw [this]
    simp only [if_true]
    rw [rd_at h1'.adv1]
    simp only [hnd]
    rw [← advs_append]
    rfl
  | pos _ _ hc hc0 hds =>
    have hc48 : ¬ c.toNat = 48 := fun hh => hc0 (toNat_inj (d := '0') hh)
    have hc45 : ¬ c.toNat = 45 := by rw [← isDigit_char] at hc; simp [isDigit] at hc; omega
    have : readIf (decide (c.toNat = 45)) c.toNat (lS.advs [c]) = (c.toNat, lS.advs [c]) := by
      simp [readIf, hc45]
    rw [this]
    simp only [hc48, if_false]
    rw [readDigits_at h1 hc hds hr]
  | neg d ds hc hc0 hds =>
    have h1' : At (lS.advs ['-']) (d :: (ds ++ rest)) := h1
    have hc48 : ¬ d.toNat = 48 := fun hh => hc0 (toNat_inj (d := '0') hh)
    have : readIf (decide (('-').toNat = 45)) ('-').toNat (lS.advs ['-']) =
        (d.toNat, (lS.advs ['-']).advs [d]) := by
      simp [readIf, rd_cons h1']
    rw [this]
    simp only [hc48, if_false]
    rw [readDigits_at h1'.adv1 hc hds hr]
    dsimp only
    rw [← advs_append]
    rfl

theorem scanNumber_sound {lS : Lexer} {c : Char} {t : List Char}
    (h : At lS (c :: t)) (hc : c.isDigit = true ∨ c = '-') :
    (∃ w rest, t = w ++ rest ∧ IsIntegerPart (c :: w) ∧ notNext Char.isDigit rest) ∨
    ∃ tk l', scanNumber (lS.advs [c]) c.toNat = .ret (tk, l') ∧ tk.kind = .illegal := by
  have h1 := h.adv1
  by_cases hm : c = '-'
  · subst hm
    unfold scanNumber
    have : readIf (decide (('-').toNat = 45)) ('-').toNat (lS.advs ['-']) =
        (nxt t, (lS.advs ['-']).step t) := by
      simp [readIf, rd_at h1]
    rw [this]; dsimp only
    by_cases h0 : nxt t = 48
    · match t, h0, h1 with
      | z :: t, h0, h1 =>
        have hz := toNat_inj (c := z) (d := '0') h0
        subst hz
        rw [if_pos h0, rd_at h1.step]; dsimp only
        by_cases hd : isDigit (nxt t) = true
        · right
          simp only [List.tail_cons, hd, if_true]
          exact ⟨_, _, rfl, rfl⟩
        · left
          refine ⟨['0'], t, rfl, .negZero, ?_⟩
          rintro d t' rfl
          rw [← isDigit_char]; simpa [nxt] using hd
    · rw [if_neg h0]
      by_cases hd : isDigit (nxt t) = true
      · left
        match t, hd, h0 with
        | d :: t, hd, h0 =>
          obtain ⟨ds, rest, e1, h4, h5⟩ := span Char.isDigit t
          refine ⟨d :: ds, rest, by rw [e1]; rfl, .neg d ds ?_ ?_ h4, h5⟩
          · rw [← isDigit_char]; exact hd
          · rintro rfl; exact h0 rfl
      · right
        obtain ⟨er, he⟩ := readDigits_bad (l := (lS.advs ['-']).step t) (r := nxt t) (by simpa using hd)
        rw [he]; exact ⟨_, _, rfl, rfl⟩
  · have hc := hc.resolve_right hm
    by_cases h0 : c = '0'
    · subst h0
      unfold scanNumber
      have : readIf (decide (('0').toNat = 45)) ('0').toNat (lS.advs ['0']) = (48, lS.advs ['0']) := by
        simp [readIf]
      rw [this]
      simp only [if_true]
      rw [rd_at h1]; dsimp only
      by_cases hd : isDigit (nxt t) = true
      · right; rw [hd, if_pos rfl]; exact ⟨_, _, rfl, rfl⟩
      · left
        refine ⟨[], t, rfl, .zero, ?_⟩
        rintro d t' rfl
        rw [← isDigit_char]; simpa [nxt] using hd
    · left
      obtain ⟨ds, rest, e1, h4, h5⟩ := span Char.isDigit t
      exact ⟨ds, rest, e1, .pos c ds hc h0 h4, h5⟩

end GQL
