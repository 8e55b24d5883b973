/-
Quoted strings: both passes of `scanString` against `Spec.StrText`.
-/
import Verif.Proofs.LexTok

namespace GQL
open Spec

theorem Spec.StrText.split {s v rest : List Char} (h : StrText s v rest) : ∃ lx, s = lx ++ rest := by
  induction h with
  | close rest => exact ⟨['"'], rfl⟩
  | char c _ _ _ _ ih => obtain ⟨lx, rfl⟩ := ih; exact ⟨c :: lx, rfl⟩
  | esc e x _ _ ih => obtain ⟨lx, rfl⟩ := ih; exact ⟨'\\' :: e :: lx, rfl⟩
  | @unicode a b c d _ _ _ _ _ _ _ _ _ _ _ _ ih =>
    obtain ⟨lx, rfl⟩ := ih; exact ⟨'\\' :: 'u' :: a :: b :: c :: d :: lx, rfl⟩

theorem toNat_ne {c d : Char} (h : c ≠ d) : c.toNat ≠ d.toNat := fun hh => h (toNat_inj hh)

theorem simpleEscape_table (e x : Char) : (e, x) ∈ escapeTable ↔ simpleEscape e.toNat = some x.toNat := by
  constructor
  · intro h
    simp only [escapeTable, List.mem_cons, Prod.mk.injEq, List.not_mem_nil, or_false] at h
    rcases h with ⟨rfl, rfl⟩ | ⟨rfl, rfl⟩ | ⟨rfl, rfl⟩ | ⟨rfl, rfl⟩ | ⟨rfl, rfl⟩ | ⟨rfl, rfl⟩ |
      ⟨rfl, rfl⟩ | ⟨rfl, rfl⟩ <;> rfl
  · intro h
    have key : ∀ (a b : Char), e.toNat = a.toNat → (some b.toNat = some x.toNat) →
        (a, b) ∈ escapeTable → (e, x) ∈ escapeTable := by
      intro a b h1 h2 h3
      rw [toNat_inj h1, ← toNat_inj (Option.some.inj h2)]; exact h3
    unfold simpleEscape at h
    repeat' split at h
    · exact key '"' '"' (by assumption) h (by decide)
    · exact key '/' '/' (by assumption) h (by decide)
    · exact key '\\' '\\' (by assumption) h (by decide)
    · exact key 'b' '\x08' (by assumption) h (by decide)
    · exact key 'f' '\x0c' (by assumption) h (by decide)
    · exact key 'n' '\n' (by assumption) h (by decide)
    · exact key 'r' '\r' (by assumption) h (by decide)
    · exact key 't' '\t' (by assumption) h (by decide)
    · cases h

theorem simpleEscape_some {r y : Nat} (h : simpleEscape r = some y) : r ≠ 0 ∧ r ≠ 117 ∧ y.isValidChar := by
  unfold simpleEscape at h
  repeat' split at h
  all_goals first
    | (cases h; subst_vars; simp; decide)
    | cases h

theorem hexVal_eq (c : Char) : hexVal c = hexRuneToInt c.toNat := by
  have e0 : ('0' ≤ c) = (48 ≤ c.toNat) := rfl
  have e9 : (c ≤ '9') = (c.toNat ≤ 57) := rfl
  have eA : ('A' ≤ c) = (65 ≤ c.toNat) := rfl
  have eF : (c ≤ 'F') = (c.toNat ≤ 70) := rfl
  have ea : ('a' ≤ c) = (97 ≤ c.toNat) := rfl
  have ef : (c ≤ 'f') = (c.toNat ≤ 102) := rfl
  unfold hexVal hexRuneToInt
  simp only [e0, e9, eA, eF, ea, ef]
  have k1 : '0'.toNat = 48 := rfl
  have k2 : 'A'.toNat = 65 := rfl
  have k3 : 'a'.toNat = 97 := rfl
  rw [k1, k2, k3]
  repeat' split
  all_goals first
    | rfl
    | (congr 1; omega)

theorem hexRune_lt {r i : Nat} (h : hexRuneToInt r = some i) : i < 16 := by
  unfold hexRuneToInt at h
  repeat' split at h
  all_goals first
    | (cases h; omega)
    | cases h

theorem hexRune_ne_zero {r i : Nat} (h : hexRuneToInt r = some i) : r ≠ 0 := by
  rintro rfl; simp [hexRuneToInt] at h

theorem shift_or (i j k m : Nat) (hj : j < 16) (hk : k < 16) (hm : m < 16) :
    (i <<< 12) ||| (j <<< 8) ||| (k <<< 4) ||| (m <<< 0) = ((i * 16 + j) * 16 + k) * 16 + m := by
  have e1 : i <<< 12 ||| j <<< 8 = (i * 16 + j) <<< 8 := by
    rw [show i <<< 12 = (i <<< 4) <<< 8 by rw [← Nat.shiftLeft_add], ← Nat.shiftLeft_or_distrib]
    congr 1
    rw [← Nat.shiftLeft_add_eq_or_of_lt (by simpa using hj), Nat.shiftLeft_eq]
  have e2 : (i * 16 + j) <<< 8 ||| k <<< 4 = ((i * 16 + j) * 16 + k) <<< 4 := by
    rw [show (i * 16 + j) <<< 8 = ((i * 16 + j) <<< 4) <<< 4 by rw [← Nat.shiftLeft_add],
      ← Nat.shiftLeft_or_distrib]
    congr 1
    rw [← Nat.shiftLeft_add_eq_or_of_lt (by simpa using hk), Nat.shiftLeft_eq]
  rw [e1, e2, Nat.shiftLeft_zero, ← Nat.shiftLeft_add_eq_or_of_lt (by simpa using hm), Nat.shiftLeft_eq]

theorem unicode_some {a b c d i j k m : Nat} (ha : hexRuneToInt a = some i) (hb : hexRuneToInt b = some j)
    (hc : hexRuneToInt c = some k) (hd : hexRuneToInt d = some m) :
    unicodeCodePointToRune a b c d = some (((i * 16 + j) * 16 + k) * 16 + m) := by
  unfold unicodeCodePointToRune
  rw [ha, hb, hc, hd]
  dsimp only
  rw [shift_or i j k m (hexRune_lt hb) (hexRune_lt hc) (hexRune_lt hd)]

theorem toNat_ofNat {n : Nat} (h : n.isValidChar) : (Char.ofNat n).toNat = n := by
  unfold Char.ofNat
  rw [dif_pos h]; rfl

theorem encodeRune_codePoint (n : Nat) (h : n < 65536) : encodeRune n = utf8Char (codePoint n) := by
  rw [utf8Char_eq]
  unfold codePoint
  split
  · rename_i hv
    rw [toNat_ofNat hv]
  · rename_i hv
    have hs : 0xD800 ≤ n ∧ n ≤ 0xDFFF := by unfold Nat.isValidChar at hv; omega
    have e : encodeRune 0xFFFD = [0xEF, 0xBF, 0xBD] := by decide
    show _ = encodeRune 0xFFFD
    rw [e]
    unfold encodeRune
    rw [if_neg (by omega), if_neg (by omega)]
    have hb : (decide (n > 0x10FFFF) || (decide (0xD800 ≤ n) && decide (n ≤ 0xDFFF))) = true := by
      simp; omega
    rw [hb]
    simp only [if_true]
    rfl

/-- `escapedChar` on a one-character escape. -/
theorem escapedChar_simple {l : Lexer} {e : Char} {s : List Char} {x : Nat} (h : At l (e :: s))
    (he : simpleEscape e.toNat = some x) : escapedChar l = (.ok x, l.advs [e]) := by
  unfold escapedChar
  rw [rd_cons h]; dsimp only
  rw [he]

/-- `escapedChar` on a unicode escape. -/
theorem escapedChar_unicode {l : Lexer} {a b c d : Char} {s : List Char} {i j k m : Nat}
    (h : At l ('u' :: a :: b :: c :: d :: s))
    (ha : hexVal a = some i) (hb : hexVal b = some j) (hc : hexVal c = some k) (hd : hexVal d = some m) :
    escapedChar l = (.ok (((i * 16 + j) * 16 + k) * 16 + m), l.advs ['u', a, b, c, d]) := by
  rw [hexVal_eq] at ha hb hc hd
  have h1 := h.adv1
  have h2 := h1.adv1
  have h3 := h2.adv1
  have h4 := h3.adv1
  unfold escapedChar
  rw [rd_cons h]; dsimp only
  have : simpleEscape ('u').toNat = none := rfl
  rw [this]; dsimp only
  rw [if_pos (show ('u').toNat = 117 by decide), rd_cons h1]; dsimp only
  rw [rd_cons h2]; dsimp only
  rw [rd_cons h3]; dsimp only
  rw [rd_cons h4]; dsimp only
  rw [unicode_some ha hb hc hd]
  simp only [← advs_append]; rfl

theorem printable_nat {c : Char} (h : printable c = true) : ¬ (c.toNat < 32 ∧ c.toNat ≠ 9) := by
  unfold printable at h
  simp only [Bool.or_eq_true, decide_eq_true_eq, beq_iff_eq] at h
  rcases h with h | rfl
  · omega
  · decide

theorem not_printable_nat {c : Char} (h : ¬ (c.toNat < 32 ∧ c.toNat ≠ 9)) : printable c = true := by
  unfold printable
  simp only [Bool.or_eq_true, decide_eq_true_eq, beq_iff_eq]
  by_cases h9 : c.toNat = 9
  · exact .inr (toNat_inj (d := '\t') h9)
  · left; omega

/-- The first pass finds the closing quote. -/
theorem pass1_complete {s v rest lx : List Char} (h : StrText s v rest) (hs : s = lx ++ rest)
    {l : Lexer} (ha : At l s) {n : Nat} (hn : s.length < n) (esc : Bool) :
    ∃ b, stringPass1 n esc l = .ret (.ok (b, l.advs lx)) ∧
      ((b = esc ∧ lx = v ++ ['"']) ∨ b = true) := by
  induction h generalizing lx l n esc with
  | close rest =>
    obtain _ | n := n
    · simp at hn
    have : lx = ['"'] := (List.append_cancel_right (show ['"'] ++ rest = lx ++ rest from hs)).symm
    subst this
    unfold stringPass1
    rw [rd_cons ha]; dsimp only
    rw [if_pos (show ('"').toNat = 34 by decide)]
    exact ⟨esc, rfl, .inl ⟨rfl, rfl⟩⟩
  | char c h1 h2 h3 h4 ih =>
    obtain _ | n := n
    · simp at hn
    obtain ⟨lx', e⟩ := h4.split
    have : lx = c :: lx' := by
      rw [e, ← List.cons_append] at hs; exact (List.append_cancel_right hs).symm
    subst this
    unfold stringPass1
    rw [rd_cons ha]; dsimp only
    rw [if_neg (show ¬ c.toNat = 34 from toNat_ne (d := '"') h1), if_neg (printable_nat h3), if_neg (show ¬ c.toNat = 92 from toNat_ne (d := '\\') h2)]
    obtain ⟨b, e1, e2⟩ := ih (n := n) e ha.adv1 (by simp only [List.length_cons] at hn; omega) esc
    refine ⟨b, by rw [e1, ← advs_append]; rfl, ?_⟩
    rcases e2 with ⟨e2, e3⟩ | e2
    · exact .inl ⟨e2, by rw [e3]; rfl⟩
    · exact .inr e2
  | esc e x h1 h2 ih =>
    obtain _ | n := n
    · simp at hn
    obtain ⟨lx', e'⟩ := h2.split
    have : lx = '\\' :: e :: lx' := by
      rw [e', ← List.cons_append, ← List.cons_append] at hs; exact (List.append_cancel_right hs).symm
    subst this
    unfold stringPass1
    rw [rd_cons ha]; dsimp only
    rw [if_neg (show ¬ ('\\').toNat = 34 by decide), if_neg (show ¬ (('\\').toNat < 32 ∧ ('\\').toNat ≠ 9) by decide),
      if_pos (show ('\\').toNat = 92 by decide)]
    rw [rd_cons ha.adv1]; dsimp only
    rw [if_neg (simpleEscape_some ((simpleEscape_table e x).1 h1)).2.1]
    obtain ⟨b, e1, e2⟩ := ih (n := n) e' ha.adv1.adv1 (by simp only [List.length_cons] at hn; omega) true
    rw [← advs_append] at e1 ⊢
    rw [← advs_append] at e1
    refine ⟨b, e1, .inr ?_⟩
    rcases e2 with ⟨e2, -⟩ | e2 <;> exact e2
  | @unicode a b c d i j k m s v rest h1 h2 h3 h4 h5 ih =>
    obtain _ | n := n
    · simp at hn
    obtain ⟨lx', e'⟩ := h5.split
    have : lx = '\\' :: 'u' :: a :: b :: c :: d :: lx' := by
      rw [e'] at hs; simp only [← List.cons_append] at hs; exact (List.append_cancel_right hs).symm
    subst this
    unfold stringPass1
    rw [rd_cons ha]; dsimp only
    rw [if_neg (show ¬ ('\\').toNat = 34 by decide), if_neg (show ¬ (('\\').toNat < 32 ∧ ('\\').toNat ≠ 9) by decide),
      if_pos (show ('\\').toNat = 92 by decide)]
    rw [rd_cons ha.adv1]; dsimp only
    rw [if_pos (show ('u').toNat = 117 by decide)]
    have a1 := ha.adv1.adv1
    have a2 := a1.adv1
    have a3 := a2.adv1
    have a4 := a3.adv1
    rw [rd_cons a1]; dsimp only
    rw [rd_cons a2]; dsimp only
    rw [rd_cons a3]; dsimp only
    rw [rd_cons a4]; dsimp only
    obtain ⟨b', e1, e2⟩ := ih (n := n) e' a4.adv1 (by simp only [List.length_cons] at hn; omega) true
    simp only [← advs_append] at e1 ⊢
    refine ⟨b', e1, .inr ?_⟩
    rcases e2 with ⟨e2, -⟩ | e2 <;> exact e2

/-- The second pass decodes. -/
theorem pass2_complete {s v rest lx : List Char} (h : StrText s v rest) (hs : s = lx ++ rest)
    {l : Lexer} (ha : At l s) {n : Nat} (hn : s.length < n) (acc : Bytes) (col line : Nat) :
    stringPass2 col line n acc l = .ret (⟨.stringValue, acc ++ utf8 v, line, col⟩, l.advs lx) := by
  induction h generalizing lx l n acc with
  | close rest =>
    obtain _ | n := n
    · simp at hn
    have : lx = ['"'] := (List.append_cancel_right (show ['"'] ++ rest = lx ++ rest from hs)).symm
    subst this
    unfold stringPass2
    rw [rd_cons ha]; dsimp only
    rw [if_pos (.inl (show ('"').toNat = 34 by decide))]
    simp [utf8]
  | char c h1 h2 h3 h4 ih =>
    obtain _ | n := n
    · simp at hn
    obtain ⟨lx', e⟩ := h4.split
    have : lx = c :: lx' := by
      rw [e, ← List.cons_append] at hs; exact (List.append_cancel_right hs).symm
    subst this
    have h0 : c.toNat ≠ 0 := by have := printable_nat h3; omega
    unfold stringPass2
    rw [rd_cons ha]; dsimp only
    rw [if_neg (by rintro (h | h); exact toNat_ne (d := '"') h1 h; exact h0 h),
      if_neg (show ¬ c.toNat = 92 from toNat_ne (d := '\\') h2), ih e ha.adv1 (by simp only [List.length_cons] at hn; omega), ← advs_append,
      utf8_cons, utf8Char_eq, List.append_assoc]; rfl
  | esc e x h1 h2 ih =>
    obtain _ | n := n
    · simp at hn
    obtain ⟨lx', e'⟩ := h2.split
    have : lx = '\\' :: e :: lx' := by
      rw [e', ← List.cons_append, ← List.cons_append] at hs; exact (List.append_cancel_right hs).symm
    subst this
    unfold stringPass2
    rw [rd_cons ha]; dsimp only
    rw [if_neg (show ¬ (('\\').toNat = 34 ∨ ('\\').toNat = 0) by decide),
      if_pos (show ('\\').toNat = 92 by decide)]
    rw [escapedChar_simple ha.adv1 ((simpleEscape_table e x).1 h1)]; dsimp only
    rw [ih e' ha.adv1.adv1 (by simp only [List.length_cons] at hn; omega), ← advs_append, ← advs_append,
      utf8_cons, utf8Char_eq, List.append_assoc]; rfl
  | @unicode a b c d i j k m s v rest h1 h2 h3 h4 h5 ih =>
    obtain _ | n := n
    · simp at hn
    obtain ⟨lx', e'⟩ := h5.split
    have : lx = '\\' :: 'u' :: a :: b :: c :: d :: lx' := by
      rw [e'] at hs; simp only [← List.cons_append] at hs; exact (List.append_cancel_right hs).symm
    subst this
    have hlt : ((i * 16 + j) * 16 + k) * 16 + m < 65536 := by
      rw [hexVal_eq] at h1 h2 h3 h4
      have := hexRune_lt h1; have := hexRune_lt h2; have := hexRune_lt h3; have := hexRune_lt h4
      omega
    unfold stringPass2
    rw [rd_cons ha]; dsimp only
    rw [if_neg (show ¬ (('\\').toNat = 34 ∨ ('\\').toNat = 0) by decide),
      if_pos (show ('\\').toNat = 92 by decide)]
    rw [escapedChar_unicode ha.adv1 h1 h2 h3 h4]; dsimp only
    have a5 : At ((l.advs ['\\']).advs ['u', a, b, c, d]) s := At.advs (a := ['u', a, b, c, d]) ha.adv1
    rw [ih e' a5 (by simp only [List.length_cons] at hn; omega), encodeRune_codePoint _ hlt, utf8_cons, List.append_assoc]
    simp only [← advs_append]; rfl

/-- If the first pass finds a closing quote then the text is a string, or an escape is wrong and
the second pass yields an Illegal token. -/
theorem pass1_sound {n : Nat} {esc b : Bool} {l l' : Lexer} {s : List Char} (ha : At l s)
    (hz : NoNul s) (h : stringPass1 n esc l = .ret (.ok (b, l'))) :
    (esc = true → b = true) ∧
    ((∃ v rest, StrText s v rest) ∨
     (b = true ∧ ∀ col line acc m, s.length < m →
        ∃ t l'', stringPass2 col line m acc l = .ret (t, l'') ∧ t.kind = .illegal)) := by
  induction n generalizing esc l s with
  | zero => cases h
  | succ n ih =>
    unfold stringPass1 at h
    cases s with
    | nil =>
      rw [rd_eof ha] at h; dsimp only at h
      rw [if_neg (by decide), if_pos (by decide)] at h; cases h
    | cons c s =>
      rw [rd_cons ha] at h; dsimp only at h
      split at h
      · rename_i hc
        have := toNat_inj (c := c) (d := '"') hc; subst this
        cases h
        exact ⟨id, .inl ⟨[], s, .close s⟩⟩
      · rename_i hc34
        have hne34 : c ≠ '"' := fun hh => hc34 (hh ▸ rfl)
        split at h
        · cases h
        · rename_i hp
          have hp' := not_printable_nat hp
          split at h
          · rename_i hc
            have := toNat_inj (c := c) (d := '\\') hc; subst this
            -- what the second pass does on an escape
            have step2 : ∀ col line acc m, stringPass2 col line (m + 1) acc l =
                (match escapedChar (l.advs ['\\']) with
                 | (.error e, l2) => .ret (⟨.illegal, e, line, col⟩, l2)
                 | (.ok x, l2) => stringPass2 col line m (acc ++ encodeRune x) l2) := by
              intro col line acc m
              rw [stringPass2, rd_cons ha]; dsimp only
              rw [if_neg (show ¬ (('\\').toNat = 34 ∨ ('\\').toNat = 0) by decide),
                if_pos (show ('\\').toNat = 92 by decide)]
              rfl
            have h1 := ha.adv1
            rw [rd_at h1] at h; dsimp only at h
            split at h
            · rename_i hu
              obtain _ | ⟨u, s⟩ := s
              · exact absurd hu (by decide)
              · have := toNat_inj (c := u) (d := 'u') hu; subst this
                have h2 : At ((l.advs ['\\']).step ('u' :: s)) s := h1.step
                have h3 := h2.step
                have h4 := h3.step
                have h5 := h4.step
                have h6 := h5.step
                rw [rd_at h2] at h; dsimp only at h
                rw [rd_at h3] at h; dsimp only at h
                rw [rd_at h4] at h; dsimp only at h
                rw [rd_at h5] at h; dsimp only at h
                have hz' : NoNul s.tail.tail.tail.tail := fun d hd =>
                  hz d (List.mem_cons_of_mem _ (List.mem_cons_of_mem _
                    (List.mem_of_mem_tail (List.mem_of_mem_tail (List.mem_of_mem_tail (List.mem_of_mem_tail hd))))))
                obtain ⟨i1, i2⟩ := ih h6 hz' h
                refine ⟨fun _ => i1 rfl, ?_⟩
                have hesc : escapedChar (l.advs ['\\']) =
                    match unicodeCodePointToRune (nxt s) (nxt s.tail) (nxt s.tail.tail) (nxt s.tail.tail.tail) with
                    | some x => (.ok x, (((((l.advs ['\\']).step ('u' :: s)).step s).step s.tail).step s.tail.tail).step
                        s.tail.tail.tail)
                    | none => (.error (msgBadUnicode (nxt s) (nxt s.tail) (nxt s.tail.tail) (nxt s.tail.tail.tail)),
                       (((((l.advs ['\\']).step ('u' :: s)).step s).step s.tail).step s.tail.tail).step
                        s.tail.tail.tail) := by
                  unfold escapedChar
                  rw [rd_at h1]; dsimp only
                  have : simpleEscape (nxt ('u' :: s)) = none := rfl
                  rw [this]; dsimp only
                  rw [if_pos hu, rd_at h2]; dsimp only
                  rw [rd_at h3]; dsimp only
                  rw [rd_at h4]; dsimp only
                  rw [rd_at h5]; rfl
                cases hx : unicodeCodePointToRune (nxt s) (nxt s.tail) (nxt s.tail.tail) (nxt s.tail.tail.tail) with
                | none =>
                  right
                  refine ⟨i1 rfl, fun col line acc m hm => ?_⟩
                  obtain _ | m := m
                  · simp at hm
                  rw [step2, hesc, hx]
                  exact ⟨_, _, rfl, rfl⟩
                | some x =>
                  rcases i2 with ⟨v, rest, hst⟩ | ⟨hb, hill⟩
                  · left
                    unfold unicodeCodePointToRune at hx
                    split at hx
                    · rename_i i j k m e1 e2 e3 e4
                      have n1 := hexRune_ne_zero e1
                      have n2 := hexRune_ne_zero e2
                      have n3 := hexRune_ne_zero e3
                      have n4 := hexRune_ne_zero e4
                      obtain _ | ⟨a, _ | ⟨b, _ | ⟨c, _ | ⟨d, s⟩⟩⟩⟩ := s
                      · exact absurd rfl n1
                      · exact absurd rfl n2
                      · exact absurd rfl n3
                      · exact absurd rfl n4
                      · exact ⟨_, _, .unicode (by rw [hexVal_eq]; exact e1) (by rw [hexVal_eq]; exact e2)
                          (by rw [hexVal_eq]; exact e3) (by rw [hexVal_eq]; exact e4) hst⟩
                    · cases hx
                  · right
                    refine ⟨hb, fun col line acc m hm => ?_⟩
                    obtain _ | m := m
                    · simp at hm
                    rw [step2, hesc, hx]
                    exact hill _ _ _ _ (by simp at hm ⊢; omega)
            · rename_i hu
              have hz' : NoNul s.tail := fun d hd => hz d (List.mem_cons_of_mem _ (List.mem_of_mem_tail hd))
              obtain ⟨i1, i2⟩ := ih h1.step hz' h
              refine ⟨fun _ => i1 rfl, ?_⟩
              cases he : simpleEscape (nxt s) with
              | none =>
                right
                refine ⟨i1 rfl, fun col line acc m hm => ?_⟩
                obtain _ | m := m
                · simp at hm
                rw [step2]
                have : escapedChar (l.advs ['\\']) = (.error (msgBadEscape (nxt s)), (l.advs ['\\']).step s) := by
                  unfold escapedChar
                  rw [rd_at h1]; dsimp only
                  rw [he]; dsimp only
                  rw [if_neg hu]
                rw [this]
                exact ⟨_, _, rfl, rfl⟩
              | some x =>
                have hne := (simpleEscape_some he)
                obtain _ | ⟨e, s⟩ := s
                · exact absurd rfl hne.1
                · have hxv : (Char.ofNat x).toNat = x := toNat_ofNat hne.2.2
                  rcases i2 with ⟨v, rest, hst⟩ | ⟨hb, hill⟩
                  · left
                    exact ⟨_, _, .esc e (Char.ofNat x) ((simpleEscape_table _ _).2 (by rw [hxv]; exact he)) hst⟩
                  · right
                    refine ⟨hb, fun col line acc m hm => ?_⟩
                    obtain _ | m := m
                    · simp at hm
                    rw [step2, escapedChar_simple h1 he]
                    exact hill _ _ _ _ (by simp at hm ⊢; omega)
          · rename_i hc92
            have hne92 : c ≠ '\\' := fun hh => hc92 (hh ▸ rfl)
            obtain ⟨i1, i2⟩ := ih ha.adv1 hz.tail h
            refine ⟨i1, ?_⟩
            rcases i2 with ⟨v, rest, hst⟩ | ⟨hb, hill⟩
            · exact .inl ⟨_, _, .char c hne34 hne92 hp' hst⟩
            · right
              refine ⟨hb, fun col line acc m hm => ?_⟩
              obtain _ | m := m
              · simp at hm
              rw [stringPass2, rd_cons ha]; dsimp only
              rw [if_neg (by rintro (h | h); exact hc34 h; exact hz.head h), if_neg hc92]
              exact hill _ _ _ _ (by simp at hm; omega)

/-- `scanString` on a string. -/
theorem scanString_complete {l : Lexer} {s v rest lx : List Char} (h : StrText s v rest)
    (hs : s = lx ++ rest) (ha : At l s) :
    scanString l = .ret (⟨.stringValue, utf8 v, l.line, l.lpos⟩, l.advs lx) := by
  have hn : s.length < l.fuel := fuel_length ha
  obtain ⟨b, e, hb⟩ := pass1_complete h hs ha hn false
  unfold scanString
  rw [e]; dsimp only
  cases b with
  | true =>
    rw [if_pos rfl, pass2_complete h hs ha hn]
    simp
  | false =>
    rcases hb with ⟨-, rfl⟩ | hb
    · rw [if_neg (by decide)]
      have hq : utf8Char '"' = [34] := utf8Char_ascii _ (by decide)
      have : (l.advs (v ++ ['"'])).pos - 1 = l.pos + (utf8 v).length := by
        rw [advs_pos, utf8_append]
        simp [utf8, hq]
      rw [this, advs_input]
      have hat : At l (v ++ ('"' :: rest)) := by rw [hs] at ha; simpa using ha
      rw [slice_at hat]
    · cases hb

/-- `scanString` yields an Illegal token or the text is a string. -/
theorem scanString_sound {l : Lexer} {s : List Char} (ha : At l s) (hz : NoNul s) :
    (∃ v rest, StrText s v rest) ∨
    ∃ t l', scanString l = .ret (t, l') ∧ t.kind = .illegal := by
  have hf : l.input.length - l.pos < l.fuel := by unfold Lexer.fuel; omega
  rcases stringPass1_total l.fuel false l ha.le hf with ⟨r, l', e, -⟩ | ⟨b, l', e, -, -⟩
  · right
    unfold scanString; rw [e]; exact ⟨_, _, rfl, rfl⟩
  · rcases (pass1_sound ha hz e).2 with h | ⟨hb, hill⟩
    · exact .inl h
    · right
      unfold scanString; rw [e, hb]; dsimp only
      rw [if_pos rfl]
      exact hill _ _ _ _ (fuel_length ha)

end GQL
