/-
Block strings: both passes of `scanBlockString` against `Spec.GoBlockText`.
-/
import Verif.Proofs.LexStr
import Verif.Spec.GoBlock

namespace GQL
open Spec

theorem Spec.GoBlockText.split {s v rest : List Char} (h : GoBlockText s v rest) :
    ∃ lx, s = lx ++ rest := by
  induction h with
  | close rest => exact ⟨quotes3, rfl⟩
  | esc _ ih => obtain ⟨lx, rfl⟩ := ih; exact ⟨'\\' :: quotes3 ++ lx, by simp⟩
  | pair c _ _ ih => obtain ⟨lx, rfl⟩ := ih; exact ⟨'\\' :: c :: lx, rfl⟩
  | cr _ ih => obtain ⟨lx, rfl⟩ := ih; exact ⟨'\r' :: lx, rfl⟩
  | char c _ _ _ _ _ ih => obtain ⟨lx, rfl⟩ := ih; exact ⟨c :: lx, rfl⟩

theorem Spec.GoBlockText.three {s v rest : List Char} (h : GoBlockText s v rest) :
    ∃ a b c t, s = a :: b :: c :: t := by
  induction h with
  | close rest => exact ⟨_, _, _, _, rfl⟩
  | esc _ ih => exact ⟨_, _, _, _, rfl⟩
  | pair c _ _ ih => obtain ⟨a, b, c, t, rfl⟩ := ih; exact ⟨_, _, _, _, rfl⟩
  | cr _ ih => obtain ⟨a, b, c, t, rfl⟩ := ih; exact ⟨_, _, _, _, rfl⟩
  | char c _ _ _ _ _ ih => obtain ⟨a, b, c, t, rfl⟩ := ih; exact ⟨_, _, _, _, rfl⟩

theorem isTrip_yes {l : Lexer} {s : List Char} (h : At l ('"' :: '"' :: s)) :
    isTripQuotes l = (true, l.advs ['"', '"']) := by
  unfold isTripQuotes
  rw [rd_cons h]; dsimp only
  rw [rd_cons h.adv1]; dsimp only
  rw [if_pos (show ('"').toNat = 34 ∧ ('"').toNat = 34 by decide), ← advs_append]; rfl

theorem isTrip_no {l : Lexer} {a b : Char} {s : List Char} (h : At l (a :: b :: s))
    (hz : NoNul (a :: b :: s)) (hn : ¬ (a = '"' ∧ b = '"')) : isTripQuotes l = (false, l) := by
  unfold isTripQuotes
  rw [rd_cons h]; dsimp only
  rw [rd_cons h.adv1]; dsimp only
  rw [if_neg (show ¬ (a.toNat = 34 ∧ b.toNat = 34) from
    fun ⟨h1, h2⟩ => hn ⟨toNat_inj (d := '"') h1, toNat_inj (d := '"') h2⟩),
    if_pos hz.head, if_pos hz.tail.head, unread_adv, unread_adv]

theorem isTrip_short {l : Lexer} {s : List Char} (h : At l s) (hz : NoNul s) (hn : s.length ≤ 1) :
    ∃ l', isTripQuotes l = (false, l') ∧ At l' [] := by
  obtain _ | ⟨a, _ | ⟨b, s⟩⟩ := s
  · refine ⟨l, ?_, h⟩
    unfold isTripQuotes
    rw [rd_eof h]; dsimp only; rw [rd_eof h]; rfl
  · unfold isTripQuotes
    rw [rd_cons h]; dsimp only; rw [rd_eof h.adv1]; dsimp only
    rw [if_neg (by rintro ⟨-, h⟩; cases h), if_pos hz.head, if_neg (by simp)]
    refine ⟨_, rfl, ?_⟩
    have := h.adv1
    refine ⟨by simpa [Lexer.unread] using this.le, by simpa [Lexer.unread] using this.eq⟩
  · simp at hn

theorem pref3 {a b : Char} {s : List Char} : quotes3 <+: '"' :: a :: b :: s ↔ (a = '"' ∧ b = '"') := by
  simp [quotes3, List.cons_prefix_cons, eq_comm]

theorem pref3' {a : Char} {s : List Char} : quotes3 <+: a :: s → a = '"' := by
  simp only [quotes3, List.cons_prefix_cons]; rintro ⟨h, -⟩; exact h.symm

/-- The first pass finds the closing quotes. -/
theorem bpass1_complete {s raw rest lx : List Char} (h : GoBlockText s raw rest) (hs : s = lx ++ rest)
    {l : Lexer} (ha : At l s) (hz : NoNul s) {n : Nat} (hn : s.length < n) (cr e : Bool) :
    ∃ cr' e', blockPass1 n cr e l = .ret (.ok (cr', e', l.advs lx)) ∧
      (cr' = false → cr = false) ∧ (e' = false → e = false) ∧
      (cr' = false → e' = false → lx = raw ++ quotes3) := by
  induction h generalizing lx l n cr e with
  | close rest =>
    obtain _ | n := n
    · simp at hn
    have : lx = quotes3 := (List.append_cancel_right (show quotes3 ++ rest = lx ++ rest from hs)).symm
    subst this
    have ha' : At l ('"' :: '"' :: '"' :: rest) := ha
    refine ⟨cr, e, ?_, id, id, fun _ _ => rfl⟩
    unfold blockPass1
    rw [rd_cons ha']; dsimp only
    rw [if_neg (by decide), if_neg (by decide), if_neg (by decide), if_neg (by decide),
      if_pos (show ('"').toNat = 34 by decide), isTrip_yes ha'.adv1]
    dsimp only
    rw [if_pos rfl, ← advs_append]; rfl
  | @esc s v rest h ih =>
    obtain _ | n := n
    · simp at hn
    obtain ⟨lx', e'⟩ := h.split
    have hlx : lx = '\\' :: quotes3 ++ lx' := by
      rw [e', ← List.append_assoc] at hs; exact (List.append_cancel_right hs).symm
    subst hlx
    have ha' : At l ('\\' :: '"' :: '"' :: '"' :: s) := ha
    unfold blockPass1
    rw [rd_cons ha']; dsimp only
    rw [if_pos (show ('\\').toNat = 92 by decide), rd_cons ha'.adv1]; dsimp only
    rw [if_pos (show ('"').toNat = 34 by decide), isTrip_yes ha'.adv1.adv1]; dsimp only
    have a4 : At (((l.advs ['\\']).advs ['"']).advs ['"', '"']) s :=
      At.advs (a := ['"', '"']) ha'.adv1.adv1
    obtain ⟨c1, e1, p1, p2, p3, p4⟩ := ih (n := n) e' a4 (hz.right (a := '\\' :: quotes3))
      (by simp only [List.length_cons, List.cons_append, List.length_append] at hn; omega) cr (e || true)
    refine ⟨c1, e1, ?_, p2, ?_, ?_⟩
    · rw [p1]; simp only [← advs_append]; rfl
    · intro hh; have := p3 hh; simp at this
    · intro _ hh; have := p3 hh; simp at this
  | @pair c s v rest hq h ih =>
    obtain _ | n := n
    · simp at hn
    obtain ⟨lx', e'⟩ := h.split
    have hlx : lx = '\\' :: c :: lx' := by
      rw [e', ← List.cons_append, ← List.cons_append] at hs; exact (List.append_cancel_right hs).symm
    subst hlx
    unfold blockPass1
    rw [rd_cons ha]; dsimp only
    rw [if_pos (show ('\\').toNat = 92 by decide), rd_cons ha.adv1]; dsimp only
    obtain ⟨c1, e1, p1, p2, p3, p4⟩ := ih (n := n) e' ha.adv1.adv1 hz.tail.tail
      (by simp only [List.length_cons] at hn; omega) cr e
    have fin : blockPass1 n cr e ((l.advs ['\\']).advs [c]) =
        .ret (.ok (c1, e1, l.advs ('\\' :: c :: lx'))) := by
      rw [p1]; simp only [← advs_append]; rfl
    refine ⟨c1, e1, ?_, p2, p3, fun h1 h2 => by rw [p4 h1 h2]; rfl⟩
    split
    · rename_i hc
      have := toNat_inj (c := c) (d := '"') hc; subst this
      obtain ⟨x, y, z, t, rfl⟩ := h.three
      rw [isTrip_no ha.adv1.adv1 hz.tail.tail (fun hh => hq (pref3.2 hh))]
      simpa using fin
    · exact fin
  | @cr s v rest h ih =>
    obtain _ | n := n
    · simp at hn
    obtain ⟨lx', e'⟩ := h.split
    have hlx : lx = '\r' :: lx' := by
      rw [e', ← List.cons_append] at hs; exact (List.append_cancel_right hs).symm
    subst hlx
    unfold blockPass1
    rw [rd_cons ha]; dsimp only
    rw [if_neg (by decide), if_pos (show ('\r').toNat = 13 by decide)]
    obtain ⟨c1, e1, p1, p2, p3, p4⟩ := ih (n := n) e' ha.adv1 hz.tail
      (by simp only [List.length_cons] at hn; omega) true e
    refine ⟨c1, e1, ?_, ?_, p3, ?_⟩
    · rw [p1]; simp only [← advs_append]; rfl
    · intro hh; cases p2 hh
    · intro hh; cases p2 hh
  | @char c s v rest h1 h2 h3 h4 h ih =>
    obtain _ | n := n
    · simp at hn
    obtain ⟨lx', e'⟩ := h.split
    have hlx : lx = c :: lx' := by
      rw [e', ← List.cons_append] at hs; exact (List.append_cancel_right hs).symm
    subst hlx
    unfold blockPass1
    rw [rd_cons ha]; dsimp only
    rw [if_neg (show ¬ c.toNat = 92 from toNat_ne (d := '\\') h1),
      if_neg (show ¬ c.toNat = 13 from toNat_ne (d := '\r') h2), if_neg hz.head]
    rw [if_neg (by
      rcases h4 with h4 | rfl
      · have := printable_nat h4; omega
      · decide)]
    obtain ⟨c1, e1, p1, p2, p3, p4⟩ := ih (n := n) e' ha.adv1 hz.tail
      (by simp only [List.length_cons] at hn; omega) cr e
    have fin : blockPass1 n cr e (l.advs [c]) = .ret (.ok (c1, e1, l.advs (c :: lx'))) := by
      rw [p1]; simp only [← advs_append]; rfl
    refine ⟨c1, e1, ?_, p2, p3, fun h1 h2 => by rw [p4 h1 h2]; rfl⟩
    split
    · rename_i hc
      have := toNat_inj (c := c) (d := '"') hc; subst this
      obtain ⟨x, y, z, t, rfl⟩ := h.three
      rw [isTrip_no ha.adv1 hz.tail (fun hh => h3 (pref3.2 hh))]
      simpa using fin
    · exact fin

/-- The byte the code looks at after a CR. -/
theorem crDropped_byte {l : Lexer} {s v rest : List Char} (h : GoBlockText s v rest) (ha : At l s) :
    ∃ b, l.input[l.pos + 1]? = some b ∧ (b = 10 ↔ crDropped s = true) := by
  obtain ⟨x, y, z, t, rfl⟩ := h.three
  have hg : l.input[l.pos + 1]? = (utf8 (x :: y :: z :: t))[1]? := by
    rw [← ha.eq, List.getElem?_drop]
  rw [hg, utf8_cons, utf8_cons]
  by_cases hx : x.toNat < 128
  · rw [utf8Char_ascii x hx]
    by_cases hy : y.toNat < 128
    · rw [utf8Char_ascii y hy]
      refine ⟨y.toNat, rfl, ?_⟩
      simp only [crDropped, hx, decide_true, Bool.true_and, beq_iff_eq]
      exact ⟨fun h => toNat_inj (d := '\n') h, fun h => by rw [h]; rfl⟩
    · obtain ⟨b, b', t', hc, hb, -⟩ := utf8Char_wide y hy
      rw [hc]
      refine ⟨b, rfl, ?_⟩
      simp only [crDropped, hx, decide_true, Bool.true_and, beq_iff_eq]
      constructor
      · intro h; omega
      · rintro rfl; exact absurd (show ('\n').toNat < 128 by decide) hy
  · obtain ⟨b, b', t', hc, hb, hb'⟩ := utf8Char_wide x hx
    rw [hc]
    refine ⟨b', rfl, ?_⟩
    simp [crDropped, hx]; omega

theorem quotes3_bytes : utf8 quotes3 = b!"\"\"\"" := by decide

/-- The second pass gives the raw value. -/
theorem bpass2_complete {s raw rest lx : List Char} (h : GoBlockText s raw rest) (hs : s = lx ++ rest)
    {l : Lexer} (ha : At l s) (hz : NoNul s) {n : Nat} (hn : s.length < n) (acc : Bytes) :
    blockPass2 n acc l = .ret (.ok (acc ++ utf8 raw, l.advs lx)) := by
  induction h generalizing lx l n acc with
  | close rest =>
    obtain _ | n := n
    · simp at hn
    have : lx = quotes3 := (List.append_cancel_right (show quotes3 ++ rest = lx ++ rest from hs)).symm
    subst this
    have ha' : At l ('"' :: '"' :: '"' :: rest) := ha
    unfold blockPass2
    rw [rd_cons ha']; dsimp only
    rw [if_neg (by decide), if_neg (by decide), if_neg (by decide), if_neg (by decide),
      if_pos (show ('"').toNat = 34 by decide), isTrip_yes ha'.adv1]
    dsimp only
    rw [if_pos rfl, ← advs_append, utf8_nil, List.append_nil]; rfl
  | @esc s v rest h ih =>
    obtain _ | n := n
    · simp at hn
    obtain ⟨lx', e'⟩ := h.split
    have hlx : lx = '\\' :: quotes3 ++ lx' := by
      rw [e', ← List.append_assoc] at hs; exact (List.append_cancel_right hs).symm
    subst hlx
    have ha' : At l ('\\' :: '"' :: '"' :: '"' :: s) := ha
    unfold blockPass2
    rw [rd_cons ha']; dsimp only
    rw [if_neg (by decide), if_neg (by decide),
      if_pos (show ('\\').toNat = 92 by decide), rd_cons ha'.adv1]; dsimp only
    rw [if_pos (show ('"').toNat = 34 by decide), isTrip_yes ha'.adv1.adv1]; dsimp only
    have a4 : At (((l.advs ['\\']).advs ['"']).advs ['"', '"']) s :=
      At.advs (a := ['"', '"']) ha'.adv1.adv1
    rw [if_pos rfl, ih (n := n) e' a4 (hz.right (a := '\\' :: quotes3))
      (by simp only [List.length_cons, List.cons_append, List.length_append] at hn; omega),
      utf8_append, quotes3_bytes, List.append_assoc]
    simp only [← advs_append]; rfl
  | @pair c s v rest hq h ih =>
    obtain _ | n := n
    · simp at hn
    obtain ⟨lx', e'⟩ := h.split
    have hlx : lx = '\\' :: c :: lx' := by
      rw [e', ← List.cons_append, ← List.cons_append] at hs; exact (List.append_cancel_right hs).symm
    subst hlx
    unfold blockPass2
    rw [rd_cons ha]; dsimp only
    rw [if_neg (by decide), if_neg (by decide),
      if_pos (show ('\\').toNat = 92 by decide), rd_cons ha.adv1]; dsimp only
    have fin : blockPass2 n (acc ++ encodeRune 92 ++ encodeRune c.toNat) ((l.advs ['\\']).advs [c]) =
        .ret (.ok (acc ++ utf8 ('\\' :: c :: v), l.advs ('\\' :: c :: lx'))) := by
      rw [ih (n := n) e' ha.adv1.adv1 hz.tail.tail (by simp only [List.length_cons] at hn; omega),
        utf8_cons, utf8_cons, utf8Char_eq, utf8Char_eq]
      simp only [← advs_append, List.append_assoc]; rfl
    split
    · rename_i hc
      have := toNat_inj (c := c) (d := '"') hc; subst this
      obtain ⟨x, y, z, t, rfl⟩ := h.three
      rw [isTrip_no ha.adv1.adv1 hz.tail.tail (fun hh => hq (pref3.2 hh))]
      exact fin
    · exact fin
  | @cr s v rest h ih =>
    obtain _ | n := n
    · simp at hn
    obtain ⟨lx', e'⟩ := h.split
    have hlx : lx = '\r' :: lx' := by
      rw [e', ← List.cons_append] at hs; exact (List.append_cancel_right hs).symm
    subst hlx
    unfold blockPass2
    rw [rd_cons ha]; dsimp only
    rw [if_neg (by decide), if_pos (show ('\r').toNat = 13 by decide)]
    obtain ⟨b, hb, hb'⟩ := crDropped_byte h ha.adv1
    rw [hb]; dsimp only
    rw [ih (n := n) e' ha.adv1 hz.tail (by simp only [List.length_cons] at hn; omega)]
    have hnl : encodeRune 10 = utf8Char '\n' := by decide
    by_cases hb10 : b = 10
    · rw [if_neg (by simpa using hb10), if_pos (hb'.1 hb10), ← advs_append]; rfl
    · rw [if_pos hb10, if_neg (fun h => hb10 (hb'.2 h)), utf8_cons, ← advs_append, hnl, List.append_assoc]; rfl
  | @char c s v rest h1 h2 h3 h4 h ih =>
    obtain _ | n := n
    · simp at hn
    obtain ⟨lx', e'⟩ := h.split
    have hlx : lx = c :: lx' := by
      rw [e', ← List.cons_append] at hs; exact (List.append_cancel_right hs).symm
    subst hlx
    have fin : blockPass2 n (acc ++ encodeRune c.toNat) (l.advs [c]) =
        .ret (.ok (acc ++ utf8 (c :: v), l.advs (c :: lx'))) := by
      rw [ih (n := n) e' ha.adv1 hz.tail (by simp only [List.length_cons] at hn; omega),
        utf8_cons, utf8Char_eq, ← advs_append, List.append_assoc]; rfl
    unfold blockPass2
    rw [rd_cons ha]; dsimp only
    by_cases h10 : c.toNat = 10
    · rw [if_pos h10]; exact fin
    rw [if_neg h10,
      if_neg (show ¬ c.toNat = 13 from toNat_ne (d := '\r') h2),
      if_neg (show ¬ c.toNat = 92 from toNat_ne (d := '\\') h1), if_neg hz.head]
    split
    · rename_i hc
      have := toNat_inj (c := c) (d := '"') hc; subst this
      obtain ⟨x, y, z, t, rfl⟩ := h.three
      rw [isTrip_no ha.adv1 hz.tail (fun hh => h3 (pref3.2 hh))]
      exact fin
    · rw [if_neg (by
        rcases h4 with h4 | rfl
        · have := printable_nat h4; omega
        · decide)]
      exact fin

theorem bpass1_eof {l : Lexer} (h : At l []) (n : Nat) (cr e : Bool) :
    ∀ r, blockPass1 n cr e l ≠ .ret (.ok r) := by
  intro r hr
  obtain _ | n := n
  · cases hr
  · unfold blockPass1 at hr
    rw [rd_eof h] at hr; dsimp only at hr
    rw [if_neg (by decide), if_neg (by decide), if_pos rfl] at hr; cases hr

/-- If the first pass finds closing quotes the text is a block string. -/
theorem bpass1_sound {n : Nat} {cr e : Bool} {l : Lexer} {s : List Char} {res} (ha : At l s)
    (hz : NoNul s) (h : blockPass1 n cr e l = .ret (.ok res)) : ∃ raw rest, GoBlockText s raw rest := by
  induction n generalizing cr e l s with
  | zero => cases h
  | succ n ih =>
    obtain _ | ⟨c, s⟩ := s
    · exact absurd h (bpass1_eof ha _ _ _ _)
    unfold blockPass1 at h
    rw [rd_cons ha] at h; dsimp only at h
    split at h
    · rename_i hc
      have := toNat_inj (c := c) (d := '\\') hc; subst this
      obtain _ | ⟨d, s⟩ := s
      · rw [rd_eof ha.adv1] at h; dsimp only at h
        rw [if_neg (by decide)] at h
        exact absurd h (bpass1_eof ha.adv1 _ _ _ _)
      rw [rd_cons ha.adv1] at h; dsimp only at h
      split at h
      · rename_i hd
        have := toNat_inj (c := d) (d := '"') hd; subst this
        obtain _ | ⟨x, _ | ⟨y, s⟩⟩ := s
        · obtain ⟨l', e1, e2⟩ := isTrip_short ha.adv1.adv1 hz.tail.tail (by simp)
          rw [e1] at h
          exact absurd h (bpass1_eof e2 _ _ _ _)
        · obtain ⟨l', e1, e2⟩ := isTrip_short ha.adv1.adv1 hz.tail.tail (by simp)
          rw [e1] at h
          exact absurd h (bpass1_eof e2 _ _ _ _)
        · by_cases hq : x = '"' ∧ y = '"'
          · obtain ⟨rfl, rfl⟩ := hq
            rw [isTrip_yes ha.adv1.adv1] at h; dsimp only at h
            obtain ⟨raw, rest, hr⟩ := ih (At.advs (a := ['"', '"']) ha.adv1.adv1) hz.tail.tail.tail.tail h
            exact ⟨_, _, .esc hr⟩
          · rw [isTrip_no ha.adv1.adv1 hz.tail.tail hq] at h
            obtain ⟨raw, rest, hr⟩ := ih ha.adv1.adv1 hz.tail.tail h
            exact ⟨_, _, .pair _ (fun hh => hq (pref3.1 hh)) hr⟩
      · rename_i hd
        obtain ⟨raw, rest, hr⟩ := ih ha.adv1.adv1 hz.tail.tail h
        exact ⟨_, _, .pair _ (fun hh => hd (by rw [pref3' hh]; rfl)) hr⟩
    · rename_i h92
      split at h
      · rename_i hc
        have := toNat_inj (c := c) (d := '\r') hc; subst this
        obtain ⟨raw, rest, hr⟩ := ih ha.adv1 hz.tail h
        exact ⟨_, _, .cr hr⟩
      · rename_i h13
        rw [if_neg hz.head] at h
        split at h
        · cases h
        · rename_i hp
          have hpr : printable c = true ∨ c = '\n' := by
            by_cases h10 : c.toNat = 10
            · exact .inr (toNat_inj (d := '\n') h10)
            · exact .inl (not_printable_nat (by omega))
          have n92 : c ≠ '\\' := fun hh => h92 (hh ▸ rfl)
          have n13 : c ≠ '\r' := fun hh => h13 (hh ▸ rfl)
          split at h
          · rename_i hc
            have := toNat_inj (c := c) (d := '"') hc; subst this
            obtain _ | ⟨x, _ | ⟨y, s⟩⟩ := s
            · obtain ⟨l', e1, e2⟩ := isTrip_short ha.adv1 hz.tail (by simp)
              rw [e1] at h
              exact absurd h (bpass1_eof e2 _ _ _ _)
            · obtain ⟨l', e1, e2⟩ := isTrip_short ha.adv1 hz.tail (by simp)
              rw [e1] at h
              exact absurd h (bpass1_eof e2 _ _ _ _)
            · by_cases hq : x = '"' ∧ y = '"'
              · obtain ⟨rfl, rfl⟩ := hq
                exact ⟨_, _, .close _⟩
              · rw [isTrip_no ha.adv1 hz.tail hq] at h
                obtain ⟨raw, rest, hr⟩ := ih ha.adv1 hz.tail h
                exact ⟨_, _, .char _ n92 n13 (fun hh => hq (pref3.1 hh)) hpr hr⟩
          · rename_i h34
            obtain ⟨raw, rest, hr⟩ := ih ha.adv1 hz.tail h
            exact ⟨_, _, .char _ n92 n13 (fun hh => h34 (by rw [pref3' hh]; rfl)) hpr hr⟩

end GQL
