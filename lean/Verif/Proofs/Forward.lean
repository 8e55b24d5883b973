/-
Lines and columns only go forward while scanning; for C68.
-/
import Verif.Proofs.LexTotal
import Verif.Proofs.LexBytes

namespace GQL

/-- `l'` is on the same line as `l`, not before it. -/
structure Up (l l' : Lexer) : Prop where
  input : l'.input = l.input
  line : l'.line = l.line
  le : l.lpos ≤ l'.lpos

theorem Up.refl (l : Lexer) : Up l l := ⟨rfl, rfl, Nat.le_refl _⟩
theorem Up.trans {a b c : Lexer} (h1 : Up a b) (h2 : Up b c) : Up a c := ⟨h2.input.trans h1.input, h2.line.trans h1.line, Nat.le_trans h1.le h2.le⟩

/-- What a read does to the position. -/
theorem rd_up (l : Lexer) : Up l l.rd.2.2 ∧ ((l.input.length ≤ l.pos ∧ l.rd = (0, 0, l)) ∨ (l.pos < l.input.length ∧ l.rd.2.2.lpos = l.lpos + 1)) := by
  unfold Lexer.rd Lexer.read
  cases hb : l.input[l.pos]? with
  | none =>
    have : l.input.length ≤ l.pos := List.getElem?_eq_none_iff.1 hb
    exact ⟨Up.refl l, .inl ⟨this, by simp⟩⟩
  | some b =>
    have hlt : l.pos < l.input.length := by
      rcases Nat.lt_or_ge l.pos l.input.length with h' | h'
      · exact h'
      · rw [List.getElem?_eq_none h'] at hb; cases hb
    dsimp only
    split
    · unfold Lexer.readUnicode
      dsimp only
      split
      · exact ⟨⟨rfl, rfl, by simp⟩, .inr ⟨hlt, rfl⟩⟩
      · exact ⟨⟨rfl, rfl, by simp⟩, .inr ⟨hlt, rfl⟩⟩
    · exact ⟨⟨rfl, rfl, by simp⟩, .inr ⟨hlt, rfl⟩⟩

theorem rd_up' {l l' : Lexer} {r w : Nat} (e : l.rd = (r, w, l')) :
    Up l l' ∧ ((l.input.length ≤ l.pos ∧ r = 0 ∧ w = 0 ∧ l' = l) ∨ (l.pos < l.input.length ∧ l'.lpos = l.lpos + 1)) := by
  have := rd_up l
  rw [e] at this
  refine ⟨this.1, ?_⟩
  rcases this.2 with ⟨h, h2⟩ | h
  · cases h2; exact .inl ⟨h, rfl, rfl, rfl⟩
  · exact .inr h

/-- A character was read. -/
theorem rd_step {l l' : Lexer} {r w : Nat} (e : l.rd = (r, w, l')) (h : r ≠ 0) : l'.lpos = l.lpos + 1 := by
  rcases (rd_up' e).2 with ⟨-, h', -⟩ | h'
  · exact absurd h' h
  · exact h'.2

/-- A character read and put back. -/
theorem rd_unread {l l' : Lexer} {r w v : Nat} (e : l.rd = (r, w, l')) (h : r ≠ 0) : Up l (l'.unread v) := by
  have h1 := rd_step e h
  have h2 := (rd_up' e).1
  exact ⟨h2.input, h2.line, by simp [Lexer.unread, h1]⟩

theorem rns_up : ∀ (n : Nat) (cr : Bool) (l l0 : Lexer) (r w : Nat), readNextSignificant n cr l = .ret (r, w, l0) →
    l0.input = l.input ∧ l.line ≤ l0.line ∧ (l0.line = l.line → l.lpos ≤ l0.lpos ∧ (r ≠ 0 → l.lpos < l0.lpos)) ∧ (r ≠ 0 → 1 ≤ l0.lpos)
  | 0, _, _, _, _, _, h => by cases h
  | n + 1, cr, l, l0, r, w, h => by
    unfold readNextSignificant at h
    rcases e : l.rd with ⟨r1, w1, l1⟩
    obtain ⟨u, c⟩ := rd_up' e
    rw [e] at h
    dsimp only at h
    split at h
    · obtain ⟨i1, i2, i3, i4⟩ := rns_up n _ _ l0 r w h
      refine ⟨i1.trans u.input, ?_, fun hl => ?_, i4⟩
      · simp [u.line] at i2; omega
      · simp [u.line] at i2; omega
    · split at h
      · split at h
        · obtain ⟨i1, i2, i3, i4⟩ := rns_up n _ _ l0 r w h
          refine ⟨i1.trans u.input, by rw [u.line] at i2; exact i2, fun hl => ?_, i4⟩
          obtain ⟨j1, j2⟩ := i3 (by rw [u.line]; exact hl)
          exact ⟨Nat.le_trans u.le j1, fun hr => Nat.lt_of_le_of_lt u.le (j2 hr)⟩
        · obtain ⟨i1, i2, i3, i4⟩ := rns_up n _ _ l0 r w h
          refine ⟨i1.trans u.input, ?_, fun hl => ?_, i4⟩
          · simp [u.line] at i2; omega
          · simp [u.line] at i2; omega
      · split at h
        · obtain ⟨i1, i2, i3, i4⟩ := rns_up n _ _ l0 r w h
          refine ⟨i1.trans u.input, by rw [u.line] at i2; exact i2, fun hl => ?_, i4⟩
          obtain ⟨j1, j2⟩ := i3 (by rw [u.line]; exact hl)
          exact ⟨Nat.le_trans u.le j1, fun hr => Nat.lt_of_le_of_lt u.le (j2 hr)⟩
        · cases h
          exact ⟨u.input, Nat.le_of_eq u.line.symm, fun _ => ⟨u.le, fun hr => by rw [rd_step e hr]; omega⟩, fun hr => by rw [rd_step e hr]; omega⟩

theorem nameLoop_up : ∀ (n : Nat) (l l' : Lexer), scanNameLoop n l = .ret l' → Up l l'
  | 0, _, _, h => by cases h
  | n + 1, l, l', h => by
    unfold scanNameLoop at h
    rcases e : l.rd with ⟨r1, w1, l1⟩
    obtain ⟨u, c⟩ := rd_up' e
    rw [e] at h
    dsimp only at h
    split at h
    · exact u.trans (nameLoop_up n _ _ h)
    · split at h
      · cases h; exact u
      · rename_i h0
        cases h; exact rd_unread e h0

/-- Where a token stands: on the line of `l`, in its column; and `l'` is on a line not before it, and if it is on the same one, in a column not before it. -/
structure Stands (l : Lexer) (t : Token) (l' : Lexer) : Prop where
  input : l'.input = l.input
  line : t.line = l.line
  col : t.col = l.lpos
  next : l.line ≤ l'.line
  le : l'.line = l.line → l.lpos ≤ l'.lpos

theorem Up.stands {l l' : Lexer} (h : Up l l') {t : Token} (h1 : t.line = l.line) (h2 : t.col = l.lpos) : Stands l t l' :=
  ⟨h.input, h1, h2, Nat.le_of_eq h.line.symm, fun _ => h.le⟩

theorem scanName_stands {l l' : Lexer} {t : Token} (h : scanName l = .ret (t, l')) : Stands l t l' := by
  unfold scanName at h
  cases e : scanNameLoop l.fuel l with
  | ret l1 =>
    have u := nameLoop_up _ _ _ e
    rw [e] at h
    dsimp only at h
    split at h
    · cases h
    · cases h; exact u.stands u.line rfl
  | panic => rw [e] at h; cases h
  | oof => rw [e] at h; cases h

theorem scanPunctuator_stands {l l' : Lexer} {t : Token} {r w : Nat} (h : scanPunctuator l r w = .ret (t, l')) : Stands l t l' := by
  unfold scanPunctuator at h
  split at h
  · rcases e2 : l.rd with ⟨r2, w2, l2⟩
    rcases e3 : l2.rd with ⟨r3, w3, l3⟩
    have u := (rd_up' e2).1.trans (rd_up' e3).1
    simp only [e2, e3] at h
    split at h
    · cases h; exact u.stands u.line rfl
    · cases h; exact u.stands u.line rfl
  · split at h
    · cases h
    · cases h; exact (Up.refl l).stands rfl rfl

theorem digitsLoop_up : ∀ (n : Nat) (l l' : Lexer) (r w : Nat), readDigitsLoop n l = .ret (r, w, l') → Up l l' ∧ (r ≠ 0 → l.lpos < l'.lpos)
  | 0, _, _, _, _, h => by cases h
  | n + 1, l, l', r, w, h => by
    unfold readDigitsLoop at h
    rcases e : l.rd with ⟨r1, w1, l1⟩
    obtain ⟨u, c⟩ := rd_up' e
    rw [e] at h
    dsimp only at h
    split at h
    · obtain ⟨i, j⟩ := digitsLoop_up n _ _ r w h
      exact ⟨u.trans i, fun hr => Nat.lt_of_le_of_lt u.le (j hr)⟩
    · cases h; exact ⟨u, fun hr => by rw [rd_step e hr]; omega⟩

theorem readDigits_up {l l' : Lexer} {r0 r w : Nat} (h : readDigits l r0 = .ret (.ok (r, w, l'))) : Up l l' ∧ (r ≠ 0 → l.lpos < l'.lpos) := by
  unfold readDigits at h
  split at h
  · cases e : readDigitsLoop l.fuel l with
    | ret x => rw [e] at h; cases h; exact digitsLoop_up _ _ _ _ _ e
    | panic => rw [e] at h; cases h
    | oof => rw [e] at h; cases h
  · cases h

theorem numberEnd_stands {l0 l l' : Lexer} {f : Bool} {r w : Nat} {t : Token} (u : Up l0 l) (hr : r ≠ 0 → l0.lpos < l.lpos)
    (h : numberEnd l0 f r w l = .ret (t, l')) : Stands l0 t l' := by
  unfold numberEnd at h
  dsimp only at h
  split at h
  · cases h
  · cases h
    have u' : Up l0 (if r ≠ 0 then l.unread w else l) := by
      split
      · rename_i h0
        exact ⟨u.input, u.line, by have := hr h0; simp only [Lexer.unread]; omega⟩
      · exact u
    exact u'.stands u'.line rfl

theorem readIf_up (c : Bool) (r : Nat) (l : Lexer) : Up l (readIf c r l).2 := by
  unfold readIf
  split
  · exact (rd_up l).1
  · exact Up.refl l

theorem numberExp_stands {l0 l l' : Lexer} {f : Bool} {r w : Nat} {t : Token} (u : Up l0 l) (hr : r ≠ 0 → l0.lpos < l.lpos)
    (h : numberExp l0 f r w l = .ret (t, l')) : Stands l0 t l' := by
  unfold numberExp at h
  split at h
  · rcases e : l.rd with ⟨r1, w1, l1⟩
    rw [e] at h
    dsimp only at h
    have u1 := u.trans ((rd_up' e).1.trans (readIf_up (decide (r1 = 43 ∨ r1 = 45)) r1 l1))
    split at h
    · rename_i r3 w3 l3 e3
      obtain ⟨u3, h3⟩ := readDigits_up e3
      exact numberEnd_stands (u1.trans u3) (fun hr => Nat.lt_of_le_of_lt u1.le (h3 hr)) h
    · cases h; exact u1.stands u1.line rfl
    · cases h
    · cases h
  · exact numberEnd_stands u hr h

theorem numberFrac_stands {l0 l l' : Lexer} {r w : Nat} {t : Token} (u : Up l0 l) (hr : r ≠ 0 → l0.lpos < l.lpos)
    (h : numberFrac l0 r w l = .ret (t, l')) : Stands l0 t l' := by
  unfold numberFrac at h
  split at h
  · rcases e : l.rd with ⟨r1, w1, l1⟩
    rw [e] at h
    dsimp only at h
    have u1 := u.trans (rd_up' e).1
    split at h
    · rename_i r3 w3 l3 e3
      obtain ⟨u3, h3⟩ := readDigits_up e3
      exact numberExp_stands (u1.trans u3) (fun hr => Nat.lt_of_le_of_lt u1.le (h3 hr)) h
    · cases h; exact u1.stands u1.line rfl
    · cases h
    · cases h
  · exact numberExp_stands u hr h

theorem scanNumber_stands {l0 l' : Lexer} {r0 : Nat} {t : Token} (h : scanNumber l0 r0 = .ret (t, l')) : Stands l0 t l' := by
  unfold scanNumber at h
  dsimp only at h
  have u := readIf_up (decide (r0 = 45)) r0 l0
  split at h
  · rcases e : (readIf (decide (r0 = 45)) r0 l0).2.rd with ⟨r, w, l2⟩
    rw [e] at h
    dsimp only at h
    have u2 := u.trans (rd_up' e).1
    split at h
    · cases h; exact u2.stands u2.line rfl
    · refine numberFrac_stands u2 (fun hr => ?_) h
      rw [rd_step e hr]
      exact Nat.lt_succ_of_le u.le
  · split at h
    · rename_i r w l2 e
      obtain ⟨u3, h3⟩ := readDigits_up e
      exact numberFrac_stands (u.trans u3) (fun hr => Nat.lt_of_le_of_lt u.le (h3 hr)) h
    · cases h; exact u.stands u.line rfl
    · cases h
    · cases h

theorem skipComment_up : ∀ (n : Nat) (cr : Bool) (l l' : Lexer), skipComment n cr l = .ret l' →
    l'.input = l.input ∧ l.line ≤ l'.line ∧ (l'.line = l.line → cr = true ∨ l.lpos ≤ l'.lpos)
  | 0, _, _, _, h => by cases h
  | n + 1, cr, l, l', h => by
    unfold skipComment at h
    rcases e : l.rd with ⟨r1, w1, l1⟩
    obtain ⟨u, c⟩ := rd_up' e
    rw [e] at h
    dsimp only at h
    split at h
    · cases h; exact ⟨u.input, Nat.le_of_eq u.line.symm, fun _ => .inr u.le⟩
    · split at h
      · rename_i hc
        cases h; exact ⟨u.input, Nat.le_of_eq u.line.symm, fun _ => .inl (by simp at hc; exact hc.1)⟩
      · split at h
        · rename_i hc
          cases h; exact ⟨u.input, Nat.le_of_eq u.line.symm, fun _ => .inl (by simp at hc; exact hc.1)⟩
        · split at h
          · obtain ⟨i1, i2, i3⟩ := skipComment_up n _ _ _ h
            refine ⟨i1.trans u.input, ?_, fun hl => ?_⟩
            · simp [u.line] at i2; omega
            · simp [u.line] at i2; omega
          · split at h
            · cases h
              exact ⟨u.input, by simp [u.line], fun hl => by simp [u.line] at hl⟩
            · obtain ⟨i1, i2, i3⟩ := skipComment_up n _ _ _ h
              refine ⟨i1.trans u.input, by rw [u.line] at i2; exact i2, fun hl => ?_⟩
              rcases i3 (by rw [u.line]; exact hl) with h | h
              · exact .inl h
              · exact .inr (Nat.le_trans u.le h)

theorem escapedChar_up (l : Lexer) : Up l (escapedChar l).2 := by
  unfold escapedChar
  rcases e1 : l.rd with ⟨r, w, l1⟩
  have a1 := (rd_up' e1).1
  dsimp only
  split
  · exact a1
  · split
    · rcases e2 : l1.rd with ⟨r2, w2, l2⟩
      have a2 := (rd_up' e2).1
      rcases e3 : l2.rd with ⟨r3, w3, l3⟩
      have a3 := (rd_up' e3).1
      rcases e4 : l3.rd with ⟨r4, w4, l4⟩
      have a4 := (rd_up' e4).1
      rcases e5 : l4.rd with ⟨r5, w5, l5⟩
      have a5 := (rd_up' e5).1
      have a := a1.trans (a2.trans (a3.trans (a4.trans a5)))
      dsimp only
      split
      · exact a
      · exact a
    · exact a1

theorem stringPass1_up : ∀ (n : Nat) (esc b : Bool) (l l' : Lexer), stringPass1 n esc l = .ret (.ok (b, l')) → Up l l'
  | 0, _, _, _, _, h => by cases h
  | n + 1, esc, b, l, l', h => by
    unfold stringPass1 at h
    rcases e : l.rd with ⟨r1, w1, l1⟩
    obtain ⟨u, c⟩ := rd_up' e
    rw [e] at h
    dsimp only at h
    split at h
    · cases h; exact u
    · split at h
      · cases h
      · split at h
        · rcases e2 : l1.rd with ⟨r2, w2, l2⟩
          have u2 := u.trans (rd_up' e2).1
          rw [e2] at h
          dsimp only at h
          split at h
          · have v := (((u2.trans (rd_up _).1).trans (rd_up _).1).trans (rd_up _).1).trans (rd_up _).1
            exact v.trans (stringPass1_up n _ _ _ _ h)
          · exact u2.trans (stringPass1_up n _ _ _ _ h)
        · exact u.trans (stringPass1_up n _ _ _ _ h)

theorem stringPass2_up {col line : Nat} : ∀ (n : Nat) (acc : Bytes) (l l' : Lexer) (t : Token), stringPass2 col line n acc l = .ret (t, l') →
    t.line = line ∧ t.col = col ∧ Up l l'
  | 0, _, _, _, _, h => by cases h
  | n + 1, acc, l, l', t, h => by
    unfold stringPass2 at h
    rcases e : l.rd with ⟨r1, w1, l1⟩
    obtain ⟨u, c⟩ := rd_up' e
    rw [e] at h
    dsimp only at h
    split at h
    · cases h; exact ⟨rfl, rfl, u⟩
    · split at h
      · rcases e2 : escapedChar l1 with ⟨x, l2⟩
        have u2 : Up l1 l2 := by have := escapedChar_up l1; rw [e2] at this; exact this
        rw [e2] at h
        cases x with
        | error _ => cases h; exact ⟨rfl, rfl, u.trans u2⟩
        | ok _ =>
          obtain ⟨i1, i2, i3⟩ := stringPass2_up n _ _ _ _ h
          exact ⟨i1, i2, (u.trans u2).trans i3⟩
      · obtain ⟨i1, i2, i3⟩ := stringPass2_up n _ _ _ _ h
        exact ⟨i1, i2, u.trans i3⟩

theorem stringPass1_input : ∀ (n : Nat) (esc : Bool) (r : Nat) (l l' : Lexer), stringPass1 n esc l = .ret (.error (r, l')) → Up l l'
  | 0, _, _, _, _, h => by cases h
  | n + 1, esc, b, l, l', h => by
    unfold stringPass1 at h
    rcases e : l.rd with ⟨r1, w1, l1⟩
    obtain ⟨u, c⟩ := rd_up' e
    rw [e] at h
    dsimp only at h
    split at h
    · cases h
    · split at h
      · cases h; exact u
      · split at h
        · rcases e2 : l1.rd with ⟨r2, w2, l2⟩
          have u2 := u.trans (rd_up' e2).1
          rw [e2] at h
          dsimp only at h
          split at h
          · have v := (((u2.trans (rd_up _).1).trans (rd_up _).1).trans (rd_up _).1).trans (rd_up _).1
            exact v.trans (stringPass1_input n _ _ _ _ h)
          · exact u2.trans (stringPass1_input n _ _ _ _ h)
        · exact u.trans (stringPass1_input n _ _ _ _ h)

theorem scanString_stands {l l' : Lexer} {t : Token} (h : scanString l = .ret (t, l')) : Stands l t l' := by
  unfold scanString at h
  split at h
  · cases h
  · cases h
  · rename_i e
    cases h
    exact (stringPass1_input _ _ _ _ _ e).stands rfl rfl
  · rename_i e
    split at h
    · obtain ⟨h1, h2, u⟩ := stringPass2_up _ _ _ _ _ h
      exact u.stands h1 h2
    · split at h
      · cases h
      · cases h; exact (stringPass1_up _ _ _ _ _ e).stands rfl rfl

theorem isTripQuotes_up (l : Lexer) : Up l (isTripQuotes l).2 := by
  unfold isTripQuotes
  rcases e1 : l.rd with ⟨r1, w1, l1⟩
  rcases e2 : l1.rd with ⟨r2, w2, l2⟩
  simp only [e2]
  obtain ⟨u1, c1⟩ := rd_up' e1
  obtain ⟨u2, c2⟩ := rd_up' e2
  have u := u1.trans u2
  have s1 : r1 ≠ 0 → l1.lpos = l.lpos + 1 := rd_step e1
  have s2 : r2 ≠ 0 → l2.lpos = l1.lpos + 1 := rd_step e2
  have := u1.le
  have := u2.le
  split
  · exact u
  · by_cases h1 : r1 = 0 <;> by_cases h2 : r2 = 0
    · simp [h1, h2]; exact u
    · have := s2 h2
      simp [h1, h2]; exact ⟨u.input, u.line, by simp only [Lexer.unread]; omega⟩
    · have := s1 h1
      simp [h1, h2]; exact ⟨u.input, u.line, by simp only [Lexer.unread]; omega⟩
    · have := s1 h1
      have := s2 h2
      simp [h1, h2]; exact ⟨u.input, u.line, by simp only [Lexer.unread]; omega⟩

/-- The state that a pass over a block string ends in. -/
def ended {α β : Type} (st : α → Lexer) (st' : β → Lexer) : Except α β → Lexer
  | .error a => st a
  | .ok b => st' b

theorem blockPass1_up : ∀ (n : Nat) (a b : Bool) (l : Lexer) (x : Except (Bytes × Lexer) (Bool × Bool × Lexer)), blockPass1 n a b l = .ret x →
    Up l (ended (·.2) (·.2.2) x)
  | 0, _, _, _, _, h => by cases h
  | n + 1, a, b, l, x, h => by
    unfold blockPass1 at h
    rcases e : l.rd with ⟨r1, w1, l1⟩
    obtain ⟨u, c⟩ := rd_up' e
    rw [e] at h
    dsimp only at h
    split at h
    · rcases e2 : l1.rd with ⟨r2, w2, l2⟩
      have u2 := u.trans (rd_up' e2).1
      rw [e2] at h
      dsimp only at h
      split at h
      · exact (u2.trans (isTripQuotes_up l2)).trans (blockPass1_up n _ _ _ _ h)
      · exact u2.trans (blockPass1_up n _ _ _ _ h)
    · split at h
      · exact u.trans (blockPass1_up n _ _ _ _ h)
      · split at h
        · cases h; exact u
        · split at h
          · cases h; exact u
          · split at h
            · split at h
              · cases h; exact u.trans (isTripQuotes_up l1)
              · exact (u.trans (isTripQuotes_up l1)).trans (blockPass1_up n _ _ _ _ h)
            · exact u.trans (blockPass1_up n _ _ _ _ h)

theorem blockPass2_up : ∀ (n : Nat) (acc : Bytes) (l : Lexer) (x : Except (Bytes × Lexer) (Bytes × Lexer)), blockPass2 n acc l = .ret x →
    Up l (ended (·.2) (·.2) x)
  | 0, _, _, _, h => by cases h
  | n + 1, acc, l, x, h => by
    unfold blockPass2 at h
    rcases e : l.rd with ⟨r1, w1, l1⟩
    obtain ⟨u, c⟩ := rd_up' e
    rw [e] at h
    dsimp only at h
    split at h
    · exact u.trans (blockPass2_up n _ _ _ h)
    · split at h
      · split at h
        · cases h
        · exact u.trans (blockPass2_up n _ _ _ h)
      · split at h
        · rcases e2 : l1.rd with ⟨r2, w2, l2⟩
          have u2 := u.trans (rd_up' e2).1
          rw [e2] at h
          dsimp only at h
          split at h
          · split at h
            · exact (u2.trans (isTripQuotes_up l2)).trans (blockPass2_up n _ _ _ h)
            · exact (u2.trans (isTripQuotes_up l2)).trans (blockPass2_up n _ _ _ h)
          · exact u2.trans (blockPass2_up n _ _ _ h)
        · split at h
          · cases h; exact u
          · split at h
            · split at h
              · cases h; exact u.trans (isTripQuotes_up l1)
              · exact (u.trans (isTripQuotes_up l1)).trans (blockPass2_up n _ _ _ h)
            · split at h
              · cases h; exact u
              · exact u.trans (blockPass2_up n _ _ _ h)

theorem scanBlockString_stands {l l' : Lexer} {t : Token} (h : scanBlockString l = .ret (t, l')) :
    l'.input = l.input ∧ t.line = l.line ∧ t.col = (l.lpos : Int) - 2 ∧ l.line ≤ l'.line ∧ l.lpos ≤ l'.lpos := by
  unfold scanBlockString at h
  dsimp only at h
  split at h
  · cases h
  · cases h
  · rename_i e
    have u := blockPass1_up _ _ _ _ _ e
    cases h; exact ⟨u.input, rfl, rfl, Nat.le_of_eq u.line.symm, u.le⟩
  · rename_i e
    have u := blockPass1_up _ _ _ _ _ e
    split at h
    · split at h
      · cases h
      · cases h; exact ⟨u.input, rfl, rfl, by have := u.line; simp [ended] at this; simp [this], u.le⟩
    · split at h
      · cases h
      · cases h
      · rename_i e2
        have u := blockPass2_up _ _ _ _ e2
        cases h; exact ⟨u.input, rfl, rfl, Nat.le_of_eq u.line.symm, u.le⟩
      · rename_i e2
        have u := blockPass2_up _ _ _ _ e2
        cases h; exact ⟨u.input, rfl, rfl, by have := u.line; simp [ended] at this; simp [this], u.le⟩

/-- Where the next token stands, and where the scan ends. -/
structure Fwd (l : Lexer) (t : Token) (l' : Lexer) : Prop where
  input : l'.input = l.input
  line : l.line ≤ t.line
  next : t.line ≤ l'.line
  le : t.kind ≠ .eof → l'.line = t.line → t.col ≤ (l'.lpos : Int)
  lt : t.kind = .illegal ∨ (t.kind = .stringValue ∧ t.lit = [] ∧ l'.input.length ≤ l'.pos) ∨ ((t.line = l.line → (l.lpos : Int) < t.col) ∧ 1 ≤ t.col)

theorem Stands.fwd {l l0 l' : Lexer} {t : Token} (i : l0.input = l.input) (h1 : l.line ≤ l0.line) (h2 : l0.line = l.line → l.lpos < l0.lpos) (h3 : 1 ≤ l0.lpos)
    (s : Stands l0 t l') : Fwd l t l' := by
  refine ⟨s.input.trans i, by rw [s.line]; exact h1, by rw [s.line]; exact s.next, fun _ hl => ?_, .inr (.inr ⟨fun hl => ?_, ?_⟩)⟩
  · rw [s.line] at hl
    have := s.le hl
    rw [s.col]; omega
  · rw [s.line] at hl
    have := h2 hl
    rw [s.col]; omega
  · rw [s.col]; omega

theorem rd_end {l : Lexer} (h : l.input.length ≤ l.pos) : l.rd = (0, 0, l) := by
  rcases (rd_up l).2 with h' | h'
  · exact h'.2
  · omega

/-- Reading depends on the bytes and the position only. -/
theorem rd_same {l m : Lexer} (h1 : m.input = l.input) (h2 : m.pos = l.pos) : m.rd.2.2.pos = l.rd.2.2.pos := by
  unfold Lexer.rd Lexer.read
  rw [h1, h2]
  cases l.input[l.pos]? with
  | none => simp [h2]
  | some b =>
    dsimp only
    split
    · unfold Lexer.readUnicode
      dsimp only
      split <;> rfl
    · rfl

theorem pass1_end {n : Nat} {esc : Bool} {l : Lexer} {x : Except (Nat × Lexer) (Bool × Lexer)} (h : l.input.length ≤ l.pos)
    (e : stringPass1 n esc l = .ret x) : ∃ y, x = .error y := by
  cases n with
  | zero => cases e
  | succ n =>
    unfold stringPass1 at e
    rw [rd_end h] at e
    dsimp only at e
    rw [if_neg (by decide), if_pos (by decide)] at e
    cases e; exact ⟨_, rfl⟩

/-- A string scanned with fewer than two characters left. -/
theorem scanString_short {l l' : Lexer} {t : Token} (hp : l.pos ≤ l.input.length) (hl : l.input.length ≤ l.rd.2.2.pos) (h : scanString l = .ret (t, l')) :
    t.kind = .illegal ∨ (t.kind = .stringValue ∧ t.lit = [] ∧ l'.input.length ≤ l'.pos) := by
  unfold scanString at h
  split at h
  · cases h
  · cases h
  · cases h; exact .inl rfl
  · rename_i esc l1 e
    have : esc = false ∧ l1.pos = l.pos + 1 ∧ l1.input.length ≤ l1.pos := by
      have hf : l.fuel = (l.input.length - l.pos) + 1 := rfl
      rw [hf] at e
      unfold stringPass1 at e
      rcases rd_cases l hp with ⟨-, -, e'⟩ | ⟨b, -, hb, e'⟩ | ⟨b, -, hb, -, e'⟩ | ⟨b, r, w, -, -, hr, -, -, e'⟩
      · rw [e'] at e; cases e
      · rw [e'] at e hl
        dsimp only at e hl
        split at e
        · cases e; exact ⟨rfl, rfl, hl⟩
        · split at e
          · cases e
          · split at e
            · rw [rd_end hl] at e
              dsimp only at e
              rw [if_neg (by decide)] at e
              obtain ⟨y, hy⟩ := pass1_end hl e; cases hy
            · obtain ⟨y, hy⟩ := pass1_end hl e; cases hy
      · rw [e'] at e; cases e
      · rw [e'] at e hl
        dsimp only at e hl
        rw [if_neg (by omega), if_neg (by omega), if_neg (by omega)] at e
        obtain ⟨y, hy⟩ := pass1_end hl e; cases hy
    obtain ⟨h1, h2, h3⟩ := this
    subst h1
    rw [if_neg (by decide)] at h
    split at h
    · cases h
    · rename_i lit hs
      cases h
      refine .inr ⟨rfl, ?_, h3⟩
      rw [h2] at hs
      simp [slice] at hs
      exact hs.2

theorem scanF_fwd : ∀ (n : Nat) (l l' : Lexer) (t : Token), l.pos ≤ l.input.length → scanF n l = .ret (t, l') → Fwd l t l'
  | 0, _, _, _, _, h => by cases h
  | n + 1, l, l', t, hp, h => by
    unfold scanF at h
    split at h
    · cases h
    · cases h
    · rename_i r w l0 e
      obtain ⟨i1, i2, i3, i4⟩ := rns_up _ _ _ _ _ _ e
      obtain ⟨r', w', l0', e', a, -, -⟩ := readNextSignificant_total l.fuel false l hp (by unfold Lexer.fuel; omega)
      rw [e] at e'
      cases e'
      split at h
      · rename_i hc
        have hr : r ≠ 0 := by intro h0; subst h0; revert hc; decide
        exact (scanName_stands h).fwd i1 i2 (fun hl => (i3 hl).2 hr) (i4 hr)
      · split at h
        · rename_i hc
          have hr : r ≠ 0 := by intro h0; subst h0; revert hc; decide
          exact (scanPunctuator_stands h).fwd i1 i2 (fun hl => (i3 hl).2 hr) (i4 hr)
        · split at h
          · rename_i hc
            have hr : r ≠ 0 := by intro h0; subst h0; revert hc; decide
            exact (scanNumber_stands h).fwd i1 i2 (fun hl => (i3 hl).2 hr) (i4 hr)
          · split at h
            · rename_i hc
              have hr : r ≠ 0 := by intro h0; subst h0; revert hc; decide
              split at h
              · cases h
              · cases h
              · rename_i l1 e1
                obtain ⟨j1, j2, j3⟩ := skipComment_up _ _ _ _ e1
                obtain ⟨l1', e1', b⟩ := skipComment_total l0.fuel false l0 a.inv (by unfold Lexer.fuel; omega)
                rw [e1] at e1'
                cases e1'
                have f := scanF_fwd n l1 l' t b.inv h
                refine ⟨f.input.trans (j1.trans i1), by have := f.line; omega, f.next, f.le, ?_⟩
                rcases f.lt with h | h | h
                · exact .inl h
                · exact .inr (.inl h)
                · refine .inr (.inr ⟨fun hl => ?_, ?_⟩)
                  · have := f.line
                    have a := h.1 (by omega)
                    have b := j3 (by omega)
                    have c := (i3 (by omega)).1
                    simp at b
                    omega
                  · exact h.2
            · split at h
              · rename_i hr
                have hr : r ≠ 0 := by omega
                rcases e1 : l0.rd with ⟨r1, w1, l1⟩
                rcases e2 : l1.rd with ⟨r2, w2, l2⟩
                simp only [e1, e2] at h
                obtain ⟨u1, c1⟩ := rd_up' e1
                obtain ⟨u2, c2⟩ := rd_up' e2
                split at h
                · rename_i hq
                  have s1 := rd_step e1 (by omega)
                  have s2 := rd_step e2 (by omega)
                  obtain ⟨k1, k2, k3, k4, k5⟩ := scanBlockString_stands h
                  have := u1.line
                  have := u2.line
                  refine ⟨k1.trans ((u1.trans u2).input.trans i1), by omega, by omega, fun _ _ => by omega, .inr (.inr ⟨fun hl => ?_, ?_⟩)⟩
                  · have := (i3 (by omega)).2 hr
                    omega
                  · have := i4 hr
                    omega
                · have s := scanString_stands h
                  have si : ((l2.unread w2).unread w1).input = l0.input := (u1.trans u2).input
                  have sl : ((l2.unread w2).unread w1).line = l0.line := (u1.trans u2).line
                  have sc : t.col = ((l2.lpos - 1 - 1 : Nat) : Int) := s.col
                  have g2 := s.next
                  have g3 := s.le
                  have g1 := s.line
                  have el : ((l2.unread w2).unread w1).lpos = l2.lpos - 1 - 1 := rfl
                  refine ⟨s.input.trans (si.trans i1), by omega, by omega, fun _ hl => by have := g3 (by omega); omega, ?_⟩
                  rcases c2 with ⟨p2, -, w2z, e⟩ | ⟨p2, q2⟩
                  · subst e
                    subst w2z
                    have : t.kind = .illegal ∨ (t.kind = .stringValue ∧ t.lit = [] ∧ l'.input.length ≤ l'.pos) := by
                      have hm : ((l2.unread 0).unread w1).pos = l2.pos - w1 := rfl
                      rcases rd_cases l0 a.inv with ⟨-, q, x⟩ | ⟨b, -, -, x⟩ | ⟨b, -, -, q, x⟩ | ⟨b, r3, w3, -, -, -, q1, q2, x⟩
                      · rw [x] at e1; cases e1
                        refine scanString_short (by rw [si, hm]; omega) ?_ h
                        rw [rd_end (by rw [si, hm]; omega), si, hm]; omega
                      · rw [x] at e1; cases e1
                        have hm' : ((Lexer.unread { l0 with pos := l0.pos + 1, lpos := l0.lpos + 1 } 0).unread 1).pos = l0.pos := by rw [hm]; simp
                        refine scanString_short (by rw [si, hm']; exact a.inv) ?_ h
                        rw [rd_same si hm', si, x]; exact p2
                      · rw [x] at e1; cases e1
                        refine scanString_short (by rw [si, hm]; show l0.pos + 1 - 0 ≤ _; omega) ?_ h
                        rw [rd_end (by rw [si, hm]; show _ ≤ l0.pos + 1 - 0; omega), si, hm]; show _ ≤ l0.pos + 1 - 0; omega
                      · rw [x] at e1; cases e1
                        have hm' : ((Lexer.unread { l0 with pos := l0.pos + w1, lpos := l0.lpos + 1 } 0).unread w1).pos = l0.pos := by rw [hm]; simp
                        refine scanString_short (by rw [si, hm']; exact a.inv) ?_ h
                        rw [rd_same si hm', si, x]; exact p2
                    rcases this with h | h
                    · exact .inl h
                    · exact .inr (.inl h)
                  · rcases c1 with ⟨p1, -, -, e⟩ | ⟨p1, q1⟩
                    · subst e; omega
                    · refine .inr (.inr ⟨fun hl => ?_, ?_⟩)
                      · have := (i3 (by omega)).2 hr
                        omega
                      · have := i4 hr
                        omega
              · split at h
                · cases h
                  refine ⟨i1, i2, Nat.le_refl _, fun h => absurd rfl h, .inr (.inr ⟨fun hl => ?_, ?_⟩)⟩
                  · have := (i3 hl).1
                    show (l.lpos : Int) < l'.lpos + 1
                    omega
                  · show (1 : Int) ≤ l'.lpos + 1
                    omega
                · cases h
                  exact ⟨i1, i2, Nat.le_refl _, fun _ _ => Int.le_refl _, .inl rfl⟩

end GQL
