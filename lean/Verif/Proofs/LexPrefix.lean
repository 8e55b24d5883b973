/-
The lexer on a text that ends with a line break, beside the lexer on the same text with more bytes
after it (for C05 and C90).
-/
import Verif.Props.C04

namespace GQL

/-- The lexer with more bytes after its input. -/
def Lexer.put (Y : Bytes) (l : Lexer) : Lexer := { l with input := l.input ++ Y }

/-- The lexer is within an input that ends with a line break. -/
structure Lf (l : Lexer) : Prop where
  le : l.pos ≤ l.input.length
  lf : ∃ a, l.input = a ++ [10]

theorem Lf.mk' {l l1 : Lexer} (h : Lf l) (hi : l1.input = l.input) (hp : l1.pos ≤ l.input.length) : Lf l1 :=
  ⟨by rw [hi]; exact hp, by rw [hi]; exact h.lf⟩

theorem decodeRune_lf (b0 : Nat) (s Y : Bytes) (h : 0x80 ≤ b0) :
    decodeRune (b0 :: (s ++ [10] ++ Y)) = decodeRune (b0 :: (s ++ [10])) ∧ (decodeRune (b0 :: (s ++ [10]))).2 ≤ s.length + 1 := by
  have hc : isCont 10 = false := by decide
  have hn : ¬ b0 < 0x80 := by omega
  unfold decodeRune
  dsimp only
  simp only [if_neg hn]
  by_cases p1 : 0xC2 ≤ b0 ∧ b0 ≤ 0xDF
  · simp only [if_pos p1]
    rcases s with _ | ⟨b1, s⟩
    · simp [hc]
    · simp only [List.cons_append]
      refine ⟨trivial, ?_⟩
      split <;> simp
  simp only [if_neg p1]
  by_cases p2 : 0xE0 ≤ b0 ∧ b0 ≤ 0xEF
  · simp only [if_pos p2]
    rcases s with _ | ⟨b1, _ | ⟨b2, s⟩⟩
    · rcases Y with _ | ⟨y, Y⟩
      · simp
      · have : ¬ ((if b0 = 0xE0 then 0xA0 else 0x80) ≤ 10) := by split <;> omega
        simp [this]
    · simp [hc]
    · simp only [List.cons_append]
      refine ⟨trivial, ?_⟩
      by_cases hq : ((if b0 = 0xE0 then 0xA0 else 0x80) ≤ b1 ∧ b1 ≤ (if b0 = 0xED then 0x9F else 0xBF) ∧ isCont b2 = true)
      · rw [if_pos hq]; simp
      · rw [if_neg hq]; simp
  simp only [if_neg p2]
  by_cases p3 : 0xF0 ≤ b0 ∧ b0 ≤ 0xF4
  · simp only [if_pos p3]
    rcases s with _ | ⟨b1, _ | ⟨b2, _ | ⟨b3, s⟩⟩⟩
    · rcases Y with _ | ⟨y, _ | ⟨z, Y⟩⟩
      · simp
      · simp
      · have : ¬ ((if b0 = 0xF0 then 0x90 else 0x80) ≤ 10) := by split <;> omega
        simp [this]
    · rcases Y with _ | ⟨y, Y⟩
      · simp
      · simp [hc]
    · simp [hc]
    · simp only [List.cons_append]
      refine ⟨trivial, ?_⟩
      by_cases hq : ((if b0 = 0xF0 then 0x90 else 0x80) ≤ b1 ∧ b1 ≤ (if b0 = 0xF4 then 0x8F else 0xBF) ∧ isCont b2 = true ∧ isCont b3 = true)
      · rw [if_pos hq]; simp
      · rw [if_neg hq]; simp
  · simp only [if_neg p3]; simp

theorem rd_stuck {l : Lexer} (h : l.pos = l.input.length) : l.rd = (0, 0, l) := by
  have : l.input[l.pos]? = none := List.getElem?_eq_none (by omega)
  simp [Lexer.rd, Lexer.read, this]

/-- Before the end both lexers read the same. -/
theorem rd_put (Y : Bytes) {l : Lexer} (hl : Lf l) (h : l.pos < l.input.length) :
    ∃ r w l1, l.rd = (r, w, l1) ∧ (l.put Y).rd = (r, w, l1.put Y) ∧ Lf l1 ∧ l1.input = l.input ∧
      l1.pos = l.pos + w ∧ 1 ≤ w ∧ (r ≠ 10 → l1.pos < l1.input.length) := by
  obtain ⟨a, ha⟩ := hl.lf
  have hlen : l.input.length = a.length + 1 := by rw [ha]; simp
  have hg : (l.put Y).input[(l.put Y).pos]? = l.input[l.pos]? := by
    show (l.input ++ Y)[l.pos]? = _
    rw [List.getElem?_append_left h]
  rcases rd_cases l hl.le with ⟨-, h2, -⟩ | ⟨b, h2, h3, h4⟩ | ⟨b, h2, h3, h4, h5⟩ | ⟨b, r, w, h2, h3, h4, h5, h6, h7⟩
  · omega
  · refine ⟨b, 1, _, h4, ?_, ⟨?_, hl.lf⟩, rfl, rfl, Nat.le_refl _, ?_⟩
    · simp only [Lexer.rd, Lexer.read, hg, h2]; rw [if_neg (by omega)]; rfl
    · show l.pos + 1 ≤ _; exact h
    · intro hb
      show l.pos + 1 < l.input.length
      rcases Nat.lt_or_ge (l.pos + 1) l.input.length with q | q
      · exact q
      · exfalso
        have : l.pos = a.length := by omega
        rw [this, ha, List.getElem?_append_right (Nat.le_refl _)] at h2
        simp at h2; exact hb h2.symm
  · exfalso
    have : l.pos = a.length := by omega
    rw [this, ha, List.getElem?_append_right (Nat.le_refl _)] at h2
    simp at h2; omega
  · have hlt : l.pos < a.length := by
      rcases Nat.lt_or_ge l.pos a.length with q | q
      · exact q
      · exfalso
        have : l.pos = a.length := by omega
        rw [this, ha, List.getElem?_append_right (Nat.le_refl _)] at h2
        simp at h2; omega
    have hb : a[l.pos]? = some b := by rw [ha, List.getElem?_append_left hlt] at h2; exact h2
    have hba : a.drop l.pos = b :: a.drop (l.pos + 1) := by
      rw [List.drop_eq_getElem_cons hlt]; congr 1
      rw [List.getElem?_eq_getElem hlt] at hb; exact Option.some.inj hb
    have hd : l.input.drop l.pos = b :: (a.drop (l.pos + 1) ++ [10]) := by
      rw [ha, List.drop_append_of_le_length (by omega), hba]; rfl
    have hd' : (l.put Y).input.drop l.pos = b :: (a.drop (l.pos + 1) ++ [10] ++ Y) := by
      show (l.input ++ Y).drop l.pos = _
      rw [List.drop_append_of_le_length (by omega), hd]; rfl
    obtain ⟨g1, g2⟩ := decodeRune_lf b (a.drop (l.pos + 1)) Y h3
    have hrd : l.rd = ((decodeRune (l.input.drop l.pos)).1, (decodeRune (l.input.drop l.pos)).2,
        { l with pos := l.pos + 1 + (decodeRune (l.input.drop l.pos)).2 - 1, lpos := l.lpos + 1 }) := by
      simp only [Lexer.rd, Lexer.read, h2]; rw [if_pos (by omega)]
      simp only [Lexer.readUnicode]; rw [if_neg (by omega)]
      simp only [Nat.add_sub_cancel]
    rw [h7] at hrd
    simp only [Prod.mk.injEq] at hrd
    obtain ⟨hr1, hr2, -⟩ := hrd
    rw [hd, ← g1, ← hd'] at hr1 hr2
    rw [← g1, ← hd', ← hr2, List.length_drop] at g2
    refine ⟨r, w, _, h7, ?_, ⟨h6, hl.lf⟩, rfl, rfl, h5, ?_⟩
    · simp only [Lexer.rd, Lexer.read, hg, h2]; rw [if_pos (by omega)]
      simp only [Lexer.readUnicode]; rw [if_neg (by show ¬ (l.pos + 1 ≥ (l.input ++ Y).length); rw [List.length_append]; omega)]
      show ((decodeRune ((l.put Y).input.drop (l.pos + 1 - 1))).1, (decodeRune ((l.put Y).input.drop (l.pos + 1 - 1))).2, _) = _
      rw [Nat.add_sub_cancel, ← hr1, ← hr2]
      show (r, w, _) = (r, w, _)
      congr 2
      show Lexer.mk _ (l.pos + 1 + (decodeRune ((l.put Y).input.drop (l.pos + 1 - 1))).2 - 1) _ _ = Lexer.mk _ _ _ _
      have e0 : (decodeRune ((l.put Y).input.drop (l.pos + 1 - 1))).2 = w := by rw [Nat.add_sub_cancel, ← hr2]
      rw [e0]
      congr 1; show l.pos + 1 + w - 1 = l.pos + w; omega
    · intro _
      show l.pos + w < l.input.length
      omega

theorem slice_put {b Y x : Bytes} {i j : Nat} (h : slice b i j = some x) : slice (b ++ Y) i j = some x := by
  unfold slice at h ⊢
  split at h
  · rename_i hh
    rw [if_pos ⟨hh.1, by rw [List.length_append]; omega⟩]
    cases h
    congr 1
    rw [List.drop_append_of_le_length (by omega), List.take_append_of_le_length (by rw [List.length_drop]; omega)]
  · cases h

theorem fuel_put (Y : Bytes) (l : Lexer) : l.fuel ≤ (l.put Y).fuel := by
  show l.input.length - l.pos + 1 ≤ (l.input ++ Y).length - l.pos + 1
  rw [List.length_append]; omega

/-- Where an input that ends with a line break, and it is not read yet, is. -/
abbrev Mid (l : Lexer) : Prop := Lf l ∧ l.pos < l.input.length

theorem rns_put (Y : Bytes) : ∀ (n m : Nat) (cr : Bool) {l l0 : Lexer} {r w : Nat}, n ≤ m → Lf l →
    readNextSignificant n cr l = .ret (r, w, l0) → r ≠ 0 →
    readNextSignificant m cr (l.put Y) = .ret (r, w, l0.put Y) ∧ Mid l0 ∧ w ≤ l0.pos := by
  intro n
  induction n with
  | zero => intro m cr l l0 r w _ _ e _; cases e
  | succ n ih =>
    intro m cr l l0 r w hm hl e hr
    obtain ⟨m, rfl⟩ : ∃ k, m = k + 1 := ⟨m - 1, by omega⟩
    have hm' : n ≤ m := by omega
    unfold readNextSignificant at e ⊢
    rcases Nat.lt_or_ge l.pos l.input.length with hp | hp
    · obtain ⟨r1, w1, l1, e1, e2, hl1, hi, hp1, hw, h10⟩ := rd_put Y hl hp
      rw [e1] at e; rw [e2]
      dsimp only at e ⊢
      have up : ∀ ln lp, Lf { l1 with line := ln, lpos := lp } := fun ln lp => ⟨hl1.le, hl1.lf⟩
      by_cases q1 : r1 = 13
      · rw [if_pos q1] at e ⊢; exact ih m _ hm' (up _ _) e hr
      rw [if_neg q1] at e ⊢
      by_cases q2 : r1 = 10
      · rw [if_pos q2] at e ⊢
        by_cases q3 : cr = true
        · rw [if_pos q3] at e ⊢; exact ih m _ hm' hl1 e hr
        · rw [if_neg q3] at e ⊢; exact ih m _ hm' (up _ _) e hr
      rw [if_neg q2] at e ⊢
      by_cases q3 : r1 = 9 ∨ r1 = 32 ∨ r1 = 44 ∨ r1 = 0xFEFF
      · rw [if_pos q3] at e ⊢; exact ih m _ hm' hl1 e hr
      · rw [if_neg q3] at e ⊢
        cases e
        exact ⟨rfl, ⟨hl1, h10 q2⟩, by omega⟩
    · have hend : l.pos = l.input.length := by have := hl.le; omega
      rw [rd_stuck hend] at e
      simp at e
      exact absurd e.1.symm (by omega)

theorem unread_put (Y : Bytes) (l : Lexer) (w : Nat) : (l.put Y).unread w = (l.unread w).put Y := rfl

theorem Lf.unread {l : Lexer} (h : Lf l) (w : Nat) : Lf (l.unread w) := ⟨by have := h.le; simp [Lexer.unread]; omega, h.lf⟩

theorem cont_ne {r : Nat} (h : isNameCont r = true) : r ≠ 10 := by rintro rfl; revert h; decide
theorem digit_ne {r : Nat} (h : isDigit r = true) : r ≠ 10 := by rintro rfl; revert h; decide

theorem nameLoop_put (Y : Bytes) : ∀ (n m : Nat) {l l0 : Lexer}, n ≤ m → Mid l → scanNameLoop n l = .ret l0 →
    scanNameLoop m (l.put Y) = .ret (l0.put Y) ∧ Lf l0 := by
  intro n
  induction n with
  | zero => intro m l l0 _ _ e; cases e
  | succ n ih =>
    intro m l l0 hm hl e
    obtain ⟨m, rfl⟩ : ∃ k, m = k + 1 := ⟨m - 1, by omega⟩
    unfold scanNameLoop at e ⊢
    obtain ⟨r1, w1, l1, e1, e2, hl1, hi, hp1, hw, h10⟩ := rd_put Y hl.1 hl.2
    rw [e1] at e; rw [e2]
    dsimp only at e ⊢
    by_cases q1 : isNameCont r1 = true
    · rw [if_pos q1] at e ⊢; exact ih m (by omega) ⟨hl1, h10 (cont_ne q1)⟩ e
    rw [if_neg q1] at e ⊢
    by_cases q2 : r1 = 0
    · rw [if_pos q2] at e ⊢; cases e; exact ⟨rfl, hl1⟩
    · rw [if_neg q2] at e ⊢; cases e
      exact ⟨rfl, hl1.unread _⟩

theorem scanName_put (Y : Bytes) {l l' : Lexer} {t : Token} (hl : Mid l) (e : scanName l = .ret (t, l')) :
    scanName (l.put Y) = .ret (t, l'.put Y) ∧ Lf l' := by
  unfold scanName at e ⊢
  cases h : scanNameLoop l.fuel l with
  | panic => rw [h] at e; cases e
  | oof => rw [h] at e; cases e
  | ret l0 =>
    obtain ⟨h1, h2⟩ := nameLoop_put Y l.fuel (l.put Y).fuel (fuel_put Y l) hl h
    rw [h] at e; rw [h1]
    dsimp only at e ⊢
    cases hs : slice l0.input (l.pos - 1) l0.pos with
    | none => rw [hs] at e; cases e
    | some x =>
      have : slice (l0.put Y).input ((l.put Y).pos - 1) (l0.put Y).pos = some x := slice_put hs
      rw [hs] at e; rw [this]
      cases e
      exact ⟨rfl, h2⟩

theorem scanPunct_put (Y : Bytes) {l l' : Lexer} {t : Token} {r w : Nat} (hl : Mid l) (e : scanPunctuator l r w = .ret (t, l'))
    (hk : t.kind ≠ .illegal) : scanPunctuator (l.put Y) r w = .ret (t, l'.put Y) ∧ Lf l' := by
  unfold scanPunctuator at e ⊢
  by_cases q : r = 46
  · rw [if_pos q] at e ⊢
    obtain ⟨r1, w1, l1, e1, e2, hl1, hi, hp1, hw, h10⟩ := rd_put Y hl.1 hl.2
    rw [e1] at e; rw [e2]
    dsimp only at e ⊢
    by_cases q1 : r1 = 46
    · obtain ⟨r3, w3, l3, e3, e4, hl3, hi3, hp3, hw3, h103⟩ := rd_put Y hl1 (h10 (by omega))
      rw [e3] at e; rw [e4]
      dsimp only at e ⊢
      by_cases q2 : r1 ≠ 46 ∨ r3 ≠ 46
      · rw [if_pos q2] at e; cases e; exact absurd rfl hk
      · rw [if_neg q2] at e ⊢; cases e; exact ⟨rfl, hl3⟩
    · rw [if_pos (.inl q1)] at e; cases e; exact absurd rfl hk
  · rw [if_neg q] at e ⊢
    cases hs : slice l.input (l.pos - w) l.pos with
    | none => rw [hs] at e; cases e
    | some x =>
      have : slice (l.put Y).input ((l.put Y).pos - w) (l.put Y).pos = some x := slice_put hs
      rw [hs] at e; rw [this]
      cases e
      exact ⟨rfl, hl.1⟩

theorem digitsLoop_put (Y : Bytes) : ∀ (n m : Nat) {l l0 : Lexer} {r w}, n ≤ m → Mid l → readDigitsLoop n l = .ret (r, w, l0) →
    readDigitsLoop m (l.put Y) = .ret (r, w, l0.put Y) ∧ Lf l0 ∧ (r ≠ 10 → l0.pos < l0.input.length) := by
  intro n
  induction n with
  | zero => intro m l l0 r w _ _ e; cases e
  | succ n ih =>
    intro m l l0 r w hm hl e
    obtain ⟨m, rfl⟩ : ∃ k, m = k + 1 := ⟨m - 1, by omega⟩
    unfold readDigitsLoop at e ⊢
    obtain ⟨r1, w1, l1, e1, e2, hl1, hi, hp1, hw, h10⟩ := rd_put Y hl.1 hl.2
    rw [e1] at e; rw [e2]
    dsimp only at e ⊢
    by_cases q1 : isDigit r1 = true
    · rw [if_pos q1] at e ⊢; exact ih m (by omega) ⟨hl1, h10 (digit_ne q1)⟩ e
    · rw [if_neg q1] at e ⊢; cases e
      exact ⟨rfl, hl1, h10⟩

theorem readDigits_put (Y : Bytes) {l : Lexer} {r : Nat} (hl : Lf l) (hm : r ≠ 10 → l.pos < l.input.length) {x}
    (e : readDigits l r = .ret x) :
    (∃ m, x = .error m ∧ readDigits (l.put Y) r = .ret (.error m)) ∨
    (∃ r2 w2 l2, x = .ok (r2, w2, l2) ∧ readDigits (l.put Y) r = .ret (.ok (r2, w2, l2.put Y)) ∧ Lf l2 ∧
      (r2 ≠ 10 → l2.pos < l2.input.length)) := by
  unfold readDigits at e ⊢
  by_cases q : isDigit r = true
  · rw [if_pos q] at e ⊢
    cases h : readDigitsLoop l.fuel l with
    | panic => rw [h] at e; cases e
    | oof => rw [h] at e; cases e
    | ret y =>
      obtain ⟨r2, w2, l2⟩ := y
      obtain ⟨h1, h2, h3⟩ := digitsLoop_put Y l.fuel (l.put Y).fuel (fuel_put Y l) ⟨hl, hm (digit_ne q)⟩ h
      rw [h] at e; rw [h1]
      cases e
      exact .inr ⟨r2, w2, l2, rfl, rfl, h2, h3⟩
  · rw [if_neg q] at e ⊢
    cases e
    exact .inl ⟨_, rfl, rfl⟩

theorem numberEnd_put (Y : Bytes) {l0 l l' : Lexer} {f : Bool} {r w : Nat} {t : Token} (hl : Lf l) (e : numberEnd l0 f r w l = .ret (t, l')) :
    numberEnd (l0.put Y) f r w (l.put Y) = .ret (t, l'.put Y) ∧ Lf l' := by
  unfold numberEnd at e ⊢
  dsimp only at e ⊢
  have h1 : (if r ≠ 0 then (l.put Y).unread w else l.put Y) = (if r ≠ 0 then l.unread w else l).put Y := by
    split <;> rfl
  have h2 : Lf (if r ≠ 0 then l.unread w else l) := by
    split
    · exact hl.unread _
    · exact hl
  rw [h1]
  generalize (if r ≠ 0 then l.unread w else l) = k at *
  cases hs : slice k.input (l0.pos - 1) k.pos with
  | none => rw [hs] at e; cases e
  | some x =>
    have : slice (k.put Y).input ((l0.put Y).pos - 1) (k.put Y).pos = some x := slice_put hs
    rw [hs] at e; rw [this]
    cases e
    exact ⟨rfl, h2⟩

theorem readIf_put (Y : Bytes) {c : Bool} {r : Nat} {l : Lexer} (hl : Lf l) (hm : r ≠ 10 → l.pos < l.input.length)
    (hc : c = true → r ≠ 10) : readIf c r (l.put Y) = ((readIf c r l).1, (readIf c r l).2.put Y) ∧ Lf (readIf c r l).2 ∧
      ((readIf c r l).1 ≠ 10 → (readIf c r l).2.pos < (readIf c r l).2.input.length) := by
  unfold readIf
  cases c with
  | false => exact ⟨rfl, hl, hm⟩
  | true =>
    obtain ⟨r1, w1, l1, e1, e2, hl1, hi, hp1, hw, h10⟩ := rd_put Y hl (hm (hc rfl))
    simp only [if_true, e1, e2]
    exact ⟨trivial, hl1, h10⟩

theorem numberExp_put (Y : Bytes) {l0 l l' : Lexer} {f : Bool} {r w : Nat} {t : Token} (hl : Lf l) (hm : r ≠ 10 → l.pos < l.input.length)
    (e : numberExp l0 f r w l = .ret (t, l')) :
    numberExp (l0.put Y) f r w (l.put Y) = .ret (t, l'.put Y) ∧ Lf l' := by
  unfold numberExp at e ⊢
  by_cases q : r = 101 ∨ r = 69
  · rw [if_pos q] at e ⊢
    obtain ⟨r1, w1, l1, e1, e2, hl1, hi, hp1, hw, h10⟩ := rd_put Y hl (hm (by omega))
    rw [e1] at e; rw [e2]
    dsimp only at e ⊢
    obtain ⟨g1, g2, g3⟩ := readIf_put Y (c := decide (r1 = 43 ∨ r1 = 45)) hl1 h10 (fun hh => by have := of_decide_eq_true hh; omega)
    rw [g1]
    generalize readIf (decide (r1 = 43 ∨ r1 = 45)) r1 l1 = s at *
    cases h : readDigits s.2 s.1 with
    | panic => rw [h] at e; cases e
    | oof => rw [h] at e; cases e
    | ret x =>
      rcases readDigits_put Y g2 g3 h with ⟨m, rfl, hd⟩ | ⟨r2, w2, l2, rfl, hd, hl2, h2⟩
      · rw [h] at e; rw [hd]; cases e; exact ⟨rfl, g2⟩
      · rw [h] at e; rw [hd]
        exact numberEnd_put Y hl2 e
  · rw [if_neg q] at e ⊢
    exact numberEnd_put Y hl e

theorem numberFrac_put (Y : Bytes) {l0 l l' : Lexer} {r w : Nat} {t : Token} (hl : Lf l) (hm : r ≠ 10 → l.pos < l.input.length)
    (e : numberFrac l0 r w l = .ret (t, l')) :
    numberFrac (l0.put Y) r w (l.put Y) = .ret (t, l'.put Y) ∧ Lf l' := by
  unfold numberFrac at e ⊢
  by_cases q : r = 46
  · rw [if_pos q] at e ⊢
    obtain ⟨r1, w1, l1, e1, e2, hl1, hi, hp1, hw, h10⟩ := rd_put Y hl (hm (by omega))
    rw [e1] at e; rw [e2]
    dsimp only at e ⊢
    cases h : readDigits l1 r1 with
    | panic => rw [h] at e; cases e
    | oof => rw [h] at e; cases e
    | ret x =>
      rcases readDigits_put Y hl1 h10 h with ⟨m, rfl, hd⟩ | ⟨r2, w2, l2, rfl, hd, hl2, h2⟩
      · rw [h] at e; rw [hd]; cases e; exact ⟨rfl, hl1⟩
      · rw [h] at e; rw [hd]
        exact numberExp_put Y hl2 h2 e
  · rw [if_neg q] at e ⊢
    exact numberExp_put Y hl hm e

theorem scanNumber_put (Y : Bytes) {l l' : Lexer} {r : Nat} {t : Token} (hl : Mid l)
    (e : scanNumber l r = .ret (t, l')) :
    scanNumber (l.put Y) r = .ret (t, l'.put Y) ∧ Lf l' := by
  unfold scanNumber at e ⊢
  dsimp only at e ⊢
  obtain ⟨g1, g2, g3⟩ := readIf_put Y (c := decide (r = 45)) (r := r) hl.1 (fun _ => hl.2) (fun hh => by have := of_decide_eq_true hh; omega)
  rw [g1]
  generalize readIf (decide (r = 45)) r l = s at *
  dsimp only
  by_cases q : s.1 = 48
  · rw [if_pos q] at e ⊢
    obtain ⟨r1, w1, l1, e1, e2, hl1, hi, hp1, hw, h10⟩ := rd_put Y g2 (g3 (by omega))
    rw [e1] at e; rw [e2]
    dsimp only at e ⊢
    by_cases q1 : isDigit r1 = true
    · rw [if_pos q1] at e ⊢; cases e; exact ⟨rfl, hl1⟩
    · rw [if_neg q1] at e ⊢
      exact numberFrac_put Y hl1 h10 e
  · rw [if_neg q] at e ⊢
    cases h : readDigits s.2 s.1 with
    | panic => rw [h] at e; cases e
    | oof => rw [h] at e; cases e
    | ret x =>
      rcases readDigits_put Y g2 g3 h with ⟨m, rfl, hd⟩ | ⟨r2, w2, l2, rfl, hd, hl2, h2⟩
      · rw [h] at e; rw [hd]; cases e; exact ⟨rfl, g2⟩
      · rw [h] at e; rw [hd]
        exact numberFrac_put Y hl2 h2 e

theorem skipComment_put (Y : Bytes) : ∀ (n m : Nat) (cr : Bool) {l l0 : Lexer}, n ≤ m → Mid l → skipComment n cr l = .ret l0 →
    skipComment m cr (l.put Y) = .ret (l0.put Y) ∧ Lf l0 := by
  intro n
  induction n with
  | zero => intro m cr l l0 _ _ e; cases e
  | succ n ih =>
    intro m cr l l0 hm hl e
    obtain ⟨m, rfl⟩ : ∃ k, m = k + 1 := ⟨m - 1, by omega⟩
    have hm' : n ≤ m := by omega
    unfold skipComment at e ⊢
    obtain ⟨r1, w1, l1, e1, e2, hl1, hi, hp1, hw, h10⟩ := rd_put Y hl.1 hl.2
    rw [e1] at e; rw [e2]
    dsimp only at e ⊢
    have up : ∀ ln lp, Lf { l1 with line := ln, lpos := lp } := fun ln lp => ⟨hl1.le, hl1.lf⟩
    by_cases q1 : r1 = 0
    · rw [if_pos q1] at e ⊢; cases e; exact ⟨rfl, hl1⟩
    rw [if_neg q1] at e ⊢
    by_cases q2 : (cr && decide (r1 = 10)) = true
    · rw [if_pos q2] at e ⊢; cases e; exact ⟨rfl, up _ _⟩
    rw [if_neg q2] at e ⊢
    by_cases q3 : (cr && decide (r1 ≠ 10)) = true
    · rw [if_pos q3] at e ⊢; cases e; exact ⟨rfl, hl1.unread _⟩
    rw [if_neg q3] at e ⊢
    by_cases q4 : r1 = 13
    · rw [if_pos q4] at e ⊢
      exact ih m true hm' (l := { l1 with line := l1.line + 1, lpos := 0 }) ⟨up _ _, h10 (by omega)⟩ e
    rw [if_neg q4] at e ⊢
    by_cases q5 : r1 = 10
    · rw [if_pos q5] at e ⊢; cases e; exact ⟨rfl, up _ _⟩
    · rw [if_neg q5] at e ⊢
      exact ih m cr hm' ⟨hl1, h10 q5⟩ e

end GQL
