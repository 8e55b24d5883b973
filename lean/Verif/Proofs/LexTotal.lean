/-
Totality of the lexer: helper lemmas for C01 and C02.
-/
import Verif.Model.Lexer

namespace GQL

theorem decodeRune_width (b : Bytes) (h : b ≠ []) :
    1 ≤ (decodeRune b).2 ∧ (decodeRune b).2 ≤ b.length := by
  cases b with
  | nil => exact absurd rfl h
  | cons b0 t =>
    unfold decodeRune
    dsimp only
    split
    · simp
    · split
      · cases t with
        | nil => simp
        | cons b1 t => dsimp only; (repeat' split) <;> simp
      · split
        · rcases t with _ | ⟨b1, _ | ⟨b2, t⟩⟩
          · simp
          · simp
          · dsimp only; (repeat' split) <;> simp
        · split
          · rcases t with _ | ⟨b1, _ | ⟨b2, _ | ⟨b3, t⟩⟩⟩
            · simp
            · simp
            · simp
            · dsimp only; (repeat' split) <;> simp
          · simp

/-- `l'` is a later state of the same lexer. -/
structure Adv (l l' : Lexer) : Prop where
  input : l'.input = l.input
  le : l.pos ≤ l'.pos
  bound : l'.pos ≤ l.input.length

theorem Adv.refl {l : Lexer} (h : l.pos ≤ l.input.length) : Adv l l := ⟨rfl, Nat.le_refl _, h⟩

theorem Adv.trans {a b c : Lexer} (h1 : Adv a b) (h2 : Adv b c) : Adv a c :=
  ⟨h2.input.trans h1.input, Nat.le_trans h1.le h2.le, h1.input ▸ h2.bound⟩

theorem Adv.inv {a b : Lexer} (h : Adv a b) : b.pos ≤ b.input.length := h.input ▸ h.bound

theorem rd_adv (l : Lexer) (h : l.pos ≤ l.input.length) :
    Adv l l.rd.2.2 ∧ l.pos + l.rd.2.1 ≤ l.rd.2.2.pos ∧ (l.rd.1 ≠ 0 → l.pos < l.rd.2.2.pos) := by
  unfold Lexer.rd Lexer.read
  cases hb : l.input[l.pos]? with
  | none => simp [Adv.refl h]
  | some b =>
    have hlt : l.pos < l.input.length := by
      rcases Nat.lt_or_ge l.pos l.input.length with h' | h'
      · exact h'
      · rw [List.getElem?_eq_none h'] at hb; cases hb
    dsimp only
    split
    · unfold Lexer.readUnicode
      dsimp only
      split
      · refine ⟨⟨rfl, ?_, ?_⟩, ?_, ?_⟩ <;> simp <;> omega
      · have hw := decodeRune_width (l.input.drop l.pos) (by
          intro hn; have := congrArg List.length hn; simp at this; omega)
        rw [List.length_drop] at hw
        simp only [Nat.add_sub_cancel]
        refine ⟨⟨rfl, ?_, ?_⟩, ?_, ?_⟩ <;> simp <;> omega
    · refine ⟨⟨rfl, ?_, ?_⟩, ?_, ?_⟩ <;> simp <;> omega

theorem rd_adv' {l l' : Lexer} {r w : Nat} (e : l.rd = (r, w, l')) (h : l.pos ≤ l.input.length) :
    Adv l l' ∧ l.pos + w ≤ l'.pos ∧ (r ≠ 0 → l.pos < l'.pos) := by
  have := rd_adv l h; rw [e] at this; exact this

/-- changing the line and column counters does not affect `Adv`. -/
theorem Adv.upd {a b : Lexer} (h : Adv a b) (lp ln : Nat) : Adv a { b with lpos := lp, line := ln } :=
  ⟨h.input, h.le, h.bound⟩

theorem Adv.unread {b c : Lexer} {w : Nat} (h2 : Adv b c) (hw : b.pos + w ≤ c.pos) :
    Adv b (c.unread w) := by
  refine ⟨h2.input, ?_, ?_⟩
  · simp [Lexer.unread]; omega
  · have := h2.bound; simp [Lexer.unread]; omega

theorem readNextSignificant_total (n : Nat) (cr : Bool) (l : Lexer) (h : l.pos ≤ l.input.length)
    (hn : l.input.length - l.pos < n) :
    ∃ r w l', readNextSignificant n cr l = .ret (r, w, l') ∧ Adv l l' ∧ l.pos + w ≤ l'.pos ∧
      (r ≠ 0 → l.pos < l'.pos) := by
  induction n generalizing cr l with
  | zero => omega
  | succ n ih =>
    unfold readNextSignificant
    rcases e : l.rd with ⟨r, w, l1⟩
    obtain ⟨ha, hw, hp⟩ := rd_adv' e h
    have key : ∀ (cr' : Bool) (lp ln : Nat), r ≠ 0 →
        ∃ r w l', readNextSignificant n cr' { l1 with lpos := lp, line := ln } = .ret (r, w, l') ∧
          Adv l l' ∧ l.pos + w ≤ l'.pos ∧ (r ≠ 0 → l.pos < l'.pos) := by
      intro cr' lp ln hr
      have hp' := hp hr
      have hb := ha.bound
      obtain ⟨r, w, l', e', a', w', p'⟩ := ih cr' { l1 with lpos := lp, line := ln }
        (ha.upd lp ln).inv (by have := ha.input; simp [this]; omega)
      have a2 : Adv l l' := (ha.upd lp ln).trans a'
      exact ⟨r, w, l', e', a2, by simp at w'; omega, fun h => by have := p' h; simp at this; omega⟩
    dsimp only
    split
    · exact key _ _ _ (by omega)
    · split
      · split
        · exact key cr l1.lpos l1.line (by omega)
        · exact key _ _ _ (by omega)
      · split
        · exact key cr l1.lpos l1.line (by omega)
        · exact ⟨r, w, l1, rfl, ha, hw, hp⟩

theorem scanNameLoop_total (n : Nat) (l : Lexer) (h : l.pos ≤ l.input.length)
    (hn : l.input.length - l.pos < n) : ∃ l', scanNameLoop n l = .ret l' ∧ Adv l l' := by
  induction n generalizing l with
  | zero => omega
  | succ n ih =>
    unfold scanNameLoop
    rcases e : l.rd with ⟨r, w, l1⟩
    obtain ⟨ha, hw, hp⟩ := rd_adv' e h
    dsimp only
    split
    · rename_i hc
      have : r ≠ 0 := by rintro rfl; simp [isNameCont, isDigit, isNameStart] at hc
      have hp := hp this
      obtain ⟨l', e', a'⟩ := ih l1 ha.inv (by have := ha.input; have := ha.bound; simp [*]; omega)
      exact ⟨l', e', ha.trans a'⟩
    · split
      · exact ⟨l1, rfl, ha⟩
      · exact ⟨_, rfl, ha.unread hw⟩

theorem slice_some {b : Bytes} {i j : Nat} (h1 : i ≤ j) (h2 : j ≤ b.length) :
    slice b i j = some ((b.drop i).take (j - i)) := by simp [slice, h1, h2]

theorem scanName_total (l : Lexer) (h : l.pos ≤ l.input.length) :
    ∃ t l', scanName l = .ret (t, l') ∧ Adv l l' := by
  unfold scanName
  obtain ⟨l', e, a⟩ := scanNameLoop_total l.fuel l h (by unfold Lexer.fuel; omega)
  rw [e]; dsimp only
  rw [slice_some (by have := a.le; omega) (by rw [a.input]; exact a.bound)]
  exact ⟨_, _, rfl, a⟩

theorem scanPunctuator_total (l : Lexer) (r w : Nat) (h : l.pos ≤ l.input.length) :
    ∃ t l', scanPunctuator l r w = .ret (t, l') ∧ Adv l l' := by
  unfold scanPunctuator
  split
  · rcases e2 : l.rd with ⟨r2, w2, l2⟩
    obtain ⟨a2, -, -⟩ := rd_adv' e2 h
    rcases e3 : l2.rd with ⟨r3, w3, l3⟩
    obtain ⟨a3, -, -⟩ := rd_adv' e3 a2.inv
    dsimp only
    rw [e3]; dsimp only
    split
    · exact ⟨_, _, rfl, a2.trans a3⟩
    · exact ⟨_, _, rfl, a2.trans a3⟩
  · rw [slice_some (by omega) h]
    exact ⟨_, _, rfl, Adv.refl h⟩

theorem readDigitsLoop_total (n : Nat) (l : Lexer) (h : l.pos ≤ l.input.length)
    (hn : l.input.length - l.pos < n) :
    ∃ r w l', readDigitsLoop n l = .ret (r, w, l') ∧ Adv l l' ∧ l.pos + w ≤ l'.pos := by
  induction n generalizing l with
  | zero => omega
  | succ n ih =>
    unfold readDigitsLoop
    rcases e : l.rd with ⟨r, w, l1⟩
    obtain ⟨ha, hw, hp⟩ := rd_adv' e h
    dsimp only
    split
    · rename_i hc
      have : r ≠ 0 := by rintro rfl; simp [isDigit] at hc
      have hp := hp this
      obtain ⟨r', w', l', e', a', w'⟩ := ih l1 ha.inv (by have := ha.input; have := ha.bound; simp [*]; omega)
      exact ⟨r', _, l', e', ha.trans a', by omega⟩
    · exact ⟨r, w, l1, rfl, ha, hw⟩

theorem readDigits_total (l : Lexer) (r : Nat) (h : l.pos ≤ l.input.length) :
    (∃ e, readDigits l r = .ret (.error e)) ∨
    ∃ r' w l', readDigits l r = .ret (.ok (r', w, l')) ∧ Adv l l' ∧ l.pos + w ≤ l'.pos := by
  unfold readDigits
  split
  · obtain ⟨r', w', l', e', a', w''⟩ := readDigitsLoop_total l.fuel l h (by unfold Lexer.fuel; omega)
    rw [e']; exact .inr ⟨_, _, _, rfl, a', w''⟩
  · exact .inl ⟨_, rfl⟩

theorem numberEnd_total (l0 : Lexer) (f : Bool) (r w : Nat) (l : Lexer)
    (ha : Adv l0 l) (hw : l0.pos + w ≤ l.pos) :
    ∃ t l', numberEnd l0 f r w l = .ret (t, l') ∧ Adv l0 l' := by
  unfold numberEnd
  have a : Adv l0 (if r ≠ 0 then l.unread w else l) := by
    split
    · exact ha.unread hw
    · exact ha
  dsimp only
  rw [slice_some (by have := a.le; omega) (by rw [a.input]; exact a.bound)]
  exact ⟨_, _, rfl, a⟩

theorem readIf_adv (c : Bool) (r : Nat) (l : Lexer) (h : l.pos ≤ l.input.length) :
    Adv l (readIf c r l).2 := by
  unfold readIf; split
  · exact (rd_adv l h).1
  · exact Adv.refl h

theorem numberExp_total (l0 : Lexer) (f : Bool) (r w : Nat) (l : Lexer)
    (ha : Adv l0 l) (hw : l0.pos + w ≤ l.pos) :
    ∃ t l', numberExp l0 f r w l = .ret (t, l') ∧ Adv l0 l' := by
  unfold numberExp
  split
  · rcases e1 : l.rd with ⟨r1, w1, l1⟩
    obtain ⟨a1, -, -⟩ := rd_adv' e1 ha.inv
    dsimp only
    have a2 := readIf_adv (r1 = 43 ∨ r1 = 45) r1 l1 a1.inv
    have a := ha.trans (a1.trans a2)
    rcases readDigits_total _ (readIf (r1 = 43 ∨ r1 = 45) r1 l1).1 a.inv with
      ⟨e, he⟩ | ⟨r', w', l', he, a', hw'⟩
    · rw [he]; exact ⟨_, _, rfl, a⟩
    · rw [he]; dsimp only
      exact numberEnd_total l0 true r' w' l' (a.trans a') (by have := a.le; omega)
  · exact numberEnd_total l0 f r w l ha hw

theorem numberFrac_total (l0 : Lexer) (r w : Nat) (l : Lexer)
    (ha : Adv l0 l) (hw : l0.pos + w ≤ l.pos) :
    ∃ t l', numberFrac l0 r w l = .ret (t, l') ∧ Adv l0 l' := by
  unfold numberFrac
  split
  · rcases e1 : l.rd with ⟨r1, w1, l1⟩
    obtain ⟨a1, -, -⟩ := rd_adv' e1 ha.inv
    dsimp only
    rcases readDigits_total l1 r1 a1.inv with ⟨e, he⟩ | ⟨r', w', l', he, a', hw'⟩
    · rw [he]; exact ⟨_, _, rfl, ha.trans a1⟩
    · rw [he]; dsimp only
      exact numberExp_total l0 true r' w' l' (ha.trans (a1.trans a'))
        (by have := ha.le; have := a1.le; omega)
  · exact numberExp_total l0 false r w l ha hw

theorem scanNumber_total (l0 : Lexer) (r0 : Nat) (h : l0.pos ≤ l0.input.length) :
    ∃ t l', scanNumber l0 r0 = .ret (t, l') ∧ Adv l0 l' := by
  unfold scanNumber
  have a := readIf_adv (r0 = 45) r0 l0 h
  dsimp only
  split
  · rcases e2 : (readIf (r0 = 45) r0 l0).2.rd with ⟨r2, w2, l2⟩
    obtain ⟨a2, hw2, -⟩ := rd_adv' e2 a.inv
    dsimp only
    split
    · exact ⟨_, _, rfl, a.trans a2⟩
    · exact numberFrac_total l0 r2 w2 l2 (a.trans a2) (by have := a.le; omega)
  · rcases readDigits_total _ (readIf (r0 = 45) r0 l0).1 a.inv with
      ⟨e, he⟩ | ⟨r', w', l', he, a', hw'⟩
    · rw [he]; exact ⟨_, _, rfl, a⟩
    · rw [he]; dsimp only
      exact numberFrac_total l0 r' w' l' (a.trans a') (by have := a.le; omega)

theorem skipComment_total (n : Nat) (cr : Bool) (l : Lexer) (h : l.pos ≤ l.input.length)
    (hn : l.input.length - l.pos < n) : ∃ l', skipComment n cr l = .ret l' ∧ Adv l l' := by
  induction n generalizing cr l with
  | zero => omega
  | succ n ih =>
    unfold skipComment
    rcases e : l.rd with ⟨r, w, l1⟩
    obtain ⟨ha, hw, hp⟩ := rd_adv' e h
    have key : ∀ (cr' : Bool) (lp ln : Nat), r ≠ 0 →
        ∃ l', skipComment n cr' { l1 with lpos := lp, line := ln } = .ret l' ∧ Adv l l' := by
      intro cr' lp ln hr
      have hp' := hp hr
      have hb := ha.bound
      obtain ⟨l', e', a'⟩ := ih cr' { l1 with lpos := lp, line := ln }
        (ha.upd lp ln).inv (by have := ha.input; simp [this]; omega)
      exact ⟨l', e', (ha.upd lp ln).trans a'⟩
    dsimp only
    split
    · exact ⟨l1, rfl, ha⟩
    · split
      · exact ⟨_, rfl, ha.upd 0 l1.line⟩
      · split
        · exact ⟨_, rfl, ha.unread hw⟩
        · split
          · exact key _ _ _ (by assumption)
          · split
            · exact ⟨_, rfl, ha.upd 0 (l1.line + 1)⟩
            · exact key cr l1.lpos l1.line (by assumption)

theorem escapedChar_adv (l : Lexer) (h : l.pos ≤ l.input.length) : Adv l (escapedChar l).2 := by
  unfold escapedChar
  rcases e1 : l.rd with ⟨r, w, l1⟩
  obtain ⟨a1, -, -⟩ := rd_adv' e1 h
  dsimp only
  split
  · exact a1
  · split
    · rcases e2 : l1.rd with ⟨r2, w2, l2⟩
      obtain ⟨a2, -, -⟩ := rd_adv' e2 a1.inv
      rcases e3 : l2.rd with ⟨r3, w3, l3⟩
      obtain ⟨a3, -, -⟩ := rd_adv' e3 a2.inv
      rcases e4 : l3.rd with ⟨r4, w4, l4⟩
      obtain ⟨a4, -, -⟩ := rd_adv' e4 a3.inv
      rcases e5 : l4.rd with ⟨r5, w5, l5⟩
      obtain ⟨a5, -, -⟩ := rd_adv' e5 a4.inv
      have a := a1.trans (a2.trans (a3.trans (a4.trans a5)))
      dsimp only
      split
      · exact a
      · exact a
    · exact a1

theorem stringPass1_total (n : Nat) (esc : Bool) (l : Lexer) (h : l.pos ≤ l.input.length)
    (hn : l.input.length - l.pos < n) :
    (∃ r l', stringPass1 n esc l = .ret (.error (r, l')) ∧ Adv l l') ∨
    (∃ b l', stringPass1 n esc l = .ret (.ok (b, l')) ∧ Adv l l' ∧ l.pos < l'.pos) := by
  induction n generalizing esc l with
  | zero => omega
  | succ n ih =>
    unfold stringPass1
    rcases e : l.rd with ⟨r, w, l1⟩
    obtain ⟨ha, hw, hp⟩ := rd_adv' e h
    have key : ∀ esc' l2, Adv l1 l2 → r ≠ 0 →
        (∃ r l', stringPass1 n esc' l2 = .ret (.error (r, l')) ∧ Adv l l') ∨
        (∃ b l', stringPass1 n esc' l2 = .ret (.ok (b, l')) ∧ Adv l l' ∧ l.pos < l'.pos) := by
      intro esc' l2 a2 hr
      have hp := hp hr
      have a := ha.trans a2
      rcases ih esc' l2 a.inv (by have := a.input; have := a.bound; have := a2.le; simp [*]; omega) with
        ⟨r', l', e', a'⟩ | ⟨b, l', e', a', p'⟩
      · exact .inl ⟨r', l', e', a.trans a'⟩
      · exact .inr ⟨b, l', e', a.trans a', by have := a.le; omega⟩
    dsimp only
    split
    · rename_i h34
      exact .inr ⟨_, _, rfl, ha, hp (by omega)⟩
    · split
      · exact .inl ⟨_, _, rfl, ha⟩
      · split
        · rcases e2 : l1.rd with ⟨r2, w2, l2⟩
          obtain ⟨a2, -, -⟩ := rd_adv' e2 ha.inv
          dsimp only
          split
          · have a3 := (rd_adv l2 a2.inv).1
            have a4 := (rd_adv _ a3.inv).1
            have a5 := (rd_adv _ a4.inv).1
            have a6 := (rd_adv _ a5.inv).1
            exact key _ _ (a2.trans (a3.trans (a4.trans (a5.trans a6)))) (by omega)
          · exact key _ _ a2 (by omega)
        · exact key _ _ (Adv.refl ha.inv) (by omega)

theorem stringPass2_total (col line n : Nat) (acc : Bytes) (l : Lexer) (h : l.pos ≤ l.input.length)
    (hn : l.input.length - l.pos < n) :
    ∃ t l', stringPass2 col line n acc l = .ret (t, l') ∧ Adv l l' := by
  induction n generalizing acc l with
  | zero => omega
  | succ n ih =>
    unfold stringPass2
    rcases e : l.rd with ⟨r, w, l1⟩
    obtain ⟨ha, hw, hp⟩ := rd_adv' e h
    have key : ∀ acc' l2, Adv l1 l2 → r ≠ 0 →
        ∃ t l', stringPass2 col line n acc' l2 = .ret (t, l') ∧ Adv l l' := by
      intro acc' l2 a2 hr
      have hp := hp hr
      have a := ha.trans a2
      obtain ⟨t, l', e', a'⟩ := ih acc' l2 a.inv
        (by have := a.input; have := a.bound; have := a2.le; simp [*]; omega)
      exact ⟨t, l', e', a.trans a'⟩
    dsimp only
    split
    · exact ⟨_, _, rfl, ha⟩
    · split
      · have a2 := escapedChar_adv l1 ha.inv
        rcases e2 : escapedChar l1 with ⟨x, l2⟩
        rw [e2] at a2
        cases x with
        | error e => exact ⟨_, _, rfl, ha.trans a2⟩
        | ok x => exact key _ _ a2 (by omega)
      · exact key _ _ (Adv.refl ha.inv) (by omega)

theorem scanString_total (l : Lexer) (h : l.pos ≤ l.input.length) :
    ∃ t l', scanString l = .ret (t, l') ∧ Adv l l' := by
  unfold scanString
  rcases stringPass1_total l.fuel false l h (by unfold Lexer.fuel; omega) with
    ⟨r, l', e, a⟩ | ⟨b, l', e, a, p⟩
  · rw [e]; exact ⟨_, _, rfl, a⟩
  · rw [e]; dsimp only
    split
    · exact stringPass2_total _ _ _ _ _ h (by unfold Lexer.fuel; omega)
    · rw [slice_some (by omega) (by have := a.bound; rw [a.input]; omega)]
      exact ⟨_, _, rfl, a⟩

theorem isTripQuotes_adv (l : Lexer) (h : l.pos ≤ l.input.length) :
    Adv l (isTripQuotes l).2 ∧ ((isTripQuotes l).1 = true → l.pos + 2 ≤ (isTripQuotes l).2.pos) := by
  unfold isTripQuotes
  rcases e1 : l.rd with ⟨r1, w1, l1⟩
  obtain ⟨a1, hw1, p1⟩ := rd_adv' e1 h
  rcases e2 : l1.rd with ⟨r2, w2, l2⟩
  obtain ⟨a2, hw2, p2⟩ := rd_adv' e2 a1.inv
  have a12 := a1.trans a2
  have b2 := a2.bound
  have b1 := a1.bound
  have i1 := a1.input
  have i2 := a2.input
  dsimp only
  rw [e2]; dsimp only
  split
  · rename_i hq
    have := p1 (by omega); have := p2 (by omega)
    exact ⟨a12, fun _ => by dsimp only; omega⟩
  · refine ⟨?_, by simp⟩
    dsimp only
    have h3 : Adv l1 (if r1 ≠ 0 then l2.unread w2 else l2) := by
      split
      · exact a2.unread hw2
      · exact a2
    split
    · exact (a1.trans h3).unread (by have := h3.le; omega)
    · exact a1.trans h3

theorem blockPass1_total (n : Nat) (cr esc : Bool) (l : Lexer) (h : l.pos ≤ l.input.length)
    (hn : l.input.length - l.pos < n) :
    (∃ x l', blockPass1 n cr esc l = .ret (.error (x, l')) ∧ Adv l l') ∨
    (∃ c b l', blockPass1 n cr esc l = .ret (.ok (c, b, l')) ∧ Adv l l' ∧ l.pos + 3 ≤ l'.pos) := by
  induction n generalizing cr esc l with
  | zero => omega
  | succ n ih =>
    unfold blockPass1
    rcases e : l.rd with ⟨r, w, l1⟩
    obtain ⟨ha, hw, hp⟩ := rd_adv' e h
    have key : ∀ cr' esc' l2, Adv l1 l2 → r ≠ 0 →
        (∃ x l', blockPass1 n cr' esc' l2 = .ret (.error (x, l')) ∧ Adv l l') ∨
        (∃ c b l', blockPass1 n cr' esc' l2 = .ret (.ok (c, b, l')) ∧ Adv l l' ∧ l.pos + 3 ≤ l'.pos) := by
      intro cr' esc' l2 a2 hr
      have hp := hp hr
      have a := ha.trans a2
      rcases ih cr' esc' l2 a.inv (by have := a.input; have := a.bound; have := a2.le; simp [*]; omega) with
        ⟨r', l', e', a'⟩ | ⟨c, b, l', e', a', p'⟩
      · exact .inl ⟨r', l', e', a.trans a'⟩
      · exact .inr ⟨c, b, l', e', a.trans a', by have := a.le; omega⟩
    dsimp only
    split
    · rcases e2 : l1.rd with ⟨r2, w2, l2⟩
      obtain ⟨a2, -, -⟩ := rd_adv' e2 ha.inv
      dsimp only
      split
      · exact key _ _ _ (a2.trans (isTripQuotes_adv l2 a2.inv).1) (by omega)
      · exact key _ _ _ a2 (by omega)
    · split
      · exact key _ _ _ (Adv.refl ha.inv) (by omega)
      · split
        · exact .inl ⟨_, _, rfl, ha⟩
        · split
          · exact .inl ⟨_, _, rfl, ha⟩
          · split
            · have ht := isTripQuotes_adv l1 ha.inv
              split
              · rename_i h34 ht'
                have := ht.2 ht'
                have := hp (by omega)
                exact .inr ⟨_, _, _, rfl, ha.trans ht.1, by omega⟩
              · exact key _ _ _ ht.1 (by assumption)
            · exact key _ _ _ (Adv.refl ha.inv) (by assumption)

/-- More fuel does not change a result of the first pass over a block string. -/
theorem blockPass1_mono (n m : Nat) (cr esc : Bool) (l : Lexer) (hnm : n ≤ m)
    (x : Except (Bytes × Lexer) (Bool × Bool × Lexer)) (h : blockPass1 n cr esc l = .ret x) :
    blockPass1 m cr esc l = .ret x := by
  induction n generalizing cr esc l m with
  | zero => cases h
  | succ n ih =>
    obtain _ | m := m
    · omega
    have ih' : ∀ cr esc l, blockPass1 n cr esc l = .ret x → blockPass1 m cr esc l = .ret x :=
      fun cr esc l => ih m cr esc l (by omega)
    unfold blockPass1 at h ⊢
    rcases e : l.rd with ⟨r, w, l1⟩
    rw [e] at h
    dsimp only at h ⊢
    split at h
    · rename_i c; rw [if_pos c]
      split at h
      · rename_i c; rw [if_pos c]; exact ih' _ _ _ h
      · rename_i c; rw [if_neg c]; exact ih' _ _ _ h
    · rename_i c; rw [if_neg c]
      split at h
      · rename_i c; rw [if_pos c]; exact ih' _ _ _ h
      · rename_i c; rw [if_neg c]
        split at h
        · rename_i c; rw [if_pos c]; exact h
        · rename_i c; rw [if_neg c]
          split at h
          · rename_i c; rw [if_pos c]; exact h
          · rename_i c; rw [if_neg c]
            split at h
            · rename_i c; rw [if_pos c]
              split at h
              · rename_i c; rw [if_pos c]; exact h
              · rename_i c; rw [if_neg c]; exact ih' _ _ _ h
            · rename_i c; rw [if_neg c]; exact ih' _ _ _ h

/-- The second pass over a block string follows the first one: it succeeds and does not index out
of range. -/
theorem blockPass2_total (n m : Nat) (cr esc c b : Bool) (acc : Bytes) (l l' : Lexer)
    (h : l.pos ≤ l.input.length) (hm : l.input.length - l.pos < m)
    (h1 : blockPass1 n cr esc l = .ret (.ok (c, b, l'))) :
    ∃ raw, blockPass2 m acc l = .ret (.ok (raw, l')) := by
  induction n generalizing cr esc l m acc with
  | zero => cases h1
  | succ n ih =>
    obtain _ | m := m
    · omega
    unfold blockPass1 at h1
    unfold blockPass2
    rcases e : l.rd with ⟨r, w, l1⟩
    rw [e] at h1
    obtain ⟨ha, hw, hp⟩ := rd_adv' e h
    have key : ∀ cr' esc' acc' l2, Adv l1 l2 → r ≠ 0 →
        blockPass1 n cr' esc' l2 = .ret (.ok (c, b, l')) →
        ∃ raw, blockPass2 m acc' l2 = .ret (.ok (raw, l')) := by
      intro cr' esc' acc' l2 a2 hr h1'
      have hp := hp hr
      have a := ha.trans a2
      exact ih m cr' esc' acc' l2 a.inv
        (by have := a.input; have := a.bound; have := a2.le; simp [*]; omega) h1'
    dsimp only at h1 ⊢
    by_cases h92 : r = 92
    · subst h92
      simp only [if_true, if_neg (show ¬ (92 = 10) by decide), if_neg (show ¬ (92 = 13) by decide)] at h1 ⊢
      rcases e2 : l1.rd with ⟨r2, w2, l2⟩
      rw [e2] at h1
      obtain ⟨a2, -, -⟩ := rd_adv' e2 ha.inv
      dsimp only at h1 ⊢
      split
      · rename_i h34
        rw [if_pos h34] at h1
        have at2 := a2.trans (isTripQuotes_adv l2 a2.inv).1
        split
        · exact key _ _ _ _ at2 (by decide) h1
        · exact key _ _ _ _ at2 (by decide) h1
      · rename_i h34
        rw [if_neg h34] at h1
        exact key _ _ _ _ a2 (by decide) h1
    · rw [if_neg h92] at h1
      simp only [if_neg h92]
      by_cases h13 : r = 13
      · subst h13
        simp only [if_true, if_neg (show ¬ (13 = 10) by decide)] at h1 ⊢
        have hlen : l1.pos + 3 ≤ l1.input.length := by
          rcases blockPass1_total (n + l1.input.length + 1) true esc l1 ha.inv (by omega) with
            ⟨x, l'', e', a'⟩ | ⟨c', b', l'', e', a', p'⟩
          · exact (by
              have := blockPass1_mono n (n + l1.input.length + 1) true esc l1 (by omega) _ h1
              rw [this] at e'; cases e')
          · have := a'.bound; omega
        have : l1.pos + 1 < l1.input.length := by omega
        rw [List.getElem?_eq_getElem this]
        dsimp only
        exact key _ _ _ _ (Adv.refl ha.inv) (by decide) h1
      · rw [if_neg h13] at h1
        simp only [if_neg h13]
        split
        · rename_i h10
          subst h10
          simp only [if_neg (show ¬ (10 = 0) by decide), if_neg (show ¬ (10 = 34) by decide)] at h1
          simp only [Nat.reduceLT, ne_eq, Nat.reduceEqDiff, not_false_eq_true, not_true_eq_false, and_false,
            false_and, if_false] at h1
          exact key _ _ _ _ (Adv.refl ha.inv) (by decide) h1
        · split
          · rename_i h0; rw [if_pos h0] at h1; cases h1
          · rename_i h0
            rw [if_neg h0] at h1
            split at h1
            · cases h1
            · rename_i hlt
              by_cases h34 : r = 34
              · rw [if_pos h34] at h1 ⊢
                split at h1
                · rename_i ht
                  rw [if_pos ht]
                  cases h1
                  exact ⟨_, rfl⟩
                · rename_i ht
                  rw [if_neg ht]
                  exact key _ _ _ _ (isTripQuotes_adv l1 ha.inv).1 h0 h1
              · rw [if_neg h34] at h1 ⊢
                rw [if_neg hlt]
                exact key _ _ _ _ (Adv.refl ha.inv) h0 h1

theorem scanBlockString_total (l : Lexer) (h : l.pos ≤ l.input.length) :
    ∃ t l', scanBlockString l = .ret (t, l') ∧ Adv l l' := by
  unfold scanBlockString
  have hf : l.input.length - l.pos < l.fuel := by unfold Lexer.fuel; omega
  rcases blockPass1_total l.fuel false false l h hf with ⟨x, l', e, a⟩ | ⟨c, b, l', e, a, p⟩
  · rw [e]; exact ⟨_, _, rfl, a⟩
  · rw [e]; dsimp only
    split
    · rw [slice_some (by omega) (by have := a.bound; rw [a.input]; omega)]
      exact ⟨_, _, rfl, ⟨a.input, a.le, a.bound⟩⟩
    · obtain ⟨raw, e2⟩ := blockPass2_total _ l.fuel _ _ _ _ [] l l' h hf e
      rw [e2]
      exact ⟨_, _, rfl, ⟨a.input, a.le, a.bound⟩⟩

theorem scanF_total (n : Nat) (l : Lexer) (h : l.pos ≤ l.input.length)
    (hn : l.input.length - l.pos < n) :
    ∃ t l', scanF n l = .ret (t, l') ∧ Adv l l' ∧ (t.kind ≠ .eof → l.pos < l'.pos) := by
  induction n generalizing l with
  | zero => omega
  | succ n ih =>
    unfold scanF
    obtain ⟨r, w, l0, e, a, hw, p⟩ := readNextSignificant_total l.fuel false l h (by unfold Lexer.fuel; omega)
    rw [e]; dsimp only
    have wrap : ∀ x : Out (Token × Lexer), r ≠ 0 → (∃ t l', x = .ret (t, l') ∧ Adv l0 l') →
        ∃ t l', x = .ret (t, l') ∧ Adv l l' ∧ (t.kind ≠ .eof → l.pos < l'.pos) := by
      intro x hr ⟨t, l', e', a'⟩
      exact ⟨t, l', e', a.trans a', fun _ => by have := p hr; have := a'.le; omega⟩
    split
    · rename_i hc
      exact wrap _ (by rintro rfl; simp [isNameStart] at hc) (scanName_total l0 a.inv)
    · split
      · rename_i hc
        exact wrap _ (by rintro rfl; simp [isPunct] at hc) (scanPunctuator_total l0 r w a.inv)
      · split
        · rename_i hc
          exact wrap _ (by rintro rfl; simp [isDigit] at hc) (scanNumber_total l0 r a.inv)
        · split
          · have hlt := p (by omega)
            obtain ⟨l1, e1, a1⟩ := skipComment_total l0.fuel false l0 a.inv (by unfold Lexer.fuel; omega)
            rw [e1]; dsimp only
            have a01 := a.trans a1
            obtain ⟨t, l', e', a', p'⟩ := ih l1 a01.inv
              (by have := a01.input; have := a01.bound; have := a1.le; simp [*]; omega)
            exact ⟨t, l', e', a01.trans a', fun h => by have := p' h; have := a1.le; omega⟩
          · split
            · rcases e1 : l0.rd with ⟨r1, w1, l1⟩
              obtain ⟨a1, hw1, p1⟩ := rd_adv' e1 a.inv
              rcases e2 : l1.rd with ⟨r2, w2, l2⟩
              obtain ⟨a2, hw2, p2⟩ := rd_adv' e2 a1.inv
              dsimp only
              split
              · obtain ⟨t, l', e', a'⟩ := scanBlockString_total l2 (a1.trans a2).inv
                exact wrap _ (by omega) ⟨t, l', e', (a1.trans a2).trans a'⟩
              · have h3 : Adv l1 (l2.unread w2) := a2.unread hw2
                have h4 : Adv l0 ((l2.unread w2).unread w1) := (a1.trans h3).unread (by have := h3.le; omega)
                obtain ⟨t, l', e', a'⟩ := scanString_total _ h4.inv
                exact wrap _ (by omega) ⟨t, l', e', h4.trans a'⟩
            · split
              · exact ⟨_, _, rfl, a, by simp⟩
              · exact wrap _ (by assumption) ⟨_, _, rfl, Adv.refl a.inv⟩

end GQL
