/- The counting lexer returns what the lexer returns, and reads little. -/
import Verif.Model.Reads
import Verif.Proofs.LexTotal

namespace GQL

/-- From `c` to `c'` with at most `a` reads for each byte passed and `b` more. -/
structure CRun (a b : Nat) (c c' : CLexer) : Prop where
  adv : Adv c.l c'.l
  cost : c'.n + a * c.l.pos ≤ c.n + a * c'.l.pos + b

theorem crd_eq (c : CLexer) : c.l.rd = (c.rd.1, c.rd.2.1, c.rd.2.2.l) ∧ c.rd.2.2.n ≤ c.n + 2 := by
  unfold CLexer.rd Lexer.rd CLexer.read
  rcases e : c.l.read with ⟨r, w, l'⟩
  dsimp only
  split
  · exact ⟨rfl, Nat.le_refl _⟩
  · exact ⟨rfl, Nat.le_succ _⟩

theorem crd {c c' : CLexer} {r w : Nat} (e : c.rd = (r, w, c')) (h : c.l.pos ≤ c.l.input.length) :
    c.l.rd = (r, w, c'.l) ∧ Adv c.l c'.l ∧ c.l.pos + w ≤ c'.l.pos ∧ (r ≠ 0 → c.l.pos < c'.l.pos) ∧ c'.n ≤ c.n + 2 := by
  have hq := crd_eq c
  rw [e] at hq
  obtain ⟨h1, h2⟩ := hq
  obtain ⟨a, b, d⟩ := rd_adv' h1 h
  exact ⟨h1, a, b, d, h2⟩

theorem readNextSignificantC_run (k : Nat) (cr : Bool) (c : CLexer) (h : c.l.pos ≤ c.l.input.length)
    (hn : c.l.input.length - c.l.pos < k) :
    ∃ r w c', readNextSignificantC k cr c = .ret ((r, w), c') ∧ readNextSignificant k cr c.l = .ret (r, w, c'.l) ∧ CRun 2 2 c c' ∧
      c.l.pos + w ≤ c'.l.pos ∧ (r ≠ 0 → c.l.pos < c'.l.pos) := by
  induction k generalizing cr c with
  | zero => omega
  | succ k ih =>
    unfold readNextSignificantC readNextSignificant
    rcases e : c.rd with ⟨r, w, c1⟩
    obtain ⟨e1, ha, hw, hp, hc⟩ := crd e h
    rw [e1]
    have key : ∀ cr' (c2 : CLexer) (l2 : Lexer), c2.l = l2 → c2.n = c1.n → l2.pos = c1.l.pos → l2.input = c1.l.input → r ≠ 0 →
        ∃ r w c', readNextSignificantC k cr' c2 = .ret ((r, w), c') ∧ readNextSignificant k cr' l2 = .ret (r, w, c'.l) ∧ CRun 2 2 c c' ∧
          c.l.pos + w ≤ c'.l.pos ∧ (r ≠ 0 → c.l.pos < c'.l.pos) := by
      intro cr' c2 l2 hl hn2 hpos hin hr
      subst hl
      have h1 := hp hr
      have hb := ha.bound
      have hi := ha.input
      obtain ⟨r', w', c', f1, f2, f3, f4, f5⟩ := ih cr' c2 (by rw [hpos, hin, hi]; exact hb) (by rw [hpos, hin, hi]; omega)
      have g := f3.adv
      have g1 := f3.cost
      refine ⟨r', w', c', f1, f2, ⟨⟨by rw [g.input, hin, hi], by have := g.le; omega, by have := g.bound; rw [hin, hi] at this; exact this⟩, by omega⟩, by omega, fun _ => by have := g.le; omega⟩
    dsimp only
    split
    · exact key _ _ _ rfl rfl rfl rfl (by omega)
    · split
      · split
        · exact key _ _ _ rfl rfl rfl rfl (by omega)
        · exact key _ _ _ rfl rfl rfl rfl (by omega)
      · split
        · exact key _ _ _ rfl rfl rfl rfl (by omega)
        · exact ⟨r, w, c1, rfl, rfl, ⟨ha, by have := ha.le; omega⟩, hw, hp⟩

theorem scanNameLoopC_run (k : Nat) (c : CLexer) (h : c.l.pos ≤ c.l.input.length) (hn : c.l.input.length - c.l.pos < k) :
    ∃ c', scanNameLoopC k c = .ret c' ∧ scanNameLoop k c.l = .ret c'.l ∧ CRun 2 2 c c' := by
  induction k generalizing c with
  | zero => omega
  | succ k ih =>
    unfold scanNameLoopC scanNameLoop
    rcases e : c.rd with ⟨r, w, c1⟩
    obtain ⟨e1, ha, hw, hp, hc⟩ := crd e h
    rw [e1]
    have hle := ha.le
    dsimp only
    split
    · rename_i hnc
      have hr : r ≠ 0 := by intro h0; subst h0; exact absurd hnc (by decide)
      have h1 := hp hr
      have hb := ha.bound
      have hi := ha.input
      obtain ⟨c', f1, f2, f3⟩ := ih c1 (by rw [hi]; exact hb) (by rw [hi]; omega)
      have g1 := f3.cost
      exact ⟨c', f1, f2, ha.trans f3.adv, by omega⟩
    · split
      · exact ⟨c1, rfl, rfl, ha, by omega⟩
      · refine ⟨c1.unread w, rfl, rfl, ha.unread hw, ?_⟩
        show c1.n + 2 * c.l.pos ≤ c.n + 2 * (c1.l.pos - w) + 2
        omega

theorem scanNameC_run (c : CLexer) (h : c.l.pos ≤ c.l.input.length) :
    ∃ t c', scanNameC c = .ret (t, c') ∧ scanName c.l = .ret (t, c'.l) ∧ CRun 2 2 c c' := by
  obtain ⟨c', f1, f2, f3⟩ := scanNameLoopC_run c.l.fuel c h (by unfold Lexer.fuel; omega)
  unfold scanNameC scanName
  rw [f1, f2]
  have a := f3.adv
  dsimp only
  rw [slice_some (by have := a.le; omega) (by rw [a.input]; exact a.bound)]
  exact ⟨_, _, rfl, rfl, f3⟩

theorem scanPunctuatorC_run (c : CLexer) (r w : Nat) (h : c.l.pos ≤ c.l.input.length) :
    ∃ t c', scanPunctuatorC c r w = .ret (t, c') ∧ scanPunctuator c.l r w = .ret (t, c'.l) ∧ CRun 2 4 c c' := by
  unfold scanPunctuatorC scanPunctuator
  split
  · rcases e : c.rd with ⟨r2, w2, c2⟩
    obtain ⟨e1, ha, hw, hp, hc⟩ := crd e h
    rw [e1]
    dsimp only
    rcases e3 : c2.rd with ⟨r3, w3, c3⟩
    obtain ⟨e4, ha3, hw3, hp3, hc3⟩ := crd e3 ha.inv
    rw [e4]
    dsimp only
    have := ha.le
    have := ha3.le
    split
    · exact ⟨_, _, rfl, rfl, ha.trans ha3, by omega⟩
    · exact ⟨_, _, rfl, rfl, ha.trans ha3, by omega⟩
  · rw [slice_some (by omega) h]
    exact ⟨_, _, rfl, rfl, Adv.refl h, by omega⟩

theorem readDigitsLoopC_run (k : Nat) (c : CLexer) (h : c.l.pos ≤ c.l.input.length) (hn : c.l.input.length - c.l.pos < k) :
    ∃ r w c', readDigitsLoopC k c = .ret ((r, w), c') ∧ readDigitsLoop k c.l = .ret (r, w, c'.l) ∧ Adv c.l c'.l ∧ c.l.pos + w ≤ c'.l.pos ∧
      c'.n + 2 * c.l.pos + 2 * w ≤ c.n + 2 * c'.l.pos + 2 := by
  induction k generalizing c with
  | zero => omega
  | succ k ih =>
    unfold readDigitsLoopC readDigitsLoop
    rcases e : c.rd with ⟨r, w, c1⟩
    obtain ⟨e1, ha, hw, hp, hc⟩ := crd e h
    rw [e1]
    have hle := ha.le
    dsimp only
    split
    · rename_i hnc
      have hr : r ≠ 0 := by intro h0; subst h0; exact absurd hnc (by decide)
      have h1 := hp hr
      have hb := ha.bound
      have hi := ha.input
      obtain ⟨r', w', c', f1, f2, f3, f4, f5⟩ := ih c1 (by rw [hi]; exact hb) (by rw [hi]; omega)
      exact ⟨r', w', c', f1, f2, ha.trans f3, by omega, by omega⟩
    · exact ⟨r, w, c1, rfl, rfl, ha, hw, by omega⟩

theorem readDigitsC_run (c : CLexer) (r : Nat) (h : c.l.pos ≤ c.l.input.length) :
    (∃ e, readDigitsC c r = .ret (.error e, c) ∧ readDigits c.l r = .ret (.error e)) ∨
    ∃ r' w c', readDigitsC c r = .ret (.ok (r', w), c') ∧ readDigits c.l r = .ret (.ok (r', w, c'.l)) ∧ Adv c.l c'.l ∧ c.l.pos + w ≤ c'.l.pos ∧
      c'.n + 2 * c.l.pos + 2 * w ≤ c.n + 2 * c'.l.pos + 2 := by
  unfold readDigitsC readDigits
  split
  · obtain ⟨r', w', c', f1, f2, f3, f4⟩ := readDigitsLoopC_run c.l.fuel c h (by unfold Lexer.fuel; omega)
    rw [f1, f2]
    exact .inr ⟨_, _, _, rfl, rfl, f3, f4⟩
  · exact .inl ⟨_, rfl, rfl⟩

theorem numberEndC_run (c0 : CLexer) (f : Bool) (r w : Nat) (c : CLexer) (ha : Adv c0.l c.l) (hw : c0.l.pos + w ≤ c.l.pos) :
    ∃ t c', numberEndC c0 f r w c = .ret (t, c') ∧ numberEnd c0.l f r w c.l = .ret (t, c'.l) ∧ Adv c0.l c'.l ∧ c'.n = c.n ∧ c.l.pos ≤ c'.l.pos + w := by
  have main : ∀ c' : CLexer, Adv c0.l c'.l → c'.n = c.n → c.l.pos ≤ c'.l.pos + w → ∃ t c2,
      (match slice c'.l.input (c0.l.pos - 1) c'.l.pos with
        | none => Out.panic
        | some lit => .ret ((⟨if f then .floatValue else .intValue, lit, c'.l.line, c0.l.lpos⟩ : Token), c')) = .ret (t, c2) ∧
      (match slice c'.l.input (c0.l.pos - 1) c'.l.pos with
        | none => Out.panic
        | some lit => .ret ((⟨if f then .floatValue else .intValue, lit, c'.l.line, c0.l.lpos⟩ : Token), c'.l)) = .ret (t, c2.l) ∧
      Adv c0.l c2.l ∧ c2.n = c.n ∧ c.l.pos ≤ c2.l.pos + w := by
    intro c' a hn hp
    rw [slice_some (by have := a.le; omega) (by rw [a.input]; exact a.bound)]
    exact ⟨_, _, rfl, rfl, a, hn, hp⟩
  unfold numberEndC numberEnd
  by_cases hr : r = 0
  · simp only [hr, ne_eq, not_true_eq_false, if_false]
    exact main c ha rfl (Nat.le_add_right _ _)
  · simp only [hr, ne_eq, not_false_eq_true, if_true]
    exact main (c.unread w) (ha.unread hw) rfl (by show c.l.pos ≤ c.l.pos - w + w; omega)

theorem readIfC_run (b : Bool) (r : Nat) (c : CLexer) (h : c.l.pos ≤ c.l.input.length) :
    readIf b r c.l = ((readIfC b r c).1, (readIfC b r c).2.l) ∧ CRun 2 2 c (readIfC b r c).2 := by
  unfold readIf readIfC
  cases b
  · exact ⟨rfl, Adv.refl h, Nat.le_add_right _ _⟩
  · rcases e : c.rd with ⟨r2, w2, c2⟩
    obtain ⟨e1, ha, hw, hp, hc⟩ := crd e h
    rw [e1]
    exact ⟨rfl, ha, by have := ha.le; dsimp only; simp only [if_true]; omega⟩

theorem numberExpC_run (c0 : CLexer) (f : Bool) (r w q : Nat) (c : CLexer) (ha : Adv c0.l c.l) (hq : c0.l.pos ≤ q) (hw : q + w ≤ c.l.pos) :
    ∃ t c', numberExpC c0 f r w c = .ret (t, c') ∧ numberExp c0.l f r w c.l = .ret (t, c'.l) ∧ Adv c0.l c'.l ∧
      c'.n + 2 * q ≤ c.n + 2 * c'.l.pos + 6 := by
  unfold numberExpC numberExp
  split
  · rcases e : c.rd with ⟨r1, w1, c1⟩
    obtain ⟨e1, ha1, hw1, hp, hc⟩ := crd e ha.inv
    rw [e1]
    dsimp only
    obtain ⟨g1, g2⟩ := readIfC_run (decide (r1 = 43 ∨ r1 = 45)) r1 c1 ha1.inv
    rw [g1]
    dsimp only
    generalize readIfC (decide (r1 = 43 ∨ r1 = 45)) r1 c1 = s at g2 ⊢
    obtain ⟨a2, k2⟩ := g2
    have p1 := ha1.le
    have p2 := a2.le
    have aa := ha.trans (ha1.trans a2)
    rcases readDigitsC_run s.2 s.1 a2.inv with ⟨x, f1, f2⟩ | ⟨r3, w3, c3, f1, f2, f3, f4, f5⟩
    · rw [f1, f2]
      exact ⟨_, _, rfl, rfl, aa, by omega⟩
    · rw [f1, f2]
      dsimp only
      have p0 := ha.le
      obtain ⟨t, c', x1, x2, x3, x4, x5⟩ := numberEndC_run c0 true r3 w3 c3 (aa.trans f3) (by omega)
      exact ⟨t, c', x1, x2, x3, by omega⟩
  · obtain ⟨t, c', x1, x2, x3, x4, x5⟩ := numberEndC_run c0 f r w c ha (by omega)
    exact ⟨t, c', x1, x2, x3, by omega⟩

theorem numberFracC_run (c0 : CLexer) (r w q : Nat) (c : CLexer) (ha : Adv c0.l c.l) (hq : c0.l.pos ≤ q) (hw : q + w ≤ c.l.pos) :
    ∃ t c', numberFracC c0 r w c = .ret (t, c') ∧ numberFrac c0.l r w c.l = .ret (t, c'.l) ∧ Adv c0.l c'.l ∧
      c'.n + 2 * q ≤ c.n + 2 * c'.l.pos + 10 := by
  unfold numberFracC numberFrac
  split
  · rcases e : c.rd with ⟨r1, w1, c1⟩
    obtain ⟨e1, ha1, hw1, hp, hc⟩ := crd e ha.inv
    rw [e1]
    dsimp only
    have p1 := ha1.le
    rcases readDigitsC_run c1 r1 ha1.inv with ⟨x, f1, f2⟩ | ⟨r3, w3, c3, f1, f2, f3, f4, f5⟩
    · rw [f1, f2]
      exact ⟨_, _, rfl, rfl, ha.trans ha1, by omega⟩
    · rw [f1, f2]
      dsimp only
      have p0 := ha.le
      obtain ⟨t, c', x1, x2, x3, x4⟩ := numberExpC_run c0 true r3 w3 (c3.l.pos - w3) c3 (ha.trans (ha1.trans f3)) (by omega) (by omega)
      exact ⟨t, c', x1, x2, x3, by omega⟩
  · obtain ⟨t, c', x1, x2, x3, x4⟩ := numberExpC_run c0 false r w q c ha hq hw
    exact ⟨t, c', x1, x2, x3, by omega⟩

theorem scanNumberC_run (c : CLexer) (r0 : Nat) (h : c.l.pos ≤ c.l.input.length) :
    ∃ t c', scanNumberC c r0 = .ret (t, c') ∧ scanNumber c.l r0 = .ret (t, c'.l) ∧ CRun 2 14 c c' := by
  unfold scanNumberC scanNumber
  obtain ⟨g1, g2⟩ := readIfC_run (decide (r0 = 45)) r0 c h
  rw [g1]
  dsimp only
  generalize readIfC (decide (r0 = 45)) r0 c = s at g2 ⊢
  obtain ⟨a2, k2⟩ := g2
  have p2 := a2.le
  split
  · rcases e : s.2.rd with ⟨r1, w1, c1⟩
    obtain ⟨e1, ha1, hw1, hp, hc⟩ := crd e a2.inv
    rw [e1]
    dsimp only
    have p1 := ha1.le
    split
    · exact ⟨_, _, rfl, rfl, a2.trans ha1, by omega⟩
    · obtain ⟨t, c', x1, x2, x3, x4⟩ := numberFracC_run c r1 w1 (c1.l.pos - w1) c1 (a2.trans ha1) (by omega) (by omega)
      exact ⟨t, c', x1, x2, x3, by omega⟩
  · rcases readDigitsC_run s.2 s.1 a2.inv with ⟨x, f1, f2⟩ | ⟨r3, w3, c3, f1, f2, f3, f4, f5⟩
    · rw [f1, f2]
      exact ⟨_, _, rfl, rfl, a2, by omega⟩
    · rw [f1, f2]
      dsimp only
      obtain ⟨t, c', x1, x2, x3, x4⟩ := numberFracC_run c r3 w3 (c3.l.pos - w3) c3 (a2.trans f3) (by omega) (by omega)
      exact ⟨t, c', x1, x2, x3, by omega⟩

theorem skipCommentC_run (k : Nat) (cr : Bool) (c : CLexer) (h : c.l.pos ≤ c.l.input.length) (hn : c.l.input.length - c.l.pos < k) :
    ∃ c', skipCommentC k cr c = .ret c' ∧ skipComment k cr c.l = .ret c'.l ∧ CRun 2 2 c c' := by
  induction k generalizing cr c with
  | zero => omega
  | succ k ih =>
    unfold skipCommentC skipComment
    rcases e : c.rd with ⟨r, w, c1⟩
    obtain ⟨e1, ha, hw, hp, hc⟩ := crd e h
    rw [e1]
    have hle := ha.le
    have key : ∀ cr' (c2 : CLexer) (l2 : Lexer), c2.l = l2 → c2.n = c1.n → l2.pos = c1.l.pos → l2.input = c1.l.input → r ≠ 0 →
        ∃ c', skipCommentC k cr' c2 = .ret c' ∧ skipComment k cr' l2 = .ret c'.l ∧ CRun 2 2 c c' := by
      intro cr' c2 l2 hl hn2 hpos hin hr
      subst hl
      have h1 := hp hr
      have hb := ha.bound
      have hi := ha.input
      obtain ⟨c', f1, f2, f3⟩ := ih cr' c2 (by rw [hpos, hin, hi]; exact hb) (by rw [hpos, hin, hi]; omega)
      have g := f3.adv
      have g1 := f3.cost
      exact ⟨c', f1, f2, ⟨by rw [g.input, hin, hi], by have := g.le; omega, by have := g.bound; rw [hin, hi] at this; exact this⟩, by omega⟩
    dsimp only
    split
    · exact ⟨c1, rfl, rfl, ha, by omega⟩
    · rename_i hr
      split
      · exact ⟨_, rfl, rfl, ⟨ha.input, ha.le, ha.bound⟩, by dsimp only; omega⟩
      · split
        · refine ⟨_, rfl, rfl, ha.unread hw, ?_⟩
          show c1.n + 2 * c.l.pos ≤ c.n + 2 * (c1.l.pos - w) + 2
          omega
        · split
          · exact key _ _ _ rfl rfl rfl rfl hr
          · split
            · refine ⟨_, rfl, rfl, ⟨ha.input, ha.le, ha.bound⟩, ?_⟩
              show c1.n + 2 * c.l.pos ≤ c.n + 2 * c1.l.pos + 2
              omega
            · exact key _ _ _ rfl rfl rfl rfl hr

theorem rd_only (c : CLexer) (h : c.l.pos ≤ c.l.input.length) : c.l.rd.2.2 = c.rd.2.2.l ∧ Adv c.l c.rd.2.2.l ∧ c.rd.2.2.n ≤ c.n + 2 := by
  rcases e : c.rd with ⟨r, w, c1⟩
  obtain ⟨e1, ha, hw, hp, hc⟩ := crd e h
  exact ⟨by rw [e1], ha, hc⟩

theorem escapedCharC_run (c : CLexer) (h : c.l.pos ≤ c.l.input.length) :
    escapedChar c.l = ((escapedCharC c).1, (escapedCharC c).2.l) ∧ Adv c.l (escapedCharC c).2.l ∧ (escapedCharC c).2.n ≤ c.n + 10 := by
  unfold escapedCharC escapedChar
  rcases e : c.rd with ⟨r, w, c1⟩
  obtain ⟨e1, a1, -, -, h1⟩ := crd e h
  rw [e1]
  dsimp only
  cases simpleEscape r with
  | some x => exact ⟨rfl, a1, by dsimp only; omega⟩
  | none =>
    dsimp only
    split
    · rcases e2 : c1.rd with ⟨r2, w2, c2⟩
      obtain ⟨e2', a2, -, -, h2⟩ := crd e2 a1.inv
      rw [e2']
      dsimp only
      rcases e3 : c2.rd with ⟨r3, w3, c3⟩
      obtain ⟨e3', a3, -, -, h3⟩ := crd e3 a2.inv
      rw [e3']
      dsimp only
      rcases e4 : c3.rd with ⟨r4, w4, c4⟩
      obtain ⟨e4', a4, -, -, h4⟩ := crd e4 a3.inv
      rw [e4']
      dsimp only
      rcases e5 : c4.rd with ⟨r5, w5, c5⟩
      obtain ⟨e5', a5, -, -, h5⟩ := crd e5 a4.inv
      rw [e5']
      dsimp only
      have a := a1.trans (a2.trans (a3.trans (a4.trans a5)))
      cases unicodeCodePointToRune r2 r3 r4 r5 with
      | some x => exact ⟨rfl, a, by dsimp only; omega⟩
      | none => exact ⟨rfl, a, by dsimp only; omega⟩
    · exact ⟨rfl, a1, by dsimp only; omega⟩

/-- What the first loop of `scanString` gives, counted and not. -/
def pass1Erase : Except Nat Bool × CLexer → Except (Nat × Lexer) (Bool × Lexer)
  | (.error r, c) => .error (r, c.l)
  | (.ok b, c) => .ok (b, c.l)

theorem stringPass1C_run (k : Nat) (esc : Bool) (c : CLexer) (h : c.l.pos ≤ c.l.input.length) (hn : c.l.input.length - c.l.pos < k) :
    ∃ x c', stringPass1C k esc c = .ret (x, c') ∧ stringPass1 k esc c.l = .ret (pass1Erase (x, c')) ∧ CRun 12 2 c c' := by
  induction k generalizing esc c with
  | zero => omega
  | succ k ih =>
    unfold stringPass1C stringPass1
    rcases e : c.rd with ⟨r, w, c1⟩
    obtain ⟨e1, ha, hw, hp, hc⟩ := crd e h
    rw [e1]
    have hle := ha.le
    have key : ∀ esc' (c2 : CLexer), Adv c1.l c2.l → c2.n ≤ c1.n + 10 → r ≠ 0 →
        ∃ x c', stringPass1C k esc' c2 = .ret (x, c') ∧ stringPass1 k esc' c2.l = .ret (pass1Erase (x, c')) ∧ CRun 12 2 c c' := by
      intro esc' c2 a2 hn2 hr
      have h1 := hp hr
      have a := ha.trans a2
      have := a2.le
      obtain ⟨x, c', f1, f2, f3⟩ := ih esc' c2 a.inv (by have := a.input; have := a.bound; simp [*]; omega)
      have g1 := f3.cost
      exact ⟨x, c', f1, f2, a.trans f3.adv, by omega⟩
    dsimp only
    split
    · exact ⟨_, _, rfl, rfl, ha, by omega⟩
    · split
      · exact ⟨_, _, rfl, rfl, ha, by omega⟩
      · split
        · rcases e2 : c1.rd with ⟨r2, w2, c2⟩
          obtain ⟨e2', a2, -, -, h2⟩ := crd e2 ha.inv
          rw [e2']
          dsimp only
          split
          · obtain ⟨q3, a3, h3⟩ := rd_only c2 a2.inv
            obtain ⟨q4, a4, h4⟩ := rd_only _ a3.inv
            obtain ⟨q5, a5, h5⟩ := rd_only _ a4.inv
            obtain ⟨q6, a6, h6⟩ := rd_only _ a5.inv
            rw [q3, q4, q5, q6]
            exact key _ _ (a2.trans (a3.trans (a4.trans (a5.trans a6)))) (by omega) (by omega)
          · exact key _ _ a2 (by omega) (by omega)
        · exact key _ _ (Adv.refl ha.inv) (by omega) (by omega)

theorem stringPass2C_run (col line k : Nat) (acc : Bytes) (c : CLexer) (h : c.l.pos ≤ c.l.input.length) (hn : c.l.input.length - c.l.pos < k) :
    ∃ t c', stringPass2C col line k acc c = .ret (t, c') ∧ stringPass2 col line k acc c.l = .ret (t, c'.l) ∧ CRun 12 12 c c' := by
  induction k generalizing acc c with
  | zero => omega
  | succ k ih =>
    unfold stringPass2C stringPass2
    rcases e : c.rd with ⟨r, w, c1⟩
    obtain ⟨e1, ha, hw, hp, hc⟩ := crd e h
    rw [e1]
    have hle := ha.le
    have key : ∀ acc' (c2 : CLexer), Adv c1.l c2.l → c2.n ≤ c1.n + 10 → r ≠ 0 →
        ∃ t c', stringPass2C col line k acc' c2 = .ret (t, c') ∧ stringPass2 col line k acc' c2.l = .ret (t, c'.l) ∧ CRun 12 12 c c' := by
      intro acc' c2 a2 hn2 hr
      have h1 := hp hr
      have a := ha.trans a2
      have := a2.le
      obtain ⟨x, c', f1, f2, f3⟩ := ih acc' c2 a.inv (by have := a.input; have := a.bound; simp [*]; omega)
      have g1 := f3.cost
      exact ⟨x, c', f1, f2, a.trans f3.adv, by omega⟩
    dsimp only
    split
    · exact ⟨_, _, rfl, rfl, ha, by omega⟩
    · split
      · obtain ⟨g1, g2, g3⟩ := escapedCharC_run c1 ha.inv
        rw [g1]
        generalize escapedCharC c1 = x at g1 g2 g3 ⊢
        obtain ⟨y, c2⟩ := x
        cases y with
        | error er =>
          have := g2.le
          exact ⟨_, _, rfl, rfl, ha.trans g2, by dsimp only at *; omega⟩
        | ok v => exact key _ _ g2 g3 (by omega)
      · exact key _ _ (Adv.refl ha.inv) (by omega) (by omega)

/-- The two loops of `scanString` end at the same place, unless there is a bad escape. -/
theorem string_passes (n m : Nat) (esc b : Bool) (col line : Nat) (acc : Bytes) (l l' l2 : Lexer) (t : Token)
    (h1 : stringPass1 n esc l = .ret (.ok (b, l'))) (h2 : stringPass2 col line m acc l = .ret (t, l2)) : t.kind = .illegal ∨ l2 = l' := by
  induction n generalizing m esc acc l with
  | zero => cases h1
  | succ n ih =>
    cases m with
    | zero => cases h2
    | succ m =>
      unfold stringPass1 at h1
      unfold stringPass2 at h2
      rcases e : l.rd with ⟨r, w, l1⟩
      rw [e] at h1 h2
      dsimp only at h1 h2
      by_cases hr : r = 34
      · rw [if_pos hr] at h1
        rw [if_pos (.inl hr)] at h2
        cases h1
        cases h2
        exact .inr rfl
      · rw [if_neg hr] at h1
        by_cases hc : r < 32 ∧ r ≠ 9
        · rw [if_pos hc] at h1
          cases h1
        · rw [if_neg hc] at h1
          rw [if_neg (by omega)] at h2
          by_cases hb : r = 92
          · rw [if_pos hb] at h1 h2
            unfold escapedChar at h2
            rcases e2 : l1.rd with ⟨r2, w2, l3⟩
            rw [e2] at h1 h2
            dsimp only at h1 h2
            by_cases hu : r2 = 117
            · rw [if_pos hu] at h1
              subst hu
              have hs : simpleEscape 117 = none := by decide
              rw [hs] at h2
              dsimp only at h2
              rw [if_pos rfl] at h2
              rcases e3 : l3.rd with ⟨a, wa, l4⟩
              rw [e3] at h1 h2
              dsimp only at h1 h2
              rcases e4 : l4.rd with ⟨b', wb, l5⟩
              rw [e4] at h1 h2
              dsimp only at h1 h2
              rcases e5 : l5.rd with ⟨d, wd, l6⟩
              rw [e5] at h1 h2
              dsimp only at h1 h2
              rcases e6 : l6.rd with ⟨f, wf, l7⟩
              rw [e6] at h1 h2
              dsimp only at h1 h2
              rcases ex : unicodeCodePointToRune a b' d f with _ | x
              · rw [ex] at h2
                cases h2
                exact .inl rfl
              · rw [ex] at h2
                exact ih _ _ _ _ h1 h2
            · rw [if_neg hu] at h1
              rcases ex : simpleEscape r2 with _ | x
              · rw [ex] at h2
                dsimp only at h2
                rw [if_neg hu] at h2
                cases h2
                exact .inl rfl
              · rw [ex] at h2
                exact ih _ _ _ _ h1 h2
          · rw [if_neg hb] at h1 h2
            exact ih _ _ _ _ h1 h2

theorem scanStringC_run (c : CLexer) (h : c.l.pos ≤ c.l.input.length) :
    ∃ t c', scanStringC c = .ret (t, c') ∧ scanString c.l = .ret (t, c'.l) ∧ Adv c.l c'.l ∧
      c'.n ≤ c.n + 24 * (c.l.input.length - c.l.pos) + 14 ∧ (t.kind ≠ .illegal → CRun 24 14 c c') := by
  obtain ⟨x, c1, f1, f2, f3⟩ := stringPass1C_run c.l.fuel false c h (by unfold Lexer.fuel; omega)
  have a1 := f3.adv
  have k1 := f3.cost
  have b1 := a1.bound
  have p1 := a1.le
  unfold scanStringC scanString
  rw [f1, f2]
  cases x with
  | error r => exact ⟨_, _, rfl, rfl, a1, by omega, fun hk => absurd rfl hk⟩
  | ok b =>
    dsimp only [pass1Erase]
    cases b with
    | false =>
      simp only [Bool.false_eq_true, if_false]
      rcases stringPass1_total c.l.fuel false c.l h (by unfold Lexer.fuel; omega) with ⟨r, l', e, a⟩ | ⟨b, l', e, a, p⟩
      · rw [f2] at e; cases e
      · rw [f2] at e
        cases e
        rw [slice_some (by omega) (by rw [a1.input]; omega)]
        exact ⟨_, _, rfl, rfl, a1, by omega, fun _ => ⟨a1, by omega⟩⟩
    | true =>
      simp only [if_true]
      obtain ⟨t, c2, g1, g2, g3⟩ := stringPass2C_run c.l.lpos c.l.line c.l.fuel [] ⟨c.l, c1.n⟩ h (by unfold Lexer.fuel; dsimp only; omega)
      have a2 : Adv c.l c2.l := g3.adv
      have k2 : c2.n + 12 * c.l.pos ≤ c1.n + 12 * c2.l.pos + 12 := g3.cost
      have b2 := a2.bound
      refine ⟨t, c2, g1, g2, a2, by omega, fun hk => ⟨a2, ?_⟩⟩
      rcases string_passes _ _ _ _ _ _ _ _ _ _ _ f2 g2 with hi | he
      · exact absurd hi hk
      · rw [he] at k2 ⊢
        omega

theorem isTripQuotesC_run (c : CLexer) (h : c.l.pos ≤ c.l.input.length) :
    isTripQuotes c.l = ((isTripQuotesC c).1, (isTripQuotesC c).2.l) ∧ Adv c.l (isTripQuotesC c).2.l ∧ (isTripQuotesC c).2.n ≤ c.n + 4 := by
  have hadv := (isTripQuotes_adv c.l h).1
  have key : isTripQuotes c.l = ((isTripQuotesC c).1, (isTripQuotesC c).2.l) ∧ (isTripQuotesC c).2.n ≤ c.n + 4 := by
    unfold isTripQuotesC isTripQuotes
    rcases e : c.rd with ⟨r, w, c1⟩
    obtain ⟨e1, a1, -, -, h1⟩ := crd e h
    rw [e1]
    dsimp only
    rcases e2 : c1.rd with ⟨r2, w2, c2⟩
    obtain ⟨e2', a2, -, -, h2⟩ := crd e2 a1.inv
    rw [e2']
    dsimp only
    by_cases hq : r = 34 ∧ r2 = 34
    · rw [if_pos hq, if_pos hq]
      exact ⟨rfl, by dsimp only; omega⟩
    · rw [if_neg hq, if_neg hq]
      by_cases h1' : r = 0 <;> by_cases h2' : r2 = 0 <;> simp [h1', h2', CLexer.unread] <;> omega
  refine ⟨key.1, ?_, key.2⟩
  rw [key.1] at hadv
  exact hadv

/-- What the first loop of `scanBlockString` gives, counted and not. -/
def block1Erase : Except Bytes (Bool × Bool) × CLexer → Except (Bytes × Lexer) (Bool × Bool × Lexer)
  | (.error r, c) => .error (r, c.l)
  | (.ok (a, b), c) => .ok (a, b, c.l)

theorem blockPass1C_run (k : Nat) (cr esc : Bool) (c : CLexer) (h : c.l.pos ≤ c.l.input.length) (hn : c.l.input.length - c.l.pos < k) :
    ∃ x c', blockPass1C k cr esc c = .ret (x, c') ∧ blockPass1 k cr esc c.l = .ret (block1Erase (x, c')) ∧ CRun 8 8 c c' := by
  induction k generalizing cr esc c with
  | zero => omega
  | succ k ih =>
    unfold blockPass1C blockPass1
    rcases e : c.rd with ⟨r, w, c1⟩
    obtain ⟨e1, ha, hw, hp, hc⟩ := crd e h
    rw [e1]
    have hle := ha.le
    have key : ∀ cr' esc' (c2 : CLexer), Adv c1.l c2.l → c2.n ≤ c1.n + 6 → r ≠ 0 →
        ∃ x c', blockPass1C k cr' esc' c2 = .ret (x, c') ∧ blockPass1 k cr' esc' c2.l = .ret (block1Erase (x, c')) ∧ CRun 8 8 c c' := by
      intro cr' esc' c2 a2 hn2 hr
      have h1 := hp hr
      have a := ha.trans a2
      have := a2.le
      obtain ⟨x, c', f1, f2, f3⟩ := ih cr' esc' c2 a.inv (by have := a.input; have := a.bound; simp [*]; omega)
      have g1 := f3.cost
      exact ⟨x, c', f1, f2, a.trans f3.adv, by omega⟩
    dsimp only
    split
    · rcases e2 : c1.rd with ⟨r2, w2, c2⟩
      obtain ⟨e2', a2, -, -, h2⟩ := crd e2 ha.inv
      rw [e2']
      dsimp only
      split
      · obtain ⟨q1, q2, q3⟩ := isTripQuotesC_run c2 a2.inv
        rw [q1]
        exact key _ _ _ (a2.trans q2) (by omega) (by omega)
      · exact key _ _ _ a2 (by omega) (by omega)
    · split
      · exact key _ _ _ (Adv.refl ha.inv) (by omega) (by omega)
      · split
        · exact ⟨_, _, rfl, rfl, ha, by omega⟩
        · split
          · exact ⟨_, _, rfl, rfl, ha, by omega⟩
          · split
            · obtain ⟨q1, q2, q3⟩ := isTripQuotesC_run c1 ha.inv
              rw [q1]
              dsimp only
              split
              · have := q2.le
                exact ⟨_, _, rfl, rfl, ha.trans q2, by omega⟩
              · exact key _ _ _ q2 (by omega) (by assumption)
            · exact key _ _ _ (Adv.refl ha.inv) (by omega) (by assumption)

theorem blockPass2C_run (k : Nat) (acc raw : Bytes) (c : CLexer) (l' : Lexer) (h : c.l.pos ≤ c.l.input.length)
    (h2 : blockPass2 k acc c.l = .ret (.ok (raw, l'))) :
    ∃ c', blockPass2C k acc c = .ret (.ok raw, c') ∧ c'.l = l' ∧ CRun 8 8 c c' := by
  induction k generalizing acc c with
  | zero => cases h2
  | succ k ih =>
    unfold blockPass2C
    unfold blockPass2 at h2
    rcases e : c.rd with ⟨r, w, c1⟩
    obtain ⟨e1, ha, hw, hp, hc⟩ := crd e h
    rw [e1] at h2
    have hle := ha.le
    have key : ∀ acc' (c2 : CLexer), Adv c1.l c2.l → c2.n ≤ c1.n + 6 → r ≠ 0 → blockPass2 k acc' c2.l = .ret (.ok (raw, l')) →
        ∃ c', blockPass2C k acc' c2 = .ret (.ok raw, c') ∧ c'.l = l' ∧ CRun 8 8 c c' := by
      intro acc' c2 a2 hn2 hr hh
      have h1 := hp hr
      have a := ha.trans a2
      have := a2.le
      obtain ⟨c', f1, f2, f3⟩ := ih acc' c2 a.inv hh
      have g1 := f3.cost
      exact ⟨c', f1, f2, a.trans f3.adv, by omega⟩
    dsimp only at h2 ⊢
    by_cases h10 : r = 10
    · rw [if_pos h10] at h2 ⊢
      exact key _ _ (Adv.refl ha.inv) (by omega) (by omega) h2
    · rw [if_neg h10] at h2 ⊢
      by_cases h13 : r = 13
      · rw [if_pos h13] at h2 ⊢
        cases ei : c1.l.input[c1.l.pos + 1]? with
        | none => rw [ei] at h2; cases h2
        | some b =>
          rw [ei] at h2
          exact key _ _ (Adv.refl ha.inv) (by omega) (by omega) h2
      · rw [if_neg h13] at h2 ⊢
        by_cases h92 : r = 92
        · rw [if_pos h92] at h2 ⊢
          rcases e2 : c1.rd with ⟨r2, w2, c2⟩
          obtain ⟨e2', a2, -, -, h3⟩ := crd e2 ha.inv
          rw [e2'] at h2
          dsimp only at h2 ⊢
          by_cases h34 : r2 = 34
          · rw [if_pos h34] at h2 ⊢
            obtain ⟨q1, q2, q3⟩ := isTripQuotesC_run c2 a2.inv
            rw [q1] at h2
            dsimp only at h2
            cases ht : (isTripQuotesC c2).1 with
            | true =>
              rw [ht] at h2
              simp only [if_true] at h2 ⊢
              exact key _ _ (a2.trans q2) (by omega) (by omega) h2
            | false =>
              rw [ht] at h2
              simp only [Bool.false_eq_true, if_false] at h2 ⊢
              exact key _ _ (a2.trans q2) (by omega) (by omega) h2
          · rw [if_neg h34] at h2 ⊢
            exact key _ _ a2 (by omega) (by omega) h2
        · rw [if_neg h92] at h2 ⊢
          by_cases h0 : r = 0
          · rw [if_pos h0] at h2
            cases h2
          · rw [if_neg h0] at h2 ⊢
            by_cases h34 : r = 34
            · rw [if_pos h34] at h2 ⊢
              obtain ⟨q1, q2, q3⟩ := isTripQuotesC_run c1 ha.inv
              rw [q1] at h2
              dsimp only at h2
              cases ht : (isTripQuotesC c1).1 with
              | true =>
                rw [ht] at h2
                simp only [if_true] at h2 ⊢
                cases h2
                have := q2.le
                exact ⟨_, rfl, rfl, ha.trans q2, by omega⟩
              | false =>
                rw [ht] at h2
                simp only [Bool.false_eq_true, if_false] at h2 ⊢
                exact key _ _ q2 (by omega) (by omega) h2
            · rw [if_neg h34] at h2 ⊢
              by_cases hb : r < 32 ∧ r ≠ 9 ∧ r ≠ 10 ∧ r ≠ 13
              · rw [if_pos hb] at h2
                cases h2
              · rw [if_neg hb] at h2 ⊢
                exact key _ _ (Adv.refl ha.inv) (by omega) (by omega) h2

theorem scanBlockStringC_run (c : CLexer) (h : c.l.pos ≤ c.l.input.length) :
    ∃ t c', scanBlockStringC c = .ret (t, c') ∧ scanBlockString c.l = .ret (t, c'.l) ∧ CRun 16 16 c c' := by
  have hf : c.l.input.length - c.l.pos < c.l.fuel := by unfold Lexer.fuel; omega
  obtain ⟨x, c1, f1, f2, f3⟩ := blockPass1C_run c.l.fuel false false c h hf
  have a1 := f3.adv
  have k1 := f3.cost
  have p1 := a1.le
  unfold scanBlockStringC scanBlockString
  rw [f1, f2]
  cases x with
  | error r => exact ⟨_, _, rfl, rfl, a1, by omega⟩
  | ok b =>
    obtain ⟨cr, esc⟩ := b
    rcases blockPass1_total c.l.fuel false false c.l h hf with ⟨r, l', e, a⟩ | ⟨cr', b, l', e, a, p⟩
    · rw [f2] at e; cases e
    · have e' := e
      rw [f2] at e
      cases e
      dsimp only [block1Erase]
      by_cases hc : (!cr && !esc) = true
      · rw [if_pos hc, if_pos hc]
        rw [slice_some (by omega) (by rw [a1.input]; have := a1.bound; omega)]
        exact ⟨_, _, rfl, rfl, ⟨a1.input, a1.le, a1.bound⟩, by dsimp only; omega⟩
      · rw [if_neg hc, if_neg hc]
        obtain ⟨raw, g⟩ := blockPass2_total c.l.fuel c.l.fuel false false cr esc [] c.l c1.l h hf e'
        obtain ⟨c2, g1, g2, g3⟩ := blockPass2C_run c.l.fuel [] raw ⟨c.l, c1.n⟩ c1.l h g
        rw [g, g1]
        have k2 : c2.n + 8 * c.l.pos ≤ c1.n + 8 * c2.l.pos + 8 := g3.cost
        rw [← g2] at a1 k1 p1 ⊢
        exact ⟨_, _, rfl, rfl, ⟨a1.input, a1.le, a1.bound⟩, by dsimp only; omega⟩

/-- One call of `Scan`: what it returns is what the model says; if that is not an Illegal token, it takes at most 28 reads for each byte passed, and
28 more. -/
theorem scanFC_run (k : Nat) (c : CLexer) (h : c.l.pos ≤ c.l.input.length) (hn : c.l.input.length - c.l.pos < k) :
    ∃ t c', scanFC k c = .ret (t, c') ∧ scanF k c.l = .ret (t, c'.l) ∧ Adv c.l c'.l ∧ (t.kind ≠ .eof → c.l.pos < c'.l.pos) ∧
      c'.n ≤ c.n + 28 * (c.l.input.length - c.l.pos) + 28 ∧ (t.kind ≠ .illegal → CRun 28 28 c c') := by
  induction k generalizing c with
  | zero => omega
  | succ k ih =>
    obtain ⟨tt, ll, es, as, ps⟩ := scanF_total (k+1) c.l h hn
    suffices hs : ∃ t c', scanFC (k+1) c = .ret (t, c') ∧ scanF (k+1) c.l = .ret (t, c'.l) ∧
        c'.n ≤ c.n + 28 * (c.l.input.length - c.l.pos) + 28 ∧ (t.kind ≠ .illegal → c'.n + 28 * c.l.pos ≤ c.n + 28 * c'.l.pos + 28) by
      obtain ⟨t, c', s1, s2, s3, s4⟩ := hs
      rw [s2] at es
      obtain ⟨h1, h2⟩ := Prod.mk.inj (Out.ret.inj es)
      subst h1
      subst h2
      exact ⟨_, c', s1, s2, as, ps, s3, fun hk => ⟨as, s4 hk⟩⟩
    unfold scanFC scanF
    obtain ⟨r, w, c0, f1, f2, f3, f4, f5⟩ := readNextSignificantC_run c.l.fuel false c h (by unfold Lexer.fuel; omega)
    rw [f1, f2]
    have a0 := f3.adv
    have k0 := f3.cost
    have p0 := a0.le
    have b0 := a0.bound
    have i0 := a0.input
    have plain : ∀ {x : Out (Token × CLexer)} {y : Out (Token × Lexer)} {a b : Nat}, a ≤ 28 → b ≤ 26 →
        (∃ t c', x = .ret (t, c') ∧ y = .ret (t, c'.l) ∧ CRun a b c0 c') →
        ∃ t c', x = .ret (t, c') ∧ y = .ret (t, c'.l) ∧ c'.n ≤ c.n + 28 * (c.l.input.length - c.l.pos) + 28 ∧
          (t.kind ≠ .illegal → c'.n + 28 * c.l.pos ≤ c.n + 28 * c'.l.pos + 28) := by
      intro x y a b ha hb ⟨t, c', x1, x2, x3⟩
      have hx := x3.cost
      have hb2 := x3.adv.bound
      have hp2 := x3.adv.le
      obtain ⟨d, hd⟩ : ∃ d, c'.l.pos = c0.l.pos + d := ⟨c'.l.pos - c0.l.pos, by omega⟩
      have hm : a * d ≤ 28 * d := Nat.mul_le_mul_right d ha
      rw [hd, Nat.mul_add] at hx
      have : c'.n ≤ c0.n + 28 * d + b := by omega
      exact ⟨t, c', x1, x2, by rw [i0] at hb2; omega, fun _ => by omega⟩
    dsimp only
    split
    · exact plain (by omega) (by omega) (scanNameC_run c0 a0.inv)
    · split
      · exact plain (by omega) (by omega) (scanPunctuatorC_run c0 r w a0.inv)
      · split
        · exact plain (by omega) (by omega) (scanNumberC_run c0 r a0.inv)
        · split
          · rename_i h35
            have hlt := f5 (by omega)
            obtain ⟨c1, g1, g2, g3⟩ := skipCommentC_run c0.l.fuel false c0 a0.inv (by unfold Lexer.fuel; omega)
            rw [g1, g2]
            have a1 := g3.adv
            have k1 := g3.cost
            have p1 := a1.le
            have b1 := a1.bound
            rw [i0] at b1
            obtain ⟨t, c', q1, q2, q3, q4, q5, q6⟩ := ih c1 a1.inv (by rw [a1.input, i0]; omega)
            rw [a1.input, i0] at q5
            exact ⟨t, c', q1, q2, by omega, fun hk => by have := (q6 hk).cost; omega⟩
          · split
            · rename_i h34
              have hlt := f5 (by omega)
              rcases e1 : c0.rd with ⟨r1, w1, c1⟩
              obtain ⟨e1', a1, v1, -, h1⟩ := crd e1 a0.inv
              rw [e1']
              dsimp only
              rcases e2 : c1.rd with ⟨r2, w2, c2⟩
              obtain ⟨e2', a2, v2, -, h2⟩ := crd e2 a1.inv
              rw [e2']
              dsimp only
              have p1 := a1.le
              have p2 := a2.le
              split
              · obtain ⟨t, c', q1, q2, q3⟩ := scanBlockStringC_run c2 a2.inv
                have hx := q3.cost
                have hb2 := q3.adv.bound
                have hp2 := q3.adv.le
                rw [a2.input, a1.input, i0] at hb2
                exact ⟨t, c', q1, q2, by omega, fun _ => by omega⟩
              · have au : Adv c0.l ((c2.unread w2).unread w1).l := by
                  have x1 : Adv c1.l (c2.l.unread w2) := a2.unread v2
                  exact (a1.trans x1).unread (by have := x1.le; show c0.l.pos + w1 ≤ _; omega)
                obtain ⟨t, c', q1, q2, q3, q4, q5⟩ := scanStringC_run ((c2.unread w2).unread w1) au.inv
                have pu := au.le
                have nu : ((c2.unread w2).unread w1).n = c2.n := rfl
                have hp2 := q3.le
                have hb2 := q3.bound
                rw [au.input, i0] at q4 hb2
                exact ⟨t, c', q1, q2, by omega, fun hk => by have := (q5 hk).cost; omega⟩
            · split
              · exact ⟨_, _, rfl, rfl, by omega, fun _ => by omega⟩
              · exact ⟨_, _, rfl, rfl, by omega, fun _ => by omega⟩

end GQL
