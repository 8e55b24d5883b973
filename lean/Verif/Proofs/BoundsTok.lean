/-
Where the tokens are, in terms of the counters of the lexer (for C91).
-/
import Verif.Proofs.Bounds
import Verif.Props.C01

namespace GQL

/-- The token is on the line of the lexer before or after it, and not beyond the column after the one it starts at. -/
def Spot (l l' : Lexer) (t : Token) : Prop := (t.line = l.line ∨ t.line = l'.line) ∧ t.col ≤ (l.lpos : Int) + 1 ∧ -2 ≤ t.col

theorem Spot.here {l l' : Lexer} {t : Token} (h : t.line = l.line) (h2 : t.col = (l.lpos : Int)) : Spot l l' t :=
  ⟨.inl h, by omega, by omega⟩

theorem Spot.there {l l' : Lexer} {t : Token} (h : t.line = l'.line) (h2 : t.col = (l.lpos : Int)) : Spot l l' t :=
  ⟨.inr h, by omega, by omega⟩

theorem scanName_spot {l l' : Lexer} {t : Token} (e : scanName l = .ret (t, l')) : Spot l l' t := by
  unfold scanName at e
  cases h : scanNameLoop l.fuel l with
  | panic => rw [h] at e; cases e
  | oof => rw [h] at e; cases e
  | ret k =>
    rw [h] at e; dsimp only at e
    cases hs : slice k.input (l.pos - 1) k.pos with
    | none => rw [hs] at e; cases e
    | some x => rw [hs] at e; cases e; exact .there rfl rfl

theorem scanPunct_spot {l l' : Lexer} {r w : Nat} {t : Token} (e : scanPunctuator l r w = .ret (t, l')) : Spot l l' t := by
  unfold scanPunctuator at e
  by_cases q : r = 46
  · rw [if_pos q] at e
    rcases e1 : l.rd with ⟨r1, w1, l1⟩
    rcases e2 : l1.rd with ⟨r2, w2, l2⟩
    rw [e1] at e; dsimp only at e
    rw [e2] at e; dsimp only at e
    by_cases q1 : r1 ≠ 46 ∨ r2 ≠ 46
    · rw [if_pos q1] at e; cases e; exact .there rfl rfl
    · rw [if_neg q1] at e; cases e; exact .there rfl rfl
  · rw [if_neg q] at e
    cases hs : slice l.input (l.pos - w) l.pos with
    | none => rw [hs] at e; cases e
    | some x => rw [hs] at e; cases e; exact .here rfl rfl

theorem numberEnd_spot {l0 l l' : Lexer} {f : Bool} {r w : Nat} {t : Token} (e : numberEnd l0 f r w l = .ret (t, l')) : Spot l0 l' t := by
  unfold numberEnd at e
  dsimp only at e
  generalize (if r ≠ 0 then l.unread w else l) = k at e
  cases hs : slice k.input (l0.pos - 1) k.pos with
  | none => rw [hs] at e; cases e
  | some x => rw [hs] at e; cases e; exact .there rfl rfl

theorem numberExp_spot {l0 l l' : Lexer} {f : Bool} {r w : Nat} {t : Token} (e : numberExp l0 f r w l = .ret (t, l')) : Spot l0 l' t := by
  unfold numberExp at e
  by_cases q : r = 101 ∨ r = 69
  · rw [if_pos q] at e
    rcases e1 : l.rd with ⟨r1, w1, l1⟩
    rw [e1] at e; dsimp only at e
    generalize readIf _ r1 l1 = s at e
    cases h : readDigits s.2 s.1 with
    | panic => rw [h] at e; cases e
    | oof => rw [h] at e; cases e
    | ret x =>
      rw [h] at e
      cases x with
      | error m => cases e; exact .there rfl rfl
      | ok x => obtain ⟨a, b, c⟩ := x; exact numberEnd_spot e
  · rw [if_neg q] at e; exact numberEnd_spot e

theorem numberFrac_spot {l0 l l' : Lexer} {r w : Nat} {t : Token} (e : numberFrac l0 r w l = .ret (t, l')) : Spot l0 l' t := by
  unfold numberFrac at e
  by_cases q : r = 46
  · rw [if_pos q] at e
    rcases e1 : l.rd with ⟨r1, w1, l1⟩
    rw [e1] at e; dsimp only at e
    cases h : readDigits l1 r1 with
    | panic => rw [h] at e; cases e
    | oof => rw [h] at e; cases e
    | ret x =>
      rw [h] at e
      cases x with
      | error m => cases e; exact .there rfl rfl
      | ok x => obtain ⟨a, b, c⟩ := x; exact numberExp_spot e
  · rw [if_neg q] at e; exact numberExp_spot e

theorem scanNumber_spot {l l' : Lexer} {r : Nat} {t : Token} (e : scanNumber l r = .ret (t, l')) : Spot l l' t := by
  unfold scanNumber at e
  dsimp only at e
  generalize readIf (decide (r = 45)) r l = s at *
  by_cases q : s.1 = 48
  · rw [if_pos q] at e
    rcases e1 : s.2.rd with ⟨r1, w1, l1⟩
    rw [e1] at e; dsimp only at e
    by_cases q1 : isDigit r1 = true
    · rw [if_pos q1] at e; cases e; exact .there rfl rfl
    · rw [if_neg q1] at e; exact numberFrac_spot e
  · rw [if_neg q] at e
    cases h : readDigits s.2 s.1 with
    | panic => rw [h] at e; cases e
    | oof => rw [h] at e; cases e
    | ret x =>
      rw [h] at e
      cases x with
      | error m => cases e; exact .there rfl rfl
      | ok x => obtain ⟨a, b, c⟩ := x; exact numberFrac_spot e

theorem pass2_spot (col line : Nat) : ∀ (n : Nat) (acc : Bytes) {l l' : Lexer} {t : Token},
    stringPass2 col line n acc l = .ret (t, l') → t.line = line ∧ t.col = (col : Int) := by
  intro n
  induction n with
  | zero => intro acc l l' t e; cases e
  | succ n ih =>
    intro acc l l' t e
    unfold stringPass2 at e
    rcases e1 : l.rd with ⟨r, w, l1⟩
    rw [e1] at e; dsimp only at e
    by_cases q1 : r = 34 ∨ r = 0
    · rw [if_pos q1] at e; cases e; exact ⟨rfl, rfl⟩
    rw [if_neg q1] at e
    by_cases q3 : r = 92
    · rw [if_pos q3] at e
      rcases hec : escapedChar l1 with ⟨y, l2⟩
      rw [hec] at e
      cases y with
      | error m => cases e; exact ⟨rfl, rfl⟩
      | ok x => exact ih _ e
    · rw [if_neg q3] at e; exact ih _ e

theorem scanString_spot {l l' : Lexer} {t : Token} (e : scanString l = .ret (t, l')) : Spot l l' t := by
  unfold scanString at e
  cases h1 : stringPass1 l.fuel false l with
  | panic => rw [h1] at e; cases e
  | oof => rw [h1] at e; cases e
  | ret x =>
    rw [h1] at e
    cases x with
    | error y => obtain ⟨r, l1⟩ := y; cases e; exact .here rfl rfl
    | ok y =>
      obtain ⟨b, l1⟩ := y
      dsimp only at e
      cases b with
      | true =>
        simp only [if_true] at e
        have := pass2_spot _ _ _ _ e
        exact .here this.1 this.2
      | false =>
        simp only [Bool.false_eq_true, if_false] at e
        cases hs : slice l1.input l.pos (l1.pos - 1) with
        | none => rw [hs] at e; cases e
        | some x => rw [hs] at e; cases e; exact .here rfl rfl

theorem scanBlock_spot {l l' : Lexer} {t : Token} (e : scanBlockString l = .ret (t, l')) : Spot l l' t := by
  have here : ∀ {k : TokenKind} {x : Bytes}, Spot l l' ⟨k, x, l.line, (l.lpos : Int) - 2⟩ := by
    intro k x
    refine ⟨.inl rfl, ?_, ?_⟩
    · show (l.lpos : Int) - 2 ≤ _; omega
    · show _ ≤ (l.lpos : Int) - 2; omega
  unfold scanBlockString at e
  dsimp only at e
  cases h1 : blockPass1 l.fuel false false l with
  | panic => rw [h1] at e; cases e
  | oof => rw [h1] at e; cases e
  | ret x =>
    rw [h1] at e
    cases x with
    | error y => obtain ⟨r, l1⟩ := y; cases e; exact here
    | ok y =>
      obtain ⟨c, b, l1⟩ := y
      dsimp only at e
      by_cases q : (!c && !b) = true
      · rw [if_pos q] at e
        cases hs : slice l1.input l.pos (l1.pos - 3) with
        | none => rw [hs] at e; cases e
        | some raw => rw [hs] at e; cases e; exact here
      · rw [if_neg q] at e
        cases hs : blockPass2 l.fuel [] l with
        | panic => rw [hs] at e; cases e
        | oof => rw [hs] at e; cases e
        | ret x =>
          rw [hs] at e
          cases x with
          | error y => obtain ⟨m, l2⟩ := y; cases e; exact here
          | ok y => obtain ⟨raw, l2⟩ := y; cases e; exact here

/-- The token is on the line of one of the lexers on the way, and its column is at most one after that of one of them. -/
def SeenBy (l : Lexer) (t : Token) : Prop := (∃ m, Gr l m ∧ t.line = m.line) ∧ (∃ m, Gr l m ∧ t.col ≤ (m.lpos : Int) + 1) ∧ -2 ≤ t.col

theorem Spot.seen {l l0 l' : Lexer} {t : Token} (h : Spot l0 l' t) (g0 : Gr l l0) (g : Gr l l') : SeenBy l t := by
  obtain ⟨h1, h2, h3⟩ := h
  refine ⟨?_, ⟨_, g0, h2⟩, h3⟩
  rcases h1 with h1 | h1
  · exact ⟨_, g0, h1⟩
  · exact ⟨_, g, h1⟩

theorem SeenBy.after {l l0 : Lexer} {t : Token} (g0 : Gr l l0) (h : SeenBy l0 t) : SeenBy l t := by
  obtain ⟨⟨a, ha, ea⟩, ⟨b, hb, eb⟩, h3⟩ := h
  exact ⟨⟨a, g0.trans ha, ea⟩, ⟨b, g0.trans hb, eb⟩, h3⟩

theorem scanF_seen : ∀ (n : Nat) {l l' : Lexer} {t : Token}, l.pos ≤ l.input.length → scanF n l = .ret (t, l') → SeenBy l t := by
  intro n
  induction n with
  | zero => intro l l' t _ e; cases e
  | succ n ih =>
    intro l l' t h e
    have gl := scanF_gr _ h e
    unfold scanF at e
    cases hr : readNextSignificant l.fuel false l with
    | panic => rw [hr] at e; cases e
    | oof => rw [hr] at e; cases e
    | ret x =>
      obtain ⟨r, w, l0⟩ := x
      have g0 := rns_gr _ _ h hr
      rw [hr] at e
      dsimp only at e
      by_cases q1 : isNameStart r = true
      · rw [if_pos q1] at e; exact (scanName_spot e).seen g0 gl
      rw [if_neg q1] at e
      by_cases q2 : isPunct r = true
      · rw [if_pos q2] at e; exact (scanPunct_spot e).seen g0 gl
      rw [if_neg q2] at e
      by_cases q3 : isDigit r = true ∨ r = 45
      · rw [if_pos q3] at e; exact (scanNumber_spot e).seen g0 gl
      rw [if_neg q3] at e
      by_cases q4 : r = 35
      · rw [if_pos q4] at e
        cases hs : skipComment l0.fuel false l0 with
        | panic => rw [hs] at e; cases e
        | oof => rw [hs] at e; cases e
        | ret l1 =>
          rw [hs] at e
          have g1 := g0.trans (skipComment_gr _ _ g0.inv hs)
          exact SeenBy.after g1 (ih g1.inv e)
      rw [if_neg q4] at e
      by_cases q5 : r = 34
      · rw [if_pos q5] at e
        rcases e1 : l0.rd with ⟨r1, w1, l1⟩
        obtain ⟨g1, u1, p1, n1, -, c1⟩ := rd_gr e1 g0.inv
        rcases e2 : l1.rd with ⟨r2, w2, l2⟩
        obtain ⟨g2, u2, p2, n2, -, c2⟩ := rd_gr e2 g1.inv
        rw [e1] at e; dsimp only at e
        rw [e2] at e; dsimp only at e
        by_cases q6 : r1 = 34 ∧ r2 = 34
        · rw [if_pos q6] at e
          exact (scanBlock_spot e).seen (g0.trans (g1.trans g2)) gl
        · rw [if_neg q6] at e
          have hA := g1.trans g2
          have gg : Gr l0 ((l2.unread w2).unread w1) := by
            have b1 := u1.lpos; have b2 := u2.lpos; have hl1 := g1.lpos; have hl2 := g2.lpos
            have hi := hA.input; have hb := hA.bound
            refine ⟨hi, ?_, ?_, ?_, ?_⟩
            all_goals simp [Lexer.unread] at *
            all_goals omega
          exact (scanString_spot e).seen (g0.trans gg) gl
      rw [if_neg q5] at e
      have hh : Spot l0 l0 ⟨.eof, [], l0.line, l0.lpos + 1⟩ := by
        refine ⟨.inl rfl, ?_, ?_⟩
        · show (l0.lpos : Int) + 1 ≤ _; omega
        · show _ ≤ (l0.lpos : Int) + 1; omega
      by_cases q6 : r = 0
      · rw [if_pos q6] at e; cases e; exact hh.seen g0 g0
      · rw [if_neg q6] at e; cases e; exact Spot.seen (.here rfl rfl) g0 g0

theorem tokensF_seen : ∀ (n : Nat) {l0 l : Lexer} {ts : List Token}, Gr l0 l → tokensF n l = .ret ts → ∀ t ∈ ts, SeenBy l0 t := by
  intro n
  induction n with
  | zero => intro l0 l ts _ e; cases e
  | succ n ih =>
    intro l0 l ts h e t ht
    unfold tokensF at e
    cases hs : scan l with
    | panic => rw [hs] at e; cases e
    | oof => rw [hs] at e; cases e
    | ret x =>
      obtain ⟨u, l'⟩ := x
      rw [hs] at e
      dsimp only at e
      have hu := SeenBy.after h (scanF_seen _ h.inv hs)
      have hg := h.trans (scanF_gr _ h.inv hs)
      by_cases hk : u.kind = .eof ∨ u.kind = .illegal
      · rw [if_pos hk] at e; cases e
        rw [List.mem_singleton.1 ht]; exact hu
      · rw [if_neg hk] at e
        cases ht' : tokensF n l' with
        | panic => rw [ht'] at e; cases e
        | oof => rw [ht'] at e; cases e
        | ret us =>
          rw [ht'] at e; cases e
          rcases List.mem_cons.1 ht with rfl | ht
          · exact hu
          · exact ih hg ht' t ht

end GQL
