/-
The lexer on a text that ends with a line break, beside the lexer on the same text with more bytes
after it: strings and whole tokens (for C05 and C90).
-/
import Verif.Proofs.LexPrefix

namespace GQL

theorem Lf.adv {l l1 : Lexer} (h : Lf l) (a : Adv l l1) : Lf l1 := h.mk' a.input a.bound

theorem Lf.rd {l : Lexer} (h : Lf l) : Lf l.rd.2.2 := h.adv (rd_adv l h.le).1

/-- Either both lexers read the same, or the first is at the end. -/
theorem rd_or (Y : Bytes) {l : Lexer} (hl : Lf l) :
    (∃ r w l1, l.rd = (r, w, l1) ∧ (l.put Y).rd = (r, w, l1.put Y) ∧ Lf l1 ∧ (r ≠ 10 → l1.pos < l1.input.length)) ∨
    (l.pos = l.input.length ∧ l.rd = (0, 0, l)) := by
  rcases Nat.lt_or_ge l.pos l.input.length with h | h
  · obtain ⟨r, w, l1, e1, e2, hl1, -, -, -, h10⟩ := rd_put Y hl h
    exact .inl ⟨r, w, l1, e1, e2, hl1, h10⟩
  · have : l.pos = l.input.length := by have := hl.le; omega
    exact .inr ⟨this, rd_stuck this⟩

theorem rd_mid {l : Lexer} (hl : Lf l) (h : l.rd.2.2.pos < l.rd.2.2.input.length) : l.pos < l.input.length := by
  have a := (rd_adv l hl.le).1
  have h1 := a.le; have h2 := a.input; rw [h2] at h; omega

theorem pass1_stuck {n : Nat} {esc : Bool} {l : Lexer} (h : l.pos = l.input.length) {x} : stringPass1 n esc l ≠ .ret (.ok x) := by
  intro e
  cases n with
  | zero => cases e
  | succ n =>
    unfold stringPass1 at e
    rw [rd_stuck h] at e
    simp at e

theorem pass1_put (Y : Bytes) : ∀ (n m : Nat) (esc b : Bool) {l l0 : Lexer}, n ≤ m → Lf l → stringPass1 n esc l = .ret (.ok (b, l0)) →
    stringPass1 m esc (l.put Y) = .ret (.ok (b, l0.put Y)) ∧ Mid l0 := by
  intro n
  induction n with
  | zero => intro m esc b l l0 _ _ e; cases e
  | succ n ih =>
    intro m esc b l l0 hm hl e
    obtain ⟨m, rfl⟩ : ∃ k, m = k + 1 := ⟨m - 1, by omega⟩
    have hm' : n ≤ m := by omega
    rcases rd_or Y hl with ⟨r, w, l1, e1, e2, hl1, h10⟩ | ⟨h, -⟩
    rotate_left
    · exact absurd e (pass1_stuck h)
    unfold stringPass1 at e ⊢
    rw [e1] at e; rw [e2]
    dsimp only at e ⊢
    by_cases q1 : r = 34
    · rw [if_pos q1] at e ⊢; cases e; exact ⟨rfl, hl1, h10 (by omega)⟩
    rw [if_neg q1] at e ⊢
    by_cases q2 : r < 32 ∧ r ≠ 9
    · rw [if_pos q2] at e; cases e
    rw [if_neg q2] at e ⊢
    by_cases q3 : r = 92
    · rw [if_pos q3] at e ⊢
      obtain ⟨r2, w2, l2, e3, e4, hl2, -, -, -, h102⟩ := rd_put Y hl1 (h10 (by omega))
      rw [e3] at e; rw [e4]
      dsimp only at e ⊢
      by_cases q4 : r2 = 117
      · rw [if_pos q4] at e ⊢
        have p2 : l2.pos < l2.input.length := h102 (by omega)
        obtain ⟨r3, w3, l3, a3, b3, hl3, -⟩ := rd_put Y hl2 p2
        rw [a3] at e; rw [b3]
        dsimp only at e ⊢
        rcases rd_or Y hl3 with ⟨r4, w4, l4, a4, b4, hl4, -⟩ | ⟨h, a4⟩
        rotate_left
        · rw [a4] at e; dsimp only at e
          rw [a4] at e; dsimp only at e
          rw [a4] at e; dsimp only at e
          exact absurd e (pass1_stuck h)
        rw [a4] at e; rw [b4]
        dsimp only at e ⊢
        rcases rd_or Y hl4 with ⟨r5, w5, l5, a5, b5, hl5, -⟩ | ⟨h, a5⟩
        rotate_left
        · rw [a5] at e; dsimp only at e
          rw [a5] at e; dsimp only at e
          exact absurd e (pass1_stuck h)
        rw [a5] at e; rw [b5]
        dsimp only at e ⊢
        rcases rd_or Y hl5 with ⟨r6, w6, l6, a6, b6, hl6, -⟩ | ⟨h, a6⟩
        rotate_left
        · rw [a6] at e; dsimp only at e
          exact absurd e (pass1_stuck h)
        rw [a6] at e; rw [b6]
        exact ih m true b hm' hl6 e
      · rw [if_neg q4] at e ⊢
        exact ih m true b hm' hl2 e
    · rw [if_neg q3] at e ⊢
      exact ih m esc b hm' hl1 e

/-- An escape before the end, which is not an error, is read by both lexers. -/
theorem escapedChar_put (Y : Bytes) {l l2 : Lexer} {x : Nat} (hl : Mid l) (e : escapedChar l = (.ok x, l2)) :
    escapedChar (l.put Y) = (.ok x, l2.put Y) ∧ Mid l2 := by
  unfold escapedChar at e ⊢
  obtain ⟨r, w, l1, e1, e2, hl1, -, -, -, h10⟩ := rd_put Y hl.1 hl.2
  rw [e1] at e; rw [e2]
  dsimp only at e ⊢
  cases hs : simpleEscape r with
  | some y =>
    rw [hs] at e; dsimp only at e ⊢
    cases e
    refine ⟨rfl, hl1, h10 ?_⟩
    rintro rfl; rw [show simpleEscape 10 = none from by decide] at hs; cases hs
  | none =>
    rw [hs] at e; dsimp only at e ⊢
    by_cases q : r = 117
    rotate_left
    · rw [if_neg q] at e; cases e
    rw [if_pos q] at e ⊢
    have hx : ∀ {r : Nat}, hexRuneToInt r ≠ none → r ≠ 10 ∧ r ≠ 0 := by
      intro r hr
      constructor <;> (rintro rfl; exact hr (by decide))
    -- a group that is hexadecimal has no line break and does not reach the end
    have hu : ∀ {a b c d y}, unicodeCodePointToRune a b c d = some y →
        hexRuneToInt a ≠ none ∧ hexRuneToInt b ≠ none ∧ hexRuneToInt c ≠ none ∧ hexRuneToInt d ≠ none := by
      intro a b c d y hh
      unfold unicodeCodePointToRune at hh
      cases ha : hexRuneToInt a <;> cases hb : hexRuneToInt b <;> cases hc : hexRuneToInt c <;> cases hd : hexRuneToInt d <;>
        simp [ha, hb, hc, hd] at hh ⊢
    rcases g2 : l1.rd with ⟨a, wa, k2⟩
    rcases g3 : k2.rd with ⟨b, wb, k3⟩
    rcases g4 : k3.rd with ⟨c, wc, k4⟩
    rcases g5 : k4.rd with ⟨d, wd, k5⟩
    rw [g2] at e; dsimp only at e
    rw [g3] at e; dsimp only at e
    rw [g4] at e; dsimp only at e
    rw [g5] at e; dsimp only at e
    cases hc : unicodeCodePointToRune a b c d with
    | none => rw [hc] at e; cases e
    | some y =>
      rw [hc] at e; cases e
      obtain ⟨ha, hb, hcc, hd⟩ := hu hc
      have step : ∀ {k k' : Lexer} {s ws}, Lf k → k.rd = (s, ws, k') → hexRuneToInt s ≠ none → (k.put Y).rd = (s, ws, k'.put Y) ∧ Mid k' := by
        intro k k' s ws hk ek hs
        rcases rd_or Y hk with ⟨r', w', l', e', e'', hl', h10'⟩ | ⟨-, e'⟩
        · rw [e'] at ek; cases ek
          exact ⟨e'', hl', h10' (hx hs).1⟩
        · rw [e'] at ek; cases ek
          exact absurd rfl (hx hs).2
      obtain ⟨s2, m2⟩ := step hl1 g2 ha
      obtain ⟨s3, m3⟩ := step m2.1 g3 hb
      obtain ⟨s4, m4⟩ := step m3.1 g4 hcc
      obtain ⟨s5, m5⟩ := step m4.1 g5 hd
      rw [s2]; dsimp only
      rw [s3]; dsimp only
      rw [s4]; dsimp only
      rw [s5]; dsimp only
      rw [hc]
      exact ⟨rfl, m5⟩

/-- The two loops over a string read the same escapes. -/
theorem escapedChar_pass {l l2 : Lexer} {x : Nat} (e : escapedChar l = (.ok x, l2)) :
    ∃ r w l1, l.rd = (r, w, l1) ∧ (r = 117 → l2 = l1.rd.2.2.rd.2.2.rd.2.2.rd.2.2) ∧ (r ≠ 117 → l2 = l1) := by
  unfold escapedChar at e
  rcases e1 : l.rd with ⟨r, w, l1⟩
  rw [e1] at e
  refine ⟨r, w, l1, rfl, ?_, ?_⟩
  · intro h; subst h
    have : simpleEscape 117 = none := by decide
    dsimp only at e
    rw [this] at e; dsimp only at e
    rw [if_pos rfl] at e
    rcases g2 : l1.rd with ⟨a, wa, k2⟩
    rcases g3 : k2.rd with ⟨b, wb, k3⟩
    rcases g4 : k3.rd with ⟨c, wc, k4⟩
    rcases g5 : k4.rd with ⟨d, wd, k5⟩
    rw [g2] at e; dsimp only at e ⊢
    rw [g3] at e; dsimp only at e ⊢
    rw [g4] at e; dsimp only at e ⊢
    rw [g5] at e; dsimp only at e ⊢
    cases hc : unicodeCodePointToRune a b c d with
    | none => rw [hc] at e; cases e
    | some y => rw [hc] at e; cases e; rfl
  · intro h
    dsimp only at e
    cases hs : simpleEscape r with
    | some y => rw [hs] at e; cases e; rfl
    | none => rw [hs] at e; dsimp only at e; rw [if_neg h] at e; cases e

theorem pass2_put (Y : Bytes) (col line : Nat) : ∀ (n m : Nat) (acc : Bytes) {l l' : Lexer} {t : Token}, n ≤ m → Lf l →
    stringPass2 col line n acc l = .ret (t, l') → t.kind ≠ .illegal →
    (∃ k esc x, stringPass1 k esc l = .ret (.ok x)) →
    stringPass2 col line m acc (l.put Y) = .ret (t, l'.put Y) ∧ Lf l' := by
  intro n
  induction n with
  | zero => intro m acc l l' t _ _ e; cases e
  | succ n ih =>
    intro m acc l l' t hm hl e hk hex
    obtain ⟨k, esc, x, hx⟩ := hex
    obtain ⟨m, rfl⟩ : ∃ k, m = k + 1 := ⟨m - 1, by omega⟩
    have hm' : n ≤ m := by omega
    rcases rd_or Y hl with ⟨r, w, l1, e1, e2, hl1, h10⟩ | ⟨h, -⟩
    rotate_left
    · exact absurd hx (pass1_stuck h)
    obtain ⟨k, rfl⟩ : ∃ j, k = j + 1 := by
      cases k with
      | zero => cases hx
      | succ j => exact ⟨j, rfl⟩
    unfold stringPass1 at hx
    unfold stringPass2 at e ⊢
    rw [e1] at e hx; rw [e2]
    dsimp only at e hx ⊢
    by_cases q1 : r = 34
    · rw [if_pos (.inl q1)] at e ⊢; cases e; exact ⟨rfl, hl1⟩
    rw [if_neg q1] at hx
    by_cases q2 : r < 32 ∧ r ≠ 9
    · rw [if_pos q2] at hx; cases hx
    rw [if_neg q2] at hx
    have q0 : ¬ (r = 34 ∨ r = 0) := by omega
    rw [if_neg q0] at e ⊢
    by_cases q3 : r = 92
    · rw [if_pos q3] at e hx ⊢
      rcases hec : escapedChar l1 with ⟨y, l2⟩
      rw [hec] at e
      cases y with
      | error m => cases e; exact absurd rfl hk
      | ok y =>
        obtain ⟨g1, g2⟩ := escapedChar_put Y ⟨hl1, h10 (by omega)⟩ hec
        rw [g1]
        dsimp only at e ⊢
        refine ih m _ hm' g2.1 e hk ?_
        obtain ⟨r2, w2, l3, e3, c1, c2⟩ := escapedChar_pass hec
        rw [e3] at hx
        dsimp only at hx
        by_cases q4 : r2 = 117
        · rw [if_pos q4, ← c1 q4] at hx; exact ⟨_, _, _, hx⟩
        · rw [if_neg q4, ← c2 q4] at hx; exact ⟨_, _, _, hx⟩
    · rw [if_neg q3] at e hx ⊢
      exact ih m _ hm' hl1 e hk ⟨_, _, _, hx⟩

theorem scanString_put (Y : Bytes) {l l' : Lexer} {t : Token} (hl : Lf l) (e : scanString l = .ret (t, l')) (hk : t.kind ≠ .illegal) :
    scanString (l.put Y) = .ret (t, l'.put Y) ∧ Lf l' := by
  unfold scanString at e ⊢
  cases h : stringPass1 l.fuel false l with
  | panic => rw [h] at e; cases e
  | oof => rw [h] at e; cases e
  | ret x =>
    cases x with
    | error y => rw [h] at e; cases e; exact absurd rfl hk
    | ok y =>
      obtain ⟨b, l0⟩ := y
      obtain ⟨h1, h2⟩ := pass1_put Y l.fuel (l.put Y).fuel false b (fuel_put Y l) hl h
      rw [h] at e; rw [h1]
      dsimp only at e ⊢
      cases b with
      | true =>
        simp only [if_true] at e ⊢
        exact pass2_put Y _ _ _ _ _ (fuel_put Y l) hl e hk ⟨_, _, _, h⟩
      | false =>
        simp only [Bool.false_eq_true, if_false] at e ⊢
        cases hs : slice l0.input l.pos (l0.pos - 1) with
        | none => rw [hs] at e; cases e
        | some x =>
          have : slice (l0.put Y).input (l.put Y).pos ((l0.put Y).pos - 1) = some x := slice_put hs
          rw [hs] at e; rw [this]
          cases e
          exact ⟨rfl, h2.1⟩

/-- Looking for two more quotes: both lexers see the same, or the first ends up at the end. -/
theorem trip_put (Y : Bytes) {l : Lexer} (hl : Mid l) :
    (isTripQuotes (l.put Y) = ((isTripQuotes l).1, (isTripQuotes l).2.put Y) ∧ Lf (isTripQuotes l).2) ∨
    ((isTripQuotes l).1 = false ∧ (isTripQuotes l).2.pos = (isTripQuotes l).2.input.length) := by
  unfold isTripQuotes
  obtain ⟨r, w, l1, e1, e2, hl1, -, -, -, h10⟩ := rd_put Y hl.1 hl.2
  rw [e1, e2]
  dsimp only
  rcases rd_or Y hl1 with ⟨r2, w2, l2, e3, e4, hl2, -⟩ | ⟨h, e3⟩
  · left
    rw [e3, e4]
    dsimp only
    by_cases q : r = 34 ∧ r2 = 34
    · simp only [if_pos q]; exact ⟨trivial, hl2⟩
    · simp only [if_neg q]
      by_cases q1 : r ≠ 0 <;> by_cases q2 : r2 ≠ 0
      · simp only [if_pos q1, if_pos q2]; exact ⟨rfl, (hl2.unread _).unread _⟩
      · simp only [if_pos q1, if_neg q2]; exact ⟨rfl, hl2.unread _⟩
      · simp only [if_neg q1, if_pos q2]; exact ⟨rfl, hl2.unread _⟩
      · simp only [if_neg q1, if_neg q2]; exact ⟨trivial, hl2⟩
  · right
    rw [e3]
    dsimp only
    rw [if_neg (by omega)]
    dsimp only
    rw [if_neg (by decide)]
    refine ⟨rfl, ?_⟩
    by_cases q1 : r ≠ 0
    · rw [if_pos q1]; exact h
    · rw [if_neg q1]; exact h

theorem block1_end {n : Nat} {c e : Bool} {l : Lexer} (h : l.pos = l.input.length) {x} : blockPass1 n c e l ≠ .ret (.ok x) := by
  intro e
  cases n with
  | zero => cases e
  | succ n => unfold blockPass1 at e; rw [rd_stuck h] at e; simp at e

theorem block2_end {n : Nat} {acc : Bytes} {l : Lexer} (h : l.pos = l.input.length) {x} : blockPass2 n acc l ≠ .ret (.ok x) := by
  intro e
  cases n with
  | zero => cases e
  | succ n => unfold blockPass2 at e; rw [rd_stuck h] at e; simp at e

theorem block1_put (Y : Bytes) : ∀ (n m : Nat) (c b c' b' : Bool) {l l0 : Lexer}, n ≤ m → Lf l → blockPass1 n c b l = .ret (.ok (c', b', l0)) →
    blockPass1 m c b (l.put Y) = .ret (.ok (c', b', l0.put Y)) ∧ Lf l0 := by
  intro n
  induction n with
  | zero => intro m c b c' b' l l0 _ _ e; cases e
  | succ n ih =>
    intro m c b c' b' l l0 hm hl e
    obtain ⟨m, rfl⟩ : ∃ k, m = k + 1 := ⟨m - 1, by omega⟩
    have hm' : n ≤ m := by omega
    rcases rd_or Y hl with ⟨r, w, l1, e1, e2, hl1, h10⟩ | ⟨h, -⟩
    rotate_left
    · exact absurd e (block1_end h)
    unfold blockPass1 at e ⊢
    rw [e1] at e; rw [e2]
    dsimp only at e ⊢
    by_cases q1 : r = 92
    · rw [if_pos q1] at e ⊢
      obtain ⟨r2, w2, l2, e3, e4, hl2, -, -, -, h102⟩ := rd_put Y hl1 (h10 (by omega))
      rw [e3] at e; rw [e4]
      dsimp only at e ⊢
      by_cases q2 : r2 = 34
      · rw [if_pos q2] at e ⊢
        rcases trip_put Y ⟨hl2, h102 (by omega)⟩ with ⟨g1, g2⟩ | ⟨-, g2⟩
        · rw [g1]; exact ih m _ _ _ _ hm' g2 e
        · exact absurd e (block1_end g2)
      · rw [if_neg q2] at e ⊢; exact ih m _ _ _ _ hm' hl2 e
    rw [if_neg q1] at e ⊢
    by_cases q2 : r = 13
    · rw [if_pos q2] at e ⊢; exact ih m _ _ _ _ hm' hl1 e
    rw [if_neg q2] at e ⊢
    by_cases q3 : r = 0
    · rw [if_pos q3] at e; cases e
    rw [if_neg q3] at e ⊢
    by_cases q4 : r < 32 ∧ r ≠ 9 ∧ r ≠ 10 ∧ r ≠ 13
    · rw [if_pos q4] at e; cases e
    rw [if_neg q4] at e ⊢
    by_cases q5 : r = 34
    · rw [if_pos q5] at e ⊢
      rcases trip_put Y ⟨hl1, h10 (by omega)⟩ with ⟨g1, g2⟩ | ⟨g1, g2⟩
      · rw [g1]
        dsimp only
        by_cases q6 : (isTripQuotes l1).1 = true
        · rw [if_pos q6] at e ⊢; cases e; exact ⟨rfl, g2⟩
        · rw [if_neg q6] at e ⊢; exact ih m _ _ _ _ hm' g2 e
      · rw [if_neg (by rw [g1]; decide)] at e
        exact absurd e (block1_end g2)
    · rw [if_neg q5] at e ⊢; exact ih m _ _ _ _ hm' hl1 e

theorem block2_put (Y : Bytes) : ∀ (n m : Nat) (acc raw : Bytes) {l l0 : Lexer}, n ≤ m → Lf l → blockPass2 n acc l = .ret (.ok (raw, l0)) →
    blockPass2 m acc (l.put Y) = .ret (.ok (raw, l0.put Y)) ∧ Lf l0 := by
  intro n
  induction n with
  | zero => intro m acc raw l l0 _ _ e; cases e
  | succ n ih =>
    intro m acc raw l l0 hm hl e
    obtain ⟨m, rfl⟩ : ∃ k, m = k + 1 := ⟨m - 1, by omega⟩
    have hm' : n ≤ m := by omega
    rcases rd_or Y hl with ⟨r, w, l1, e1, e2, hl1, h10⟩ | ⟨h, -⟩
    rotate_left
    · exact absurd e (block2_end h)
    unfold blockPass2 at e ⊢
    rw [e1] at e; rw [e2]
    dsimp only at e ⊢
    by_cases q1 : r = 10
    · rw [if_pos q1] at e ⊢; exact ih m _ _ hm' hl1 e
    rw [if_neg q1] at e ⊢
    by_cases q2 : r = 13
    · rw [if_pos q2] at e ⊢
      cases hg : l1.input[l1.pos + 1]? with
      | none => rw [hg] at e; cases e
      | some y =>
        have : (l1.put Y).input[(l1.put Y).pos + 1]? = some y := by
          have hlt : l1.pos + 1 < l1.input.length := by
            rcases Nat.lt_or_ge (l1.pos + 1) l1.input.length with q | q
            · exact q
            · rw [List.getElem?_eq_none q] at hg; cases hg
          show (l1.input ++ Y)[l1.pos + 1]? = _
          rw [List.getElem?_append_left hlt, hg]
        rw [hg] at e; rw [this]
        exact ih m _ _ hm' hl1 e
    rw [if_neg q2] at e ⊢
    by_cases q3 : r = 92
    · rw [if_pos q3] at e ⊢
      obtain ⟨r2, w2, l2, e3, e4, hl2, -, -, -, h102⟩ := rd_put Y hl1 (h10 (by omega))
      rw [e3] at e; rw [e4]
      dsimp only at e ⊢
      by_cases q4 : r2 = 34
      · rw [if_pos q4] at e ⊢
        rcases trip_put Y ⟨hl2, h102 (by omega)⟩ with ⟨g1, g2⟩ | ⟨g1, g2⟩
        · rw [g1]
          dsimp only
          by_cases q6 : (isTripQuotes l2).1 = true
          · rw [if_pos q6] at e ⊢; exact ih m _ _ hm' g2 e
          · rw [if_neg q6] at e ⊢; exact ih m _ _ hm' g2 e
        · rw [if_neg (by rw [g1]; decide)] at e
          exact absurd e (block2_end g2)
      · rw [if_neg q4] at e ⊢; exact ih m _ _ hm' hl2 e
    rw [if_neg q3] at e ⊢
    by_cases q4 : r = 0
    · rw [if_pos q4] at e; cases e
    rw [if_neg q4] at e ⊢
    by_cases q5 : r = 34
    · rw [if_pos q5] at e ⊢
      rcases trip_put Y ⟨hl1, h10 (by omega)⟩ with ⟨g1, g2⟩ | ⟨g1, g2⟩
      · rw [g1]
        dsimp only
        by_cases q6 : (isTripQuotes l1).1 = true
        · rw [if_pos q6] at e ⊢; cases e; exact ⟨rfl, g2⟩
        · rw [if_neg q6] at e ⊢; exact ih m _ _ hm' g2 e
      · rw [if_neg (by rw [g1]; decide)] at e
        exact absurd e (block2_end g2)
    rw [if_neg q5] at e ⊢
    by_cases q6 : r < 32 ∧ r ≠ 9 ∧ r ≠ 10 ∧ r ≠ 13
    · rw [if_pos q6] at e; cases e
    · rw [if_neg q6] at e ⊢; exact ih m _ _ hm' hl1 e

theorem scanBlock_put (Y : Bytes) {l l' : Lexer} {t : Token} (hl : Lf l) (e : scanBlockString l = .ret (t, l')) (hk : t.kind ≠ .illegal) :
    scanBlockString (l.put Y) = .ret (t, l'.put Y) ∧ Lf l' := by
  unfold scanBlockString at e ⊢
  dsimp only at e ⊢
  cases h : blockPass1 l.fuel false false l with
  | panic => rw [h] at e; cases e
  | oof => rw [h] at e; cases e
  | ret x =>
    cases x with
    | error y => rw [h] at e; cases e; exact absurd rfl hk
    | ok y =>
      obtain ⟨c, b, l0⟩ := y
      obtain ⟨h1, h2⟩ := block1_put Y l.fuel (l.put Y).fuel false false c b (fuel_put Y l) hl h
      rw [h] at e; rw [h1]
      dsimp only at e ⊢
      by_cases q : (!c && !b) = true
      · rw [if_pos q] at e ⊢
        cases hs : slice l0.input l.pos (l0.pos - 3) with
        | none => rw [hs] at e; cases e
        | some x =>
          have : slice (l0.put Y).input (l.put Y).pos ((l0.put Y).pos - 3) = some x := slice_put hs
          rw [hs] at e; rw [this]
          cases e
          exact ⟨rfl, h2.le, h2.lf⟩
      · rw [if_neg q] at e ⊢
        cases hs : blockPass2 l.fuel [] l with
        | panic => rw [hs] at e; cases e
        | oof => rw [hs] at e; cases e
        | ret x =>
          cases x with
          | error y => rw [hs] at e; cases e; exact absurd rfl hk
          | ok y =>
            obtain ⟨raw, l2⟩ := y
            obtain ⟨g1, g2⟩ := block2_put Y l.fuel (l.put Y).fuel [] raw (fuel_put Y l) hl hs
            rw [hs] at e; rw [g1]
            cases e
            exact ⟨rfl, g2.le, g2.lf⟩

/-- A token that is neither EOF nor Illegal is scanned in the same way whatever comes after the line break. -/
theorem scanF_put (Y : Bytes) : ∀ (n m : Nat) {l l' : Lexer} {t : Token}, n ≤ m → Lf l → scanF n l = .ret (t, l') →
    t.kind ≠ .illegal → t.kind ≠ .eof → scanF m (l.put Y) = .ret (t, l'.put Y) ∧ Lf l' := by
  intro n
  induction n with
  | zero => intro m l l' t _ _ e; cases e
  | succ n ih =>
    intro m l l' t hm hl e hk hk'
    obtain ⟨m, rfl⟩ : ∃ k, m = k + 1 := ⟨m - 1, by omega⟩
    have hm' : n ≤ m := by omega
    unfold scanF at e ⊢
    cases h : readNextSignificant l.fuel false l with
    | panic => rw [h] at e; cases e
    | oof => rw [h] at e; cases e
    | ret x =>
      obtain ⟨r, w, l0⟩ := x
      rw [h] at e
      dsimp only at e
      by_cases h0 : r = 0
      · subst h0
        rw [if_neg (by decide), if_neg (by decide), if_neg (by decide), if_neg (by decide), if_neg (by decide), if_pos rfl] at e
        cases e; exact absurd rfl hk'
      obtain ⟨h1, h2, -⟩ := rns_put Y l.fuel (l.put Y).fuel false (fuel_put Y l) hl h h0
      rw [h1]
      dsimp only
      by_cases q1 : isNameStart r = true
      · rw [if_pos q1] at e ⊢; exact scanName_put Y h2 e
      rw [if_neg q1] at e ⊢
      by_cases q2 : isPunct r = true
      · rw [if_pos q2] at e ⊢; exact scanPunct_put Y h2 e hk
      rw [if_neg q2] at e ⊢
      by_cases q3 : isDigit r = true ∨ r = 45
      · rw [if_pos q3] at e ⊢; exact scanNumber_put Y h2 e
      rw [if_neg q3] at e ⊢
      by_cases q4 : r = 35
      · rw [if_pos q4] at e ⊢
        cases hs : skipComment l0.fuel false l0 with
        | panic => rw [hs] at e; cases e
        | oof => rw [hs] at e; cases e
        | ret l1 =>
          obtain ⟨g1, g2⟩ := skipComment_put Y l0.fuel (l0.put Y).fuel false (fuel_put Y l0) h2 hs
          rw [hs] at e; rw [g1]
          exact ih m hm' g2 e hk hk'
      rw [if_neg q4] at e ⊢
      by_cases q5 : r = 34
      · rw [if_pos q5] at e ⊢
        obtain ⟨r1, w1, l1, e1, e2, hl1, hi1, hp1, hw1, h10⟩ := rd_put Y h2.1 h2.2
        rw [e1] at e; rw [e2]
        dsimp only at e ⊢
        rcases Nat.lt_or_ge l1.pos l1.input.length with hlt | hge
        · obtain ⟨r2, w2, l2, e3, e4, hl2, hi2, hp2, hw2, h102⟩ := rd_put Y hl1 hlt
          rw [e3] at e; rw [e4]
          dsimp only at e ⊢
          by_cases q6 : r1 = 34 ∧ r2 = 34
          · rw [if_pos q6] at e ⊢; exact scanBlock_put Y hl2 e hk
          · rw [if_neg q6] at e ⊢
            exact scanString_put Y ((hl2.unread _).unread _) e hk
        · -- the quote is followed by the last line break only
          exfalso
          have hend : l1.pos = l1.input.length := by have := hl1.le; omega
          rw [rd_stuck hend] at e
          dsimp only at e
          rw [if_neg (by omega)] at e
          have hr1 : r1 = 10 := by
            rcases Nat.decEq r1 10 with q | q
            · have := h10 q; omega
            · exact q
          subst hr1
          have : ∀ k : Lexer, k.input = l1.input → k.pos = l1.pos - w1 → k.rd.1 = 10 := by
            intro k hki hkp
            have : k.pos = l0.pos := by omega
            have hki' : k.input = l0.input := hki.trans hi1
            have : k.rd.1 = l0.rd.1 := by
              unfold Lexer.rd Lexer.read
              rw [hki', this]
              cases l0.input[l0.pos]? with
              | none => rfl
              | some b =>
                dsimp only
                split
                · unfold Lexer.readUnicode
                  dsimp only
                  split <;> rfl
                · rfl
            rw [this, e1]
          have h10' := this ((l1.unread 0).unread w1) rfl rfl
          unfold scanString at e
          have hf : ∃ f, ((l1.unread 0).unread w1).fuel = f + 1 := ⟨_, rfl⟩
          obtain ⟨f, hf⟩ := hf
          rw [hf] at e
          unfold stringPass1 at e
          rcases hrd : ((l1.unread 0).unread w1).rd with ⟨r', w', l''⟩
          rw [hrd] at h10' e
          dsimp only at h10'
          subst h10'
          simp at e
          exact hk (by rw [← e.1])
      rw [if_neg q5] at e ⊢
      rw [if_neg h0] at e ⊢
      cases e
      exact absurd rfl hk

end GQL
