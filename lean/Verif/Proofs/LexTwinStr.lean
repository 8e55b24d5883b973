/-
The lexer on bytes that are not UTF-8, beside the lexer on the repaired text: strings (for C80).
-/
import Verif.Proofs.LexTwin

namespace GQL
open Spec

/-! ### Strings -/

theorem escapedChar_both {l l' : Lexer} {cs} (h : Twins l l' cs) : ∃ ds, (escapedChar l).1 = (escapedChar l').1 ∧ Ahead l l' cs (escapedChar l).2 (escapedChar l').2 ds ∧
    ∀ e, (escapedChar l).1 = .error e → IsUtf8 e := by
  obtain ⟨r, w, w', k, k', ds, hr⟩ := rd_twins h
  unfold escapedChar
  rw [hr.rd, hr.rd']
  dsimp only
  split
  · exact ⟨ds, rfl, hr.ahead, fun e he => by cases he⟩
  · split
    · obtain ⟨a, _, _, k2, k2', ds2, h2⟩ := rd_twins hr.ahead.tw
      obtain ⟨b, _, _, k3, k3', ds3, h3⟩ := rd_twins h2.ahead.tw
      obtain ⟨c, _, _, k4, k4', ds4, h4⟩ := rd_twins h3.ahead.tw
      obtain ⟨d, _, _, k5, k5', ds5, h5⟩ := rd_twins h4.ahead.tw
      rw [h2.rd, h2.rd']; dsimp only
      rw [h3.rd, h3.rd']; dsimp only
      rw [h4.rd, h4.rd']; dsimp only
      rw [h5.rd, h5.rd']; dsimp only
      have ha := hr.ahead.trans (h2.ahead.trans (h3.ahead.trans (h4.ahead.trans h5.ahead)))
      split
      · exact ⟨ds5, rfl, ha, fun e he => by cases he⟩
      · refine ⟨ds5, rfl, ha, fun e he => ?_⟩
        cases he
        unfold msgBadUnicode
        exact ((((IsUtf8.ascii (by decide)).append (encodeRune_utf8 _)).append (encodeRune_utf8 _)).append (encodeRune_utf8 _)).append (encodeRune_utf8 _)
    · refine ⟨ds, rfl, hr.ahead, fun e he => ?_⟩
      cases he
      unfold msgBadEscape
      exact (IsUtf8.ascii (by decide)).append (encodeRune_utf8 _)

/-- What the first loop over a string gives: both at the same bad character, or both at the closing quote. -/
abbrev Pass1 (l l' : Lexer) (cs : List Char) : Except (Nat × Lexer) (Bool × Lexer) → Except (Nat × Lexer) (Bool × Lexer) → Prop :=
  ExRel (fun x x' => x.1 = x'.1 ∧ ∃ ds, Ahead l l' cs x.2 x'.2 ds)
    (fun x x' => x.1 = x'.1 ∧ ∃ q q' qs ds, Ahead l l' cs q q' qs ∧ ReadBoth q q' qs 34 1 1 x.2 x'.2 ds)

theorem Pass1.trans {l l' k k' : Lexer} {cs ds} (h : Ahead l l' cs k k' ds) {x x'} (hp : Pass1 k k' ds x x') : Pass1 l l' cs x x' := by
  rcases x with ⟨r, a⟩ | ⟨e, a⟩ <;> rcases x' with ⟨r', a'⟩ | ⟨e', a'⟩ <;> first | exact hp.elim | skip
  · obtain ⟨e, es, he⟩ := hp
    exact ⟨e, es, h.trans he⟩
  · obtain ⟨e, q, q', qs, es, hq, hr⟩ := hp
    exact ⟨e, q, q', qs, es, h.trans hq, hr⟩

theorem stringPass1_both : ∀ (n m : Nat) (esc : Bool) {l l' : Lexer} {cs}, Twins l l' cs → RelO (Pass1 l l' cs) (stringPass1 n esc l) (stringPass1 m esc l')
  | 0, _, _, _, _, _, _ => .left
  | n + 1, 0, _, _, _, _, _ => .right
  | n + 1, m + 1, esc, l, l', cs, h => by
    obtain ⟨r, w, w', k, k', ds, hr⟩ := rd_twins h
    rw [stringPass1, stringPass1, hr.rd, hr.rd']
    dsimp only
    split
    · rename_i h34
      subst h34
      obtain ⟨rfl, rfl⟩ := hr.small (by decide) (by decide)
      exact ⟨rfl, l, l', cs, ds, .refl h, hr⟩
    · split
      · exact ⟨rfl, ds, hr.ahead⟩
      · split
        · obtain ⟨r2, _, _, k2, k2', ds2, h2⟩ := rd_twins hr.ahead.tw
          rw [h2.rd, h2.rd']
          dsimp only
          split
          · obtain ⟨_, _, _, k3, k3', ds3, h3⟩ := rd_twins h2.ahead.tw
            obtain ⟨_, _, _, k4, k4', ds4, h4⟩ := rd_twins h3.ahead.tw
            obtain ⟨_, _, _, k5, k5', ds5, h5⟩ := rd_twins h4.ahead.tw
            obtain ⟨_, _, _, k6, k6', ds6, h6⟩ := rd_twins h5.ahead.tw
            rw [h3.rd, h3.rd']; dsimp only
            rw [h4.rd, h4.rd']; dsimp only
            rw [h5.rd, h5.rd']; dsimp only
            rw [h6.rd, h6.rd']; dsimp only
            exact (stringPass1_both n m true h6.ahead.tw).mono fun _ _ hp =>
              Pass1.trans (hr.ahead.trans (h2.ahead.trans (h3.ahead.trans (h4.ahead.trans (h5.ahead.trans h6.ahead))))) hp
          · exact (stringPass1_both n m true h2.ahead.tw).mono fun _ _ hp => Pass1.trans (hr.ahead.trans h2.ahead) hp
        · exact (stringPass1_both n m esc hr.ahead.tw).mono fun _ _ hp => Pass1.trans hr.ahead hp

theorem stringPass2_both (col line : Nat) : ∀ (n m : Nat) {acc : Bytes} {l l' : Lexer} {cs}, IsUtf8 acc → Twins l l' cs →
    RelO TR (stringPass2 col line n acc l) (stringPass2 col line m acc l')
  | 0, _, _, _, _, _, _, _ => .left
  | n + 1, 0, _, _, _, _, _, _ => .right
  | n + 1, m + 1, acc, l, l', cs, ha, h => by
    obtain ⟨r, w, w', k, k', ds, hr⟩ := rd_twins h
    rw [stringPass2, stringPass2, hr.rd, hr.rd']
    dsimp only
    split
    · exact ⟨⟨rfl, rfl, rfl, (fun h => nomatch h), ha.rep⟩, ds, hr.ahead.tw⟩
    · split
      · obtain ⟨es, h1, h2, h3⟩ := escapedChar_both hr.ahead.tw
        revert h1 h2 h3
        generalize escapedChar k = x
        generalize escapedChar k' = x'
        obtain ⟨x, a⟩ := x
        obtain ⟨x', a'⟩ := x'
        intro h1 h2 h3
        dsimp only at h1
        subst h1
        cases x with
        | error e => exact illegal_both (h3 e rfl) rfl rfl h2.tw
        | ok v => exact stringPass2_both col line n m (ha.append (encodeRune_utf8 _)) h2.tw
      · exact stringPass2_both col line n m (ha.append (encodeRune_utf8 _)) hr.ahead.tw

theorem scanString_both {l l' : Lexer} {cs} (h : Twins l l' cs) : RelO TR (scanString l) (scanString l') := by
  have h1 := stringPass1_both l.fuel l'.fuel false h
  unfold scanString
  revert h1
  generalize stringPass1 l.fuel false l = x
  generalize stringPass1 l'.fuel false l' = x'
  intro h1
  have hc : (l.lpos : Int) = l'.lpos := by rw [h.lpos]
  rcases x with (⟨r, a⟩ | ⟨e, a⟩) | _ | _ <;> rcases x' with (⟨r', a'⟩ | ⟨e', a'⟩) | _ | _ <;>
    first | exact .left | exact .right | trivial | exact h1.elim | skip
  · obtain ⟨e, ds, ha⟩ := h1
    dsimp only at e
    subst e
    refine illegal_both ?_ h.line hc ha.tw
    unfold msgBadStringChar
    exact (IsUtf8.ascii (by decide)).append (quoteRune_utf8 _)
  · obtain ⟨e', q, q', qs, ds, hq, hr⟩ := h1
    dsimp only at e'
    subst e'
    dsimp only at hr ⊢
    split
    · rw [h.lpos, h.line]
      exact stringPass2_both _ _ _ _ ⟨[], rfl⟩ h
    · obtain ⟨b, m, h2, h3, h4, h5⟩ := slice_both h hq
      have e1 : a.pos - 1 = q.pos := by have := hr.pos; omega
      have e2 : a'.pos - 1 = q'.pos := by have := hr.pos'; omega
      rw [e1, e2, hr.ahead.inp, hr.ahead.inp', h2, h3]
      exact ⟨⟨rfl, h.line, hc, (fun h => nomatch h), m, h5, rfl⟩, ds, hr.ahead.tw⟩

/-! ### Block strings -/

theorem isTripQuotes_both {l l' : Lexer} {cs} (h : Twins l l' cs) : ∃ ds, (isTripQuotes l).1 = (isTripQuotes l').1 ∧ Ahead l l' cs (isTripQuotes l).2 (isTripQuotes l').2 ds ∧
    ((isTripQuotes l).1 = true → (isTripQuotes l).2.pos = l.pos + 2 ∧ (isTripQuotes l').2.pos = l'.pos + 2) := by
  obtain ⟨r, w, w', k, k', ds, hr⟩ := rd_twins h
  obtain ⟨r2, w2, w2', k2, k2', ds2, hr2⟩ := rd_twins hr.ahead.tw
  unfold isTripQuotes
  rw [hr.rd, hr.rd']
  dsimp only
  rw [hr2.rd, hr2.rd']
  dsimp only
  by_cases hq : r = 34 ∧ r2 = 34
  · rw [if_pos hq, if_pos hq]
    obtain ⟨rfl, rfl⟩ := hq
    obtain ⟨rfl, rfl⟩ := hr.small (by decide) (by decide)
    obtain ⟨rfl, rfl⟩ := hr2.small (by decide) (by decide)
    exact ⟨ds2, rfl, hr.ahead.trans hr2.ahead, fun _ => ⟨by have := hr.pos; have := hr2.pos; dsimp only; omega, by have := hr.pos'; have := hr2.pos'; dsimp only; omega⟩⟩
  · rw [if_neg hq, if_neg hq]
    by_cases h0 : r = 0
    · obtain ⟨rfl, rfl, rfl, rfl, rfl, rfl⟩ := hr.zero h0
      have h20 : r2 = 0 := by
        apply Classical.byContradiction
        intro hne
        obtain ⟨c, e, -⟩ := hr2.char hne
        cases e
      obtain ⟨rfl, rfl, -, rfl, rfl, rfl⟩ := hr2.zero h20
      subst h0 h20
      exact ⟨[], rfl, .refl h, fun h => by cases h⟩
    · rw [if_pos h0, if_pos h0]
      by_cases h20 : r2 = 0
      · subst h20
        exact ⟨ds, rfl, hr.ahead.trans (hr2.unread hr.ahead.tw), fun h => by cases h⟩
      · rw [if_pos h20, if_pos h20]
        refine ⟨cs, rfl, (Ahead.refl h).move (hr.ahead.trans hr2.ahead).inp (hr.ahead.trans hr2.ahead).inp' ?_ ?_ ?_ hr2.ahead.tw.line, fun h => by cases h⟩
        · have := hr.pos; have := hr2.pos; show k2.pos - w2 - w = l.pos; omega
        · have := hr.pos'; have := hr2.pos'; show k2'.pos - w2' - w' = l'.pos; omega
        · show k2.lpos - 1 - 1 = k2'.lpos - 1 - 1; rw [hr2.ahead.tw.lpos]

/-- What the first loop over a block string gives. -/
abbrev BPass1 (l l' : Lexer) (cs : List Char) : Except (Bytes × Lexer) (Bool × Bool × Lexer) → Except (Bytes × Lexer) (Bool × Bool × Lexer) → Prop :=
  ExRel (fun x x' => x.1 = x'.1 ∧ IsUtf8 x.1 ∧ ∃ ds, Ahead l l' cs x.2 x'.2 ds)
    (fun x x' => x.1 = x'.1 ∧ x.2.1 = x'.2.1 ∧ ∃ q q' qs ds, Ahead l l' cs q q' qs ∧ Ahead q q' qs x.2.2 x'.2.2 ds ∧ x.2.2.pos = q.pos + 3 ∧ x'.2.2.pos = q'.pos + 3)

theorem BPass1.trans {l l' k k' : Lexer} {cs ds} (h : Ahead l l' cs k k' ds) {x x'} (hp : BPass1 k k' ds x x') : BPass1 l l' cs x x' := by
  rcases x with ⟨r, a⟩ | ⟨e, f, a⟩ <;> rcases x' with ⟨r', a'⟩ | ⟨e', f', a'⟩ <;> first | exact hp.elim | skip
  · obtain ⟨e, hu, es, he⟩ := hp
    exact ⟨e, hu, es, h.trans he⟩
  · obtain ⟨e, f, q, q', qs, es, hq, hr⟩ := hp
    exact ⟨e, f, q, q', qs, es, h.trans hq, hr⟩

theorem blockPass1_both : ∀ (n m : Nat) (cr esc : Bool) {l l' : Lexer} {cs}, Twins l l' cs → RelO (BPass1 l l' cs) (blockPass1 n cr esc l) (blockPass1 m cr esc l')
  | 0, _, _, _, _, _, _, _ => .left
  | n + 1, 0, _, _, _, _, _, _ => .right
  | n + 1, m + 1, cr, esc, l, l', cs, h => by
    obtain ⟨r, w, w', k, k', ds, hr⟩ := rd_twins h
    rw [blockPass1, blockPass1, hr.rd, hr.rd']
    dsimp only
    split
    · obtain ⟨r2, _, _, k2, k2', ds2, h2⟩ := rd_twins hr.ahead.tw
      rw [h2.rd, h2.rd']
      dsimp only
      split
      · obtain ⟨ds3, h3, h4, -⟩ := isTripQuotes_both h2.ahead.tw
        rw [← h3]
        exact (blockPass1_both n m _ _ h4.tw).mono fun _ _ hp => BPass1.trans (hr.ahead.trans (h2.ahead.trans h4)) hp
      · exact (blockPass1_both n m _ _ h2.ahead.tw).mono fun _ _ hp => BPass1.trans (hr.ahead.trans h2.ahead) hp
    · split
      · exact (blockPass1_both n m _ _ hr.ahead.tw).mono fun _ _ hp => BPass1.trans hr.ahead hp
      · split
        · exact ⟨rfl, IsUtf8.ascii (b := msgEofInBlock) (by decide), ds, hr.ahead⟩
        · split
          · refine ⟨rfl, ?_, ds, hr.ahead⟩
            unfold msgBadBlockChar
            exact (IsUtf8.ascii (by decide)).append (quoteRune_utf8 _)
          · split
            · rename_i h34
              subst h34
              obtain ⟨rfl, rfl⟩ := hr.small (by decide) (by decide)
              obtain ⟨ds3, h3, h4, h5⟩ := isTripQuotes_both hr.ahead.tw
              rw [← h3]
              split
              · rename_i ht
                have h6 := h5 ht
                have := hr.pos
                have := hr.pos'
                exact ⟨rfl, rfl, l, l', cs, ds3, .refl h, hr.ahead.trans h4, by dsimp only; omega, by dsimp only; omega⟩
              · exact (blockPass1_both n m _ _ h4.tw).mono fun _ _ hp => BPass1.trans (hr.ahead.trans h4) hp
            · exact (blockPass1_both n m _ _ hr.ahead.tw).mono fun _ _ hp => BPass1.trans hr.ahead hp

/-- The byte after the next one, as it is looked at behind a carriage return. -/
theorem peek_both {l l' k k' : Lexer} {cs w w' ds} (h : Twins l l' cs) (hr : ReadBoth l l' cs 13 w w' k k' ds) :
    (k.input[k.pos + 1]? = none ∧ k'.input[k'.pos + 1]? = none) ∨
    ∃ b b', k.input[k.pos + 1]? = some b ∧ k'.input[k'.pos + 1]? = some b' ∧ (b = 10 ↔ b' = 10) := by
  have ht := hr.ahead.tw.twin
  have ha := hr.ahead.tw.at'.eq
  have hg : ∀ i p, (i : Bytes)[p + 1]? = (i.drop p)[1]? := by intro i p; rw [List.getElem?_drop]
  rw [hg k.input k.pos, hg k'.input k'.pos, ha]
  have htrap := h.trap
  obtain ⟨rfl, rfl⟩ := hr.small (by decide) (by decide)
  have hs : l.input.drop l.pos = 13 :: k.input.drop k.pos := by
    obtain ⟨b, m, e1, e2, e3, e4, e5⟩ := hr.ahead.mid
    obtain ⟨c, ec, hc, -⟩ := hr.char (by decide)
    have hm : m = [c] := by
      have := e1.symm.trans ec
      exact List.append_cancel_right (this.trans (List.singleton_append).symm)
    have : b.length = 1 := by have := hr.pos; omega
    subst hm
    rw [e2]
    have hc2 : utf8Char c = [13] := by rw [utf8Char_ascii _ (by omega), hc]
    cases e5 with
    | @char _ b0 _ h0 => cases h0; rw [hc2]; rfl
    | bad hx h0 => exact absurd hc (by decide)
  rw [hs] at htrap
  generalize k.input.drop k.pos = s at ht htrap
  have first : ∀ {s : Bytes} {cs}, Twin s cs → (s = [] ∧ cs = []) ∨ ∃ b t b' t', s = b :: t ∧ utf8 cs = b' :: t' ∧ (b = 10 ↔ b' = 10) := by
    intro s cs h
    cases h with
    | nil => exact .inl ⟨rfl, rfl⟩
    | @char c b cs _ =>
      right
      cases hu : utf8Char c with
      | nil => exact absurd hu (utf8Char_ne_nil c)
      | cons x t => exact ⟨x, t ++ b, x, t ++ utf8 cs, rfl, by rw [utf8_cons, hu]; rfl, Iff.rfl⟩
    | @bad x b cs hx _ _ =>
      right
      have := bad_wide hx
      have hw : utf8Char replacement = [0xEF, 0xBF, 0xBD] := by decide
      exact ⟨x, b, 0xEF, [0xBF, 0xBD] ++ utf8 cs, rfl, by rw [utf8_cons, hw]; rfl, by omega⟩
  cases ht with
  | nil => exact .inl ⟨rfl, rfl⟩
  | @char c b cs hb =>
    rw [utf8_cons]
    by_cases hc : c.toNat < 128
    · rw [utf8Char_ascii c hc]
      rcases first hb with ⟨rfl, rfl⟩ | ⟨x, t, x', t', rfl, e, hi⟩
      · exact .inl ⟨rfl, rfl⟩
      · rw [e]; exact .inr ⟨x, x', rfl, rfl, hi⟩
    · obtain ⟨x, x', t, e, h1, h2⟩ := utf8Char_wide c hc
      rw [e]
      exact .inr ⟨x', x', rfl, rfl, Iff.rfl⟩
  | @bad x b cs hx hb0 hb =>
    have hw : utf8Char replacement = [0xEF, 0xBF, 0xBD] := by decide
    rw [utf8_cons, hw]
    cases b with
    | nil => exact absurd rfl hb0
    | cons y b =>
      refine .inr ⟨y, 0xBF, rfl, rfl, ?_⟩
      constructor
      · rintro rfl
        exact absurd ⟨[], x, b, rfl, bad_wide hx⟩ htrap
      · intro h; cases h

/-- What the second loop over a block string gives. -/
abbrev BPass2 (l l' : Lexer) (cs : List Char) : Except (Bytes × Lexer) (Bytes × Lexer) → Except (Bytes × Lexer) (Bytes × Lexer) → Prop :=
  ExRel (fun x x' => x.1 = x'.1 ∧ IsUtf8 x.1 ∧ ∃ ds, Ahead l l' cs x.2 x'.2 ds) (fun x x' => x.1 = x'.1 ∧ IsUtf8 x.1 ∧ ∃ ds, Ahead l l' cs x.2 x'.2 ds)

theorem BPass2.trans {l l' k k' : Lexer} {cs ds} (h : Ahead l l' cs k k' ds) {x x'} (hp : BPass2 k k' ds x x') : BPass2 l l' cs x x' := by
  rcases x with ⟨r, a⟩ | ⟨e, a⟩ <;> rcases x' with ⟨r', a'⟩ | ⟨e', a'⟩ <;> first | exact hp.elim | skip
  · obtain ⟨e, hu, es, he⟩ := hp
    exact ⟨e, hu, es, h.trans he⟩
  · obtain ⟨e, hu, es, he⟩ := hp
    exact ⟨e, hu, es, h.trans he⟩

theorem blockPass2_both : ∀ (n m : Nat) {acc : Bytes} {l l' : Lexer} {cs}, IsUtf8 acc → Twins l l' cs →
    RelO (BPass2 l l' cs) (blockPass2 n acc l) (blockPass2 m acc l')
  | 0, _, _, _, _, _, _, _ => .left
  | n + 1, 0, _, _, _, _, _, _ => .right
  | n + 1, m + 1, acc, l, l', cs, hu, h => by
    obtain ⟨r, w, w', k, k', ds, hr⟩ := rd_twins h
    have go : ∀ {acc : Bytes} {a a' as}, IsUtf8 acc → Ahead l l' cs a a' as → RelO (BPass2 l l' cs) (blockPass2 n acc a) (blockPass2 m acc a') := by
      intro acc a a' as h1 h2
      exact (blockPass2_both n m h1 h2.tw).mono fun _ _ hp => BPass2.trans h2 hp
    rw [blockPass2, blockPass2, hr.rd, hr.rd']
    dsimp only
    split
    · exact go (hu.append (encodeRune_utf8 _)) hr.ahead
    · split
      · rename_i h13
        subst h13
        rcases peek_both h hr with ⟨e1, e2⟩ | ⟨b, b', e1, e2, hi⟩
        · rw [e1, e2]; trivial
        · rw [e1, e2]
          dsimp only
          by_cases hb : b = 10
          · rw [if_neg (by simpa using hb), if_neg (by simpa using hi.1 hb)]
            exact go hu hr.ahead
          · rw [if_pos hb, if_pos (fun h => hb (hi.2 h))]
            exact go (hu.append (encodeRune_utf8 _)) hr.ahead
      · split
        · obtain ⟨r2, _, _, k2, k2', ds2, h2⟩ := rd_twins hr.ahead.tw
          rw [h2.rd, h2.rd']
          dsimp only
          split
          · obtain ⟨ds3, h3, h4, -⟩ := isTripQuotes_both h2.ahead.tw
            rw [← h3]
            split
            · exact go (hu.append (.ascii (by decide))) (hr.ahead.trans (h2.ahead.trans h4))
            · exact go ((hu.append (encodeRune_utf8 _)).append (encodeRune_utf8 _)) (hr.ahead.trans (h2.ahead.trans h4))
          · exact go ((hu.append (encodeRune_utf8 _)).append (encodeRune_utf8 _)) (hr.ahead.trans h2.ahead)
        · split
          · exact ⟨rfl, IsUtf8.ascii (b := msgEofInBlock) (by decide), ds, hr.ahead⟩
          · split
            · obtain ⟨ds3, h3, h4, -⟩ := isTripQuotes_both hr.ahead.tw
              rw [← h3]
              split
              · exact ⟨rfl, hu, ds3, hr.ahead.trans h4⟩
              · exact go (hu.append (encodeRune_utf8 _)) (hr.ahead.trans h4)
            · split
              · refine ⟨rfl, ?_, ds, hr.ahead⟩
                unfold msgBadBlockChar
                exact (IsUtf8.ascii (by decide)).append (quoteRune_utf8 _)
              · exact go (hu.append (encodeRune_utf8 _)) hr.ahead

end GQL
