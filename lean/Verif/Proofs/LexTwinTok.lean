/-
The lexer on bytes that are not UTF-8, beside the lexer on the repaired text: block strings and tokens (for C80).
-/
import Verif.Proofs.LexTwinStr
import Verif.Props.C01

namespace GQL
open Spec

/-! ### Bytes and text, line by line -/

theorem RepB.nil : RepB [] [] := ⟨[], .nil, rfl⟩

theorem RepB.char (c : Char) {b b' : Bytes} (h : RepB b b') : RepB (utf8Char c ++ b) (utf8Char c ++ b') := by
  obtain ⟨m, h, rfl⟩ := h
  exact ⟨c :: m, .char c h, rfl⟩

theorem RepB.bad {x : Nat} {b b' : Bytes} (hx : ∀ c t, x :: b ≠ utf8Char c ++ t) (h : RepB b b') : RepB (x :: b) (utf8Char replacement ++ b') := by
  obtain ⟨m, h, rfl⟩ := h
  exact ⟨replacement :: m, .bad hx h, rfl⟩

/-- Lists of related things. -/
inductive All2T {α β : Type} (R : α → β → Prop) : List α → List β → Prop
  | nil : All2T R [] []
  | cons {a b as bs} : R a b → All2T R as bs → All2T R (a :: as) (b :: bs)

theorem All2T.length {α β : Type} {R : α → β → Prop} {as : List α} {bs : List β} (h : All2T R as bs) : as.length = bs.length := by
  induction h with
  | nil => rfl
  | cons _ _ ih => simp [ih]

theorem All2T.append {α β : Type} {R : α → β → Prop} {as as2 : List α} {bs bs2 : List β} (h : All2T R as bs) (h2 : All2T R as2 bs2) : All2T R (as ++ as2) (bs ++ bs2) := by
  induction h with
  | nil => exact h2
  | cons h _ ih => exact .cons h ih

theorem All2T.reverse {α β : Type} {R : α → β → Prop} {as : List α} {bs : List β} (h : All2T R as bs) : All2T R as.reverse bs.reverse := by
  induction h with
  | nil => exact .nil
  | cons h _ ih => rw [List.reverse_cons, List.reverse_cons]; exact ih.append (.cons h .nil)

theorem All2T.dropWhile {α β : Type} {R : α → β → Prop} {f : α → Bool} {g : β → Bool} (hf : ∀ a b, R a b → f a = g b) {as : List α} {bs : List β} (h : All2T R as bs) :
    All2T R (as.dropWhile f) (bs.dropWhile g) := by
  induction h with
  | nil => exact .nil
  | @cons a b as bs hab h ih =>
    rw [List.dropWhile_cons, List.dropWhile_cons, hf a b hab]
    split
    · exact ih
    · exact .cons hab h

theorem wide_bytes (c : Char) (h : ¬ c.toNat < 128) : ∀ x ∈ utf8Char c, 128 ≤ x := by
  rw [utf8Char_eq, encodeRune_eq _ (char_valid c), if_neg h]
  repeat' split
  all_goals (intro x hx; simp at hx; omega)

theorem splitOn_neT (sep : Nat) : ∀ b : Bytes, ∃ h r, splitOn sep b = h :: r ∧ ∃ t, b = h ++ t
  | [] => ⟨[], [], rfl, [], rfl⟩
  | b :: t => by
    obtain ⟨h, r, e, u, eu⟩ := splitOn_neT sep t
    rw [splitOn]
    split
    · exact ⟨[], _, rfl, b :: t, rfl⟩
    · rw [e]; exact ⟨b :: h, r, rfl, u, by rw [eu]; rfl⟩

theorem splitOn_appT (sep : Nat) {b h : Bytes} {r : List Bytes} (e : splitOn sep b = h :: r) : ∀ {xs : Bytes}, (∀ x ∈ xs, x ≠ sep) → splitOn sep (xs ++ b) = (xs ++ h) :: r
  | [], _ => e
  | x :: xs, hx => by
    rw [List.cons_append, splitOn, if_neg (hx x (by simp)), splitOn_appT sep e fun y hy => hx y (by simp [hy])]
    rfl

theorem split_both {b : Bytes} {m : List Char} (h : Repaired b m) : All2T RepB (splitOn 10 b) (splitOn 10 (utf8 m)) := by
  induction h with
  | nil => exact .cons .nil .nil
  | @char c b m hb ih =>
    rw [utf8_cons]
    by_cases hc : c.toNat = 10
    · rw [utf8Char_ascii c (by omega), hc]
      show All2T RepB (splitOn 10 (10 :: b)) (splitOn 10 (10 :: utf8 m))
      rw [splitOn, splitOn, if_pos rfl]
      exact .cons .nil ih
    · have hx : ∀ x ∈ utf8Char c, x ≠ 10 := by
        by_cases h : c.toNat < 128
        · rw [utf8Char_ascii c h]
          intro x hx
          rw [List.mem_singleton.1 hx]
          exact hc
        · intro x hx
          have := wide_bytes c h x hx
          omega
      obtain ⟨h1, r1, e1, -⟩ := splitOn_neT 10 b
      obtain ⟨h2, r2, e2, -⟩ := splitOn_neT 10 (utf8 m)
      rw [splitOn_appT 10 e1 hx, splitOn_appT 10 e2 hx]
      rw [e1, e2] at ih
      cases ih with
      | cons ha hr => exact .cons (ha.char c) hr
  | @bad x b m hx hb ih =>
    have hw := bad_wide hx
    obtain ⟨h1, r1, e1, t, et⟩ := splitOn_neT 10 b
    obtain ⟨h2, r2, e2, -⟩ := splitOn_neT 10 (utf8 m)
    rw [utf8_cons, splitOn_appT 10 e2 (by decide)]
    have := splitOn_appT 10 e1 (xs := [x]) (by simp; omega)
    rw [List.singleton_append] at this
    rw [this]
    rw [e1, e2] at ih
    cases ih with
    | cons ha hr =>
      refine .cons (RepB.bad (fun c u he => hx c (u ++ t) ?_) ha) hr
      rw [et, ← List.append_assoc, ← he]
      rfl

theorem leading_both {b b' : Bytes} (h : RepB b b') : leadingWhitespace b = leadingWhitespace b' := by
  obtain ⟨m, h, rfl⟩ := h
  induction h with
  | nil => rfl
  | @char c b m hb ih =>
    rw [utf8_cons]
    by_cases h : c.toNat < 128
    · rw [utf8Char_ascii c h]
      show leadingWhitespace (c.toNat :: b) = leadingWhitespace (c.toNat :: utf8 m)
      rw [leadingWhitespace, leadingWhitespace, ih]
    · obtain ⟨x, x', t, e, h1, h2⟩ := utf8Char_wide c h
      rw [e]
      show leadingWhitespace (x :: _) = leadingWhitespace (x :: _)
      rw [leadingWhitespace, leadingWhitespace, if_neg (by omega), if_neg (by omega)]
  | @bad x b m hx hb ih =>
    have hw := bad_wide hx
    have e : utf8Char replacement = [0xEF, 0xBF, 0xBD] := by decide
    rw [utf8_cons, e, leadingWhitespace, if_neg (by omega)]
    rfl

theorem leading_lt : ∀ {b : Bytes} {i : Nat}, leadingWhitespace b = some i → i < b.length
  | [], _, h => by cases h
  | b :: t, i, h => by
    rw [leadingWhitespace] at h
    split at h
    · obtain ⟨j, hj, rfl⟩ := Option.map_eq_some_iff.1 h
      have := leading_lt hj
      simp
      omega
    · cases h
      simp

theorem indent_both {ls ls' : List Bytes} (h : All2T RepB ls ls') : ∀ ci, commonIndentLoop ci ls = commonIndentLoop ci ls' := by
  induction h with
  | nil => intro ci; rfl
  | @cons a b as bs hab _ ih =>
    intro ci
    rw [commonIndentLoop, commonIndentLoop, leading_both hab]
    cases hl : leadingWhitespace b with
    | none => exact ih ci
    | some i =>
      have h1 := leading_lt hl
      have h2 := leading_lt ((leading_both hab).trans hl)
      dsimp only
      rw [decide_eq_true h1, decide_eq_true h2, ih, ih]

theorem indent_le : ∀ (ls : List Bytes) (ci : Option Nat) (c : Nat), commonIndentLoop ci ls = some c →
    (∀ c0, ci = some c0 → c ≤ c0) ∧ ∀ ln ∈ ls, ∀ i, leadingWhitespace ln = some i → c ≤ i
  | [], ci, c, h => ⟨fun c0 h0 => by rw [commonIndentLoop, h0] at h; cases h; omega, fun ln hl => by cases hl⟩
  | a :: ls, ci, c, h => by
    rw [commonIndentLoop] at h
    cases hl : leadingWhitespace a with
    | none =>
      rw [hl] at h
      obtain ⟨h1, h2⟩ := indent_le ls ci c h
      refine ⟨h1, fun ln hln i hi => ?_⟩
      rcases List.mem_cons.1 hln with rfl | hln
      · rw [hl] at hi; cases hi
      · exact h2 ln hln i hi
    | some j =>
      rw [hl] at h
      dsimp only at h
      have hj := leading_lt hl
      have key : (∃ c0, ci = some c0 ∧ ¬ j < c0 ∧ commonIndentLoop ci ls = some c) ∨
          ((∀ c0, ci = some c0 → j < c0) ∧ (if j = 0 then some 0 else commonIndentLoop (some j) ls) = some c) := by
        cases ci with
        | none => simp only [hj, decide_true, Bool.and_self, if_true] at h; exact .inr ⟨(fun _ h => nomatch h), h⟩
        | some c0 =>
          by_cases hc : j < c0
          · simp only [hj, hc, decide_true, Bool.and_self, if_true] at h
            exact .inr ⟨fun _ h => by cases h; exact hc, h⟩
          · refine .inl ⟨c0, rfl, hc, ?_⟩
            simpa [hj, hc] using h
      rcases key with ⟨c0, rfl, hc, h⟩ | ⟨hc, h⟩
      · obtain ⟨h1, h2⟩ := indent_le ls (some c0) c h
        refine ⟨h1, fun ln hln i hi => ?_⟩
        rcases List.mem_cons.1 hln with rfl | hln
        · rw [hl] at hi
          cases hi
          have := h1 c0 rfl
          omega
        · exact h2 ln hln i hi
      · split at h
        · cases h
          exact ⟨fun _ _ => by omega, fun _ _ _ _ => by omega⟩
        · obtain ⟨h1, h2⟩ := indent_le ls (some j) c h
          have h3 := h1 j rfl
          refine ⟨fun c0 h0 => ?_, fun ln hln i hi => ?_⟩
          · have h4 := hc c0 h0
            omega
          · rcases List.mem_cons.1 hln with rfl | hln
            · rw [hl] at hi; cases hi; exact h3
            · exact h2 ln hln i hi

theorem strip_both {c : Nat} {b b' : Bytes} (h : RepB b b') (hc : ∀ i, leadingWhitespace b = some i → c ≤ i) :
    RepB (if b.length < c then [] else b.drop c) (if b'.length < c then [] else b'.drop c) := by
  obtain ⟨m, h, rfl⟩ := h
  induction h generalizing c with
  | nil =>
    cases c with
    | zero => exact .nil
    | succ c => exact .nil
  | @char d b m hb ih =>
    cases c with
    | zero => exact ⟨d :: m, .char d hb, rfl⟩
    | succ c =>
      rw [utf8_cons]
      by_cases h : d.toNat < 128
      · rw [utf8Char_ascii d h] at hc ⊢
        show RepB (if (d.toNat :: b).length < c + 1 then [] else (d.toNat :: b).drop (c + 1)) (if (d.toNat :: utf8 m).length < c + 1 then [] else (d.toNat :: utf8 m).drop (c + 1))
        have hc' : ∀ i, leadingWhitespace (d.toNat :: b) = some i → c + 1 ≤ i := hc
        rw [leadingWhitespace] at hc'
        split at hc'
        · have := ih (c := c) fun i hi => by
            have := hc' (i + 1) (by rw [hi]; rfl)
            omega
          simpa only [List.length_cons, Nat.add_lt_add_iff_right, List.drop_succ_cons] using this
        · have := hc' 0 rfl
          omega
      · obtain ⟨x, x', t, e, h1, h2⟩ := utf8Char_wide d h
        rw [e] at hc
        have : leadingWhitespace (x :: x' :: t ++ b) = some 0 := by
          show leadingWhitespace (x :: _) = _
          rw [leadingWhitespace, if_neg (by omega)]
        have := hc 0 this
        omega
  | @bad x b m hx hb ih =>
    have hw := bad_wide hx
    cases c with
    | zero => exact ⟨replacement :: m, .bad hx hb, rfl⟩
    | succ c =>
      have := hc 0 (by rw [leadingWhitespace, if_neg (by omega)])
      omega

theorem RepB.sep {a a' b b' : Bytes} (ha : RepB a a') (hb : RepB b b') : RepB (a ++ [10] ++ b) (a' ++ [10] ++ b') := by
  obtain ⟨m, h, rfl⟩ := ha
  have h10 : utf8Char '\n' = [10] := by decide
  induction h with
  | nil => have := hb.char '\n'; rw [h10] at this; exact this
  | @char c x m hx ih => rw [utf8_cons]; simpa [List.append_assoc] using ih.char c
  | @bad y x m hy hx ih =>
    rw [utf8_cons]
    have hw := bad_wide hy
    have : RepB (y :: (x ++ [10] ++ b)) (utf8Char replacement ++ (utf8 m ++ [10] ++ b')) := by
      refine RepB.bad (fun c t he => ?_) ih
      have hcw : ¬ c.toNat < 128 := by
        intro h
        rw [utf8Char_ascii c h] at he
        simp at he
        omega
      have he' : (y :: x) ++ (10 :: b) = utf8Char c ++ t := by rw [← he]; simp
      rcases List.append_eq_append_iff.1 he' with ⟨u, e1, e2⟩ | ⟨u, e1, e2⟩
      · cases u with
        | nil => exact hy c [] (by rw [List.append_nil] at e1; rw [List.append_nil]; exact e1.symm)
        | cons z u =>
          simp at e2
          have := wide_bytes c hcw z (by rw [e1]; simp)
          omega
      · exact hy c u e1
    simpa [List.append_assoc] using this

theorem join_both {ls ls' : List Bytes} (h : All2T RepB ls ls') : RepB (joinWith [10] ls) (joinWith [10] ls') := by
  induction h with
  | nil => exact .nil
  | @cons a b as bs hab h ih =>
    cases h with
    | nil => exact hab
    | cons h1 h2 => exact hab.sep ih

theorem blockStringLiteral_both {b b' : Bytes} (h : RepB b b') : RepB (blockStringLiteral b).1 (blockStringLiteral b').1 ∧ (blockStringLiteral b).2 = (blockStringLiteral b').2 := by
  obtain ⟨m, h, rfl⟩ := h
  have hs := split_both h
  unfold blockStringLiteral
  generalize splitOn 10 b = ls at hs
  generalize splitOn 10 (utf8 m) = ls' at hs
  refine ⟨?_, hs.length⟩
  dsimp only
  refine join_both ?_
  have hb : ∀ a c, RepB a c → blankLine a = blankLine c := fun a c h => by unfold blankLine; rw [leading_both h]
  unfold trimBlank
  refine (((All2T.dropWhile hb ?_).reverse).dropWhile hb).reverse
  have hl := hs.length
  have hcons : All2T RepB (if ls.length > 1 then ls.drop 1 else ls) (if ls'.length > 1 then ls'.drop 1 else ls') := by
    rw [← hl]
    split
    · cases hs with
      | nil => exact .nil
      | cons _ h => exact h
    · exact hs
  rw [← indent_both hcons none]
  cases hc : commonIndentLoop none (if ls.length > 1 then ls.drop 1 else ls) with
  | none => cases hs <;> exact by unfold stripIndent; first | exact .nil | exact .cons ‹_› ‹_›
  | some c =>
    have hle := (indent_le _ none c hc).2
    cases hs with
    | nil => exact .nil
    | @cons x y xs ys hxy ht =>
      refine .cons hxy ?_
      have hle' : ∀ ln ∈ xs, ∀ i, leadingWhitespace ln = some i → c ≤ i := by
        intro ln hln
        refine hle ln ?_
        have : (x :: xs).length > 1 := by
          have := List.length_pos_of_mem hln
          simp
          omega
        rw [if_pos this]
        exact hln
      clear hle hc hcons hl
      induction ht with
      | nil => exact .nil
      | @cons a d as ds had _ ih =>
        exact .cons (strip_both had (hle' a (by simp))) (ih fun ln hln => hle' ln (by simp [hln]))

/-! ### Tokens -/

theorem scanBlockString_both {l l' : Lexer} {cs} (h : Twins l l' cs) : RelO TR (scanBlockString l) (scanBlockString l') := by
  have h1 := blockPass1_both l.fuel l'.fuel false false h
  have hc : (l.lpos : Int) - 2 = l'.lpos - 2 := by rw [h.lpos]
  unfold scanBlockString
  revert h1
  generalize blockPass1 l.fuel false false l = x
  generalize blockPass1 l'.fuel false false l' = x'
  intro h1
  rcases x with (⟨r, a⟩ | ⟨e, f, a⟩) | _ | _ <;> rcases x' with (⟨r', a'⟩ | ⟨e', f', a'⟩) | _ | _ <;>
    first | exact .left | exact .right | trivial | exact h1.elim | skip
  · obtain ⟨e, hu, ds, ha⟩ := h1
    dsimp only at e hu
    subst e
    exact illegal_both hu h.line hc ha.tw
  · obtain ⟨e1, e2, q, q', qs, ds, hq, hr, p1, p2⟩ := h1
    dsimp only at e1 e2 hr p1 p2 ⊢
    subst e1 e2
    split
    · obtain ⟨b, m, h2, h3, h4, h5⟩ := slice_both h hq
      have e1 : a.pos - 3 = q.pos := by omega
      have e2 : a'.pos - 3 = q'.pos := by omega
      rw [e1, e2, hr.inp, hr.inp', h2, h3]
      obtain ⟨h6, h7⟩ := blockStringLiteral_both ⟨m, h5, rfl⟩
      dsimp only
      rw [h7]
      exact ⟨⟨rfl, h.line, hc, (fun h => nomatch h), h6⟩, ds, hr.tw.move hr.inp.symm hr.inp'.symm rfl rfl hr.tw.lpos (by dsimp only; rw [hr.tw.line])⟩
    · have h2 := blockPass2_both l.fuel l'.fuel (acc := []) ⟨[], rfl⟩ h
      revert h2
      generalize blockPass2 l.fuel [] l = y
      generalize blockPass2 l'.fuel [] l' = y'
      intro h2
      rcases y with (⟨r, b⟩ | ⟨r, b⟩) | _ | _ <;> rcases y' with (⟨r', b'⟩ | ⟨r', b'⟩) | _ | _ <;>
        first | exact .left | exact .right | trivial | exact h2.elim | skip
      · obtain ⟨e, hu, ds, ha⟩ := h2
        dsimp only at e hu
        subst e
        exact illegal_both hu h.line hc ha.tw
      · obtain ⟨e, hu, ds, ha⟩ := h2
        dsimp only at e hu ha ⊢
        subst e
        exact ⟨⟨rfl, h.line, hc, (fun h => nomatch h), (blockStringLiteral_both hu.rep).1⟩, ds, ha.tw.move rfl rfl rfl rfl ha.tw.lpos (by dsimp only; rw [ha.tw.line])⟩

theorem scanF_both : ∀ (n m : Nat) {l l' : Lexer} {cs}, Twins l l' cs → RelO TR (scanF n l) (scanF m l')
  | 0, _, _, _, _, _ => .left
  | n + 1, 0, _, _, _, _ => .right
  | n + 1, m + 1, l, l', cs, h => by
    have h1 := readNextSignificant_both l.fuel l'.fuel false h
    rw [scanF, scanF]
    revert h1
    generalize readNextSignificant l.fuel false l = x
    generalize readNextSignificant l'.fuel false l' = x'
    intro h1
    rcases x with ⟨r, w, k⟩ | _ | _ <;> rcases x' with ⟨r', w', k'⟩ | _ | _ <;>
      first | exact .left | exact .right | trivial | exact h1.elim | skip
    obtain ⟨e, p, p', ps, ds, hp, hr⟩ := h1
    dsimp only at e hr ⊢
    subst e
    have hc : (k.lpos : Int) = k'.lpos := by rw [hr.ahead.tw.lpos]
    by_cases c1 : isNameStart r = true
    · rw [if_pos c1, if_pos c1]
      exact scanName_both hp.tw hr c1
    rw [if_neg c1, if_neg c1]
    by_cases c2 : isPunct r = true
    · rw [if_pos c2, if_pos c2]
      exact scanPunctuator_both hp.tw hr
    rw [if_neg c2, if_neg c2]
    by_cases c3 : isDigit r = true ∨ r = 45
    · rw [if_pos c3, if_pos c3]
      exact scanNumber_both hp.tw hr c3
    rw [if_neg c3, if_neg c3]
    by_cases c4 : r = 35
    · rw [if_pos c4, if_pos c4]
      have h2 := skipComment_both k.fuel k'.fuel false hr.ahead.tw
      revert h2
      generalize skipComment k.fuel false k = y
      generalize skipComment k'.fuel false k' = y'
      intro h2
      rcases y with a | _ | _ <;> rcases y' with a' | _ | _ <;>
        first | exact .left | exact .right | trivial | exact h2.elim | skip
      obtain ⟨es, h2⟩ := h2
      exact scanF_both n m h2.tw
    rw [if_neg c4, if_neg c4]
    by_cases c5 : r = 34
    · rw [if_pos c5, if_pos c5]
      obtain ⟨r1, w1, w1', k1, k1', ds1, h2⟩ := rd_twins hr.ahead.tw
      obtain ⟨r2, w2, w2', k2, k2', ds2, h3⟩ := rd_twins h2.ahead.tw
      rw [h2.rd, h2.rd']
      dsimp only
      rw [h3.rd, h3.rd']
      dsimp only
      split
      · exact scanBlockString_both h3.ahead.tw
      · refine scanString_both (hr.ahead.tw.move (h2.ahead.trans h3.ahead).inp (h2.ahead.trans h3.ahead).inp' ?_ ?_ ?_ h3.ahead.tw.line)
        · have := h2.pos; have := h3.pos; show k2.pos - w2 - w1 = k.pos; omega
        · have := h2.pos'; have := h3.pos'; show k2'.pos - w2' - w1' = k'.pos; omega
        · show k2.lpos - 1 - 1 = k2'.lpos - 1 - 1; rw [h3.ahead.tw.lpos]
    rw [if_neg c5, if_neg c5]
    by_cases c6 : r = 0
    · rw [if_pos c6, if_pos c6]
      exact ⟨⟨rfl, hr.ahead.tw.line, by show (k.lpos : Int) + 1 = k'.lpos + 1; rw [hc], (fun h => nomatch h), .nil⟩, ds, hr.ahead.tw⟩
    · rw [if_neg c6, if_neg c6]
      exact illegal_both (encodeRune_utf8 r) hr.ahead.tw.line hc hr.ahead.tw

theorem tokensF_both : ∀ (n m : Nat) {l l' : Lexer} {cs}, Twins l l' cs → RelO (All2T TokRel) (tokensF n l) (tokensF m l')
  | 0, _, _, _, _, _ => .left
  | n + 1, 0, _, _, _, _ => .right
  | n + 1, m + 1, l, l', cs, h => by
    have h1 : RelO TR (scan l) (scan l') := scanF_both l.fuel l'.fuel h
    rw [tokensF, tokensF]
    revert h1
    generalize scan l = x
    generalize scan l' = x'
    intro h1
    rcases x with ⟨t, k⟩ | _ | _ <;> rcases x' with ⟨t', k'⟩ | _ | _ <;>
      first | exact .left | exact .right | trivial | exact h1.elim | skip
    obtain ⟨ht, ds, hk⟩ := h1
    dsimp only at ht hk ⊢
    rw [ht.kind]
    split
    · exact .cons ht .nil
    · have h2 := tokensF_both n m hk
      revert h2
      generalize tokensF n k = y
      generalize tokensF m k' = y'
      intro h2
      rcases y with a | _ | _ <;> rcases y' with a' | _ | _ <;>
        first | exact .left | exact .right | trivial | exact h2.elim | skip
      exact .cons ht h2

end GQL
