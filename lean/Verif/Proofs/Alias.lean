/-
As long as the buffer is not written to, strings that are windows on it read as if they were copies (for C83).
-/
import Verif.Model.Alias
import Verif.Proofs.LexTotal

namespace GQL

/-- What a scan gives, as it reads when the buffer is `buf`. -/
def Out.readAs (buf : Bytes) : Out (ATok × Lexer) → Out (Token × Lexer)
  | .ret (t, l) => .ret (t.read buf, l)
  | .panic => .panic
  | .oof => .oof

theorem btosSlice_value (b : Bytes) (i j : Nat) : (btosSlice b i j).map (Str.value b) = slice b i j := by
  unfold btosSlice slice
  split <;> rfl

theorem btosSlice_eq {b : Bytes} {i j : Nat} {s : Str} (h : btosSlice b i j = some s) : slice b i j = some (s.value b) := by
  rw [← btosSlice_value, h]; rfl

theorem btosSlice_none {b : Bytes} {i j : Nat} (h : btosSlice b i j = none) : slice b i j = none := by
  rw [← btosSlice_value, h]; rfl

theorem scanNameA_read (l : Lexer) (h : l.pos ≤ l.input.length) : (scanNameA l).readAs l.input = scanName l := by
  obtain ⟨l', e, a⟩ := scanNameLoop_total l.fuel l h (by unfold Lexer.fuel; omega)
  unfold scanNameA scanName
  rw [e]
  dsimp only
  rw [a.input]
  cases e1 : btosSlice l.input (l.pos - 1) l'.pos with
  | none => rw [btosSlice_none e1]; rfl
  | some s => rw [btosSlice_eq e1]; rfl

theorem scanPunctuatorA_read (l : Lexer) (r w : Nat) : (scanPunctuatorA l r w).readAs l.input = scanPunctuator l r w := by
  unfold scanPunctuatorA scanPunctuator
  split
  · dsimp only
    split <;> rfl
  · cases e1 : btosSlice l.input (l.pos - w) l.pos with
    | none => rw [btosSlice_none e1]; rfl
    | some s => rw [btosSlice_eq e1]; rfl

theorem numberEndA_read {l0 l : Lexer} (f : Bool) (r w : Nat) (hi : l.input = l0.input) :
    (numberEndA l0 f r w l).readAs l0.input = numberEnd l0 f r w l := by
  unfold numberEndA numberEnd
  dsimp only
  have hi' : (if r ≠ 0 then l.unread w else l).input = l0.input := by split <;> exact hi
  rw [hi']
  generalize (if r ≠ 0 then l.unread w else l) = l'
  cases e1 : btosSlice l0.input (l0.pos - 1) l'.pos with
  | none => rw [btosSlice_none e1]; rfl
  | some s => rw [btosSlice_eq e1]; rfl

theorem numberExpA_read {l0 l : Lexer} (f : Bool) (r w : Nat) (ha : Adv l0 l) :
    (numberExpA l0 f r w l).readAs l0.input = numberExp l0 f r w l := by
  unfold numberExpA numberExp
  split
  · rcases e1 : l.rd with ⟨r1, w1, l1⟩
    obtain ⟨a1, -, -⟩ := rd_adv' e1 ha.inv
    dsimp only
    have a2 := readIf_adv (r1 = 43 ∨ r1 = 45) r1 l1 a1.inv
    have a := ha.trans (a1.trans a2)
    rcases readDigits_total _ (readIf (r1 = 43 ∨ r1 = 45) r1 l1).1 a.inv with
      ⟨e, he⟩ | ⟨r', w', l', he, a', hw'⟩
    · rw [he]; rfl
    · rw [he]; dsimp only
      exact numberEndA_read true r' w' (a.trans a').input
  · exact numberEndA_read f r w ha.input

theorem numberFracA_read {l0 l : Lexer} (r w : Nat) (ha : Adv l0 l) :
    (numberFracA l0 r w l).readAs l0.input = numberFrac l0 r w l := by
  unfold numberFracA numberFrac
  split
  · rcases e1 : l.rd with ⟨r1, w1, l1⟩
    obtain ⟨a1, -, -⟩ := rd_adv' e1 ha.inv
    dsimp only
    rcases readDigits_total l1 r1 a1.inv with ⟨e, he⟩ | ⟨r', w', l', he, a', hw'⟩
    · rw [he]; rfl
    · rw [he]; dsimp only
      exact numberExpA_read true r' w' (ha.trans (a1.trans a'))
  · exact numberExpA_read false r w ha

theorem scanNumberA_read (l0 : Lexer) (r0 : Nat) (h : l0.pos ≤ l0.input.length) :
    (scanNumberA l0 r0).readAs l0.input = scanNumber l0 r0 := by
  unfold scanNumberA scanNumber
  have a := readIf_adv (r0 = 45) r0 l0 h
  dsimp only
  split
  · rcases e2 : (readIf (r0 = 45) r0 l0).2.rd with ⟨r2, w2, l2⟩
    obtain ⟨a2, hw2, -⟩ := rd_adv' e2 a.inv
    dsimp only
    split
    · rfl
    · exact numberFracA_read r2 w2 (a.trans a2)
  · rcases readDigits_total _ (readIf (r0 = 45) r0 l0).1 a.inv with
      ⟨e, he⟩ | ⟨r', w', l', he, a', hw'⟩
    · rw [he]; rfl
    · rw [he]; dsimp only
      exact numberFracA_read r' w' (a.trans a')

theorem ownedOut_read (buf : Bytes) (o : Out (Token × Lexer)) : (ownedOut o).readAs buf = o := by
  rcases o with ⟨t, l⟩ | _ | _ <;> rfl

theorem scanStringA_read (l : Lexer) (h : l.pos ≤ l.input.length) : (scanStringA l).readAs l.input = scanString l := by
  unfold scanStringA scanString
  rcases stringPass1_total l.fuel false l h (by unfold Lexer.fuel; omega) with ⟨r, l', e, a⟩ | ⟨b, l', e, a, -⟩
  · rw [e]; rfl
  · rw [e]
    dsimp only
    split
    · exact ownedOut_read _ _
    · rw [a.input]
      cases e1 : btosSlice l.input l.pos (l'.pos - 1) with
      | none => rw [btosSlice_none e1]; rfl
      | some s => rw [btosSlice_eq e1]; rfl

/-- A line with its beginning: it is what the buffer has there. -/
def InBuf (buf : Bytes) (ln : Nat × Bytes) : Prop := (buf.drop ln.1).take ln.2.length = ln.2

theorem InBuf.tail {buf : Bytes} {off b : Nat} {t : Bytes} (h : InBuf buf (off, b :: t)) : InBuf buf (off + 1, t) := by
  unfold InBuf at *
  dsimp only at *
  cases e : buf.drop off with
  | nil => rw [e] at h; simp at h
  | cons x y =>
    rw [e] at h
    simp only [List.length_cons, List.take_succ_cons, List.cons.injEq] at h
    rw [← List.drop_drop, e]
    exact h.2

theorem InBuf.cons {buf : Bytes} {off b : Nat} {t t' : Bytes} (h : InBuf buf (off, b :: t)) (h' : InBuf buf (off + 1, t')) :
    InBuf buf (off, b :: t') := by
  unfold InBuf at *
  dsimp only at *
  cases e : buf.drop off with
  | nil => rw [e] at h; simp at h
  | cons x y =>
    rw [e] at h
    rw [← List.drop_drop, e] at h'
    simp only [List.length_cons, List.take_succ_cons, List.cons.injEq] at h ⊢
    exact ⟨h.1, h'⟩

theorem InBuf.nil {buf : Bytes} {off : Nat} : InBuf buf (off, []) := rfl

theorem InBuf.drop {buf : Bytes} {off : Nat} {t : Bytes} (h : InBuf buf (off, t)) (c : Nat) : InBuf buf (off + c, t.drop c) := by
  induction c generalizing off t with
  | zero => exact h
  | succ c ih =>
    cases t with
    | nil => exact rfl
    | cons b t =>
      have := ih h.tail
      rw [show off + (c + 1) = off + 1 + c by omega]
      exact this

theorem splitOnA_cons (sep off b : Nat) (t : Bytes) (h : b ≠ sep) :
    ∃ o1 l1 r, splitOnA sep (off + 1) t = (o1, l1) :: r ∧ splitOnA sep off (b :: t) = (off, b :: l1) :: r := by
  rw [splitOnA, if_neg h]
  cases e : splitOnA sep (off + 1) t with
  | nil =>
    cases t with
    | nil => cases e
    | cons x t =>
      simp only [splitOnA] at e
      split at e
      · cases e
      · split at e <;> cases e
  | cons x r => exact ⟨x.1, x.2, r, rfl, rfl⟩

theorem splitOnA_snd (sep off : Nat) (s : Bytes) : (splitOnA sep off s).map (·.2) = splitOn sep s := by
  induction s generalizing off with
  | nil => rfl
  | cons b t ih =>
    by_cases h : b = sep
    · rw [splitOnA, splitOn, if_pos h, if_pos h, List.map_cons, ih]
    · obtain ⟨o1, l1, r, e1, e2⟩ := splitOnA_cons sep off b t h
      rw [e2, splitOn, if_neg h, ← ih (off + 1), e1]
      rfl

theorem splitOnA_head (sep off : Nat) (s : Bytes) : ∃ l r, splitOnA sep off s = (off, l) :: r := by
  cases s with
  | nil => exact ⟨_, _, rfl⟩
  | cons b t =>
    by_cases h : b = sep
    · rw [splitOnA, if_pos h]; exact ⟨_, _, rfl⟩
    · obtain ⟨o1, l1, r, e1, e2⟩ := splitOnA_cons sep off b t h
      exact ⟨_, _, e2⟩

theorem splitOnA_inBuf {buf : Bytes} (sep : Nat) {off : Nat} {s : Bytes} (h : InBuf buf (off, s)) : ∀ ln ∈ splitOnA sep off s, InBuf buf ln := by
  induction s generalizing off with
  | nil => intro ln hl; simp only [splitOnA, List.mem_singleton] at hl; subst hl; rfl
  | cons b t ih =>
    have ih := ih h.tail
    by_cases hb : b = sep
    · rw [splitOnA, if_pos hb]
      intro ln hl
      rcases List.mem_cons.1 hl with rfl | hl
      · exact rfl
      · exact ih _ hl
    · obtain ⟨l0, r0, e0⟩ := splitOnA_head sep (off + 1) t
      obtain ⟨o1, l1, r, e1, e2⟩ := splitOnA_cons sep off b t hb
      rw [e1] at e0
      obtain ⟨e3, e4⟩ := List.cons.inj e0
      obtain ⟨e5, e6⟩ := Prod.mk.inj e3
      rw [e2]
      intro ln hl
      rcases List.mem_cons.1 hl with rfl | hl
      · refine h.cons ?_
        have := ih (o1, l1) (by rw [e1]; exact List.mem_cons_self ..)
        rw [e5] at this
        exact this
      · exact ih _ (by rw [e1]; exact List.mem_cons_of_mem _ hl)

theorem stripIndentA_snd (ci : Option Nat) (ls : List (Nat × Bytes)) : (stripIndentA ci ls).map (·.2) = stripIndent ci (ls.map (·.2)) := by
  rcases ci with _ | c <;> rcases ls with _ | ⟨h, t⟩ <;> try rfl
  simp only [stripIndentA, stripIndent, List.map_cons, List.map_map]
  congr 1
  apply List.map_congr_left
  intro ln _
  dsimp only [Function.comp]
  split <;> rfl

theorem stripIndentA_inBuf {buf : Bytes} (ci : Option Nat) {ls : List (Nat × Bytes)} (h : ∀ ln ∈ ls, InBuf buf ln) :
    ∀ ln ∈ stripIndentA ci ls, InBuf buf ln := by
  rcases ci with _ | c <;> rcases ls with _ | ⟨x, t⟩ <;> try exact h
  intro ln hl
  rcases List.mem_cons.1 hl with rfl | hl
  · exact h _ (List.mem_cons_self ..)
  · obtain ⟨y, hy, rfl⟩ := List.mem_map.1 hl
    split
    · rfl
    · exact (h _ (List.mem_cons_of_mem _ hy)).drop c

theorem map_dropWhile_snd {p : Bytes → Bool} (ls : List (Nat × Bytes)) :
    (ls.dropWhile (fun ln => p ln.2)).map (·.2) = (ls.map (·.2)).dropWhile p := by
  induction ls with
  | nil => rfl
  | cons x t ih =>
    rw [List.map_cons, List.dropWhile_cons, List.dropWhile_cons]
    split
    · exact ih
    · rfl

theorem trimBlankA_snd (ls : List (Nat × Bytes)) : (trimBlankA ls).map (·.2) = trimBlank (ls.map (·.2)) := by
  unfold trimBlankA trimBlank
  rw [List.map_reverse, map_dropWhile_snd (p := blankLine), List.map_reverse, map_dropWhile_snd (p := blankLine)]

theorem trimBlankA_mem {ls : List (Nat × Bytes)} {ln} (h : ln ∈ trimBlankA ls) : ln ∈ ls := by
  unfold trimBlankA at h
  rw [List.mem_reverse] at h
  have := (List.dropWhile_sublist _).mem h
  rw [List.mem_reverse] at this
  exact (List.dropWhile_sublist _).mem this

theorem joinA_value {buf : Bytes} {ls : List (Nat × Bytes)} (h : ∀ ln ∈ ls, InBuf buf ln) : (joinA ls).value buf = joinWith [10] (ls.map (·.2)) := by
  rcases ls with _ | ⟨a, _ | ⟨b, t⟩⟩
  · rfl
  · exact h a (List.mem_singleton.2 rfl)
  · rfl

theorem blockStringLiteralA_value {buf : Bytes} {off : Nat} {raw : Bytes} (h : InBuf buf (off, raw)) :
    (blockStringLiteralA off raw).1.value buf = (blockStringLiteral raw).1 ∧ (blockStringLiteralA off raw).2 = (blockStringLiteral raw).2 := by
  have e := splitOnA_snd 10 off raw
  have el : (splitOnA 10 off raw).length = (splitOn 10 raw).length := by rw [← e, List.length_map]
  refine ⟨?_, el⟩
  unfold blockStringLiteralA blockStringLiteral
  dsimp only
  rw [joinA_value (fun ln hl => stripIndentA_inBuf _ (splitOnA_inBuf 10 h) ln (trimBlankA_mem hl)), trimBlankA_snd, stripIndentA_snd, e]
  congr 4
  rw [← e]
  by_cases h1 : (splitOnA 10 off raw).length > 1
  · rw [if_pos h1, if_pos (by rw [List.length_map]; exact h1), List.map_drop]
  · rw [if_neg h1, if_neg (by rw [List.length_map]; exact h1)]

theorem scanBlockStringA_read (l : Lexer) (h : l.pos ≤ l.input.length) : (scanBlockStringA l).readAs l.input = scanBlockString l := by
  unfold scanBlockStringA scanBlockString
  dsimp only
  rcases blockPass1_total l.fuel false false l h (by unfold Lexer.fuel; omega) with ⟨e0, l', e, a⟩ | ⟨b1, b2, l', e, a, -⟩
  · rw [e]; rfl
  · rw [e]
    dsimp only
    split
    · rw [a.input]
      cases e1 : slice l.input l.pos (l'.pos - 3) with
      | none => rfl
      | some raw =>
        have hb : InBuf l.input (l.pos, raw) := by
          unfold slice at e1
          split at e1
          · cases e1
            unfold InBuf
            dsimp only
            rw [List.length_take, ← List.take_take]
            congr 1
            exact (List.take_length ..).symm ▸ rfl
          · cases e1
        obtain ⟨h1, h2⟩ := blockStringLiteralA_value hb
        dsimp only [Out.readAs, ATok.read]
        rw [h1, h2]
    · cases blockPass2 l.fuel [] l with
      | panic => rfl
      | oof => rfl
      | ret x => rcases x with ⟨e, l2⟩ | ⟨raw, l2⟩ <;> rfl

theorem scanFA_read (n : Nat) (l : Lexer) (h : l.pos ≤ l.input.length) : (scanFA n l).readAs l.input = scanF n l := by
  induction n generalizing l with
  | zero => rfl
  | succ n ih =>
    unfold scanFA scanF
    obtain ⟨r, w, l0, e, a, hw, p⟩ := readNextSignificant_total l.fuel false l h (by unfold Lexer.fuel; omega)
    rw [e, ← a.input]; dsimp only
    split
    · exact scanNameA_read l0 a.inv
    · split
      · exact scanPunctuatorA_read l0 r w
      · split
        · exact scanNumberA_read l0 r a.inv
        · split
          · obtain ⟨l1, e1, a1⟩ := skipComment_total l0.fuel false l0 a.inv (by unfold Lexer.fuel; omega)
            rw [e1, ← a1.input]; dsimp only
            exact ih l1 (a.trans a1).inv
          · split
            · rcases e1 : l0.rd with ⟨r1, w1, l1⟩
              obtain ⟨a1, hw1, p1⟩ := rd_adv' e1 a.inv
              rcases e2 : l1.rd with ⟨r2, w2, l2⟩
              obtain ⟨a2, hw2, p2⟩ := rd_adv' e2 a1.inv
              dsimp only
              split
              · rw [← (a1.trans a2).input]
                exact scanBlockStringA_read l2 (a1.trans a2).inv
              · have h3 : Adv l1 (l2.unread w2) := a2.unread hw2
                have h4 : Adv l0 ((l2.unread w2).unread w1) := (a1.trans h3).unread (by have := h3.le; omega)
                rw [← h4.input]
                exact scanStringA_read _ h4.inv
            · split <;> rfl

theorem scanA_read (l : Lexer) (h : l.pos ≤ l.input.length) : (scanA l).readAs l.input = scan l := scanFA_read _ l h

/-- Tokens as they read now. -/
def Out.readAll (buf : Bytes) : Out (List ATok) → Out (List Token)
  | .ret ts => .ret (ts.map (ATok.read buf))
  | .panic => .panic
  | .oof => .oof

theorem tokensFA_read (n : Nat) (l : Lexer) (h : l.pos ≤ l.input.length) : (tokensFA n l).readAll l.input = tokensF n l := by
  induction n generalizing l with
  | zero => rfl
  | succ n ih =>
    unfold tokensFA tokensF
    have e := scanA_read l h
    obtain ⟨t, l', e1, a, -⟩ := scanF_total l.fuel l h (by unfold Lexer.fuel; omega)
    replace e1 : scan l = .ret (t, l') := e1
    rw [e1] at e ⊢
    rcases e2 : scanA l with ⟨ta, la⟩ | _ | _ <;> rw [e2] at e
    · obtain ⟨rfl, rfl⟩ := Prod.mk.inj (Out.ret.inj e)
      dsimp only [ATok.read]
      split
      · rfl
      · have := ih la a.inv
        rw [a.input] at this
        rw [← this]
        cases tokensFA n la <;> rfl
    · cases e
    · cases e

theorem tokensA_read (input : Bytes) : (tokensA input).readAll input = tokens input := tokensFA_read _ (newLexer input) (Nat.zero_le _)

end GQL
