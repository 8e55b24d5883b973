/-
The positions of tokens, exactly.
-/
import Verif.Spec.GoPos
import Verif.Proofs.LexRun

namespace GQL
open Spec

/-- Where the lexer is. -/
def Lexer.place (l : Lexer) : Place := ⟨l.line, l.lpos⟩

/-- The lexer at another place. -/
def Lexer.move (l : Lexer) (p : Place) : Lexer := { l with line := p.line, lpos := p.col }

theorem At.move {l : Lexer} {cs : List Char} (h : At l cs) (p : Place) : At (l.move p) cs := ⟨h.le, h.eq⟩

/-- What `readNextSignificant` does, with the place. -/
theorem rns_exact {n : Nat} {w : Bool} {l : Lexer} {ign cs' : List Char} (h : At l (ign ++ cs')) (hi : ∀ c ∈ ign, ignored c = true)
    (hs : notNext ignored cs') (hn : (ign ++ cs').length < n) :
    ∃ (lS : Lexer) (m : Bool), At lS cs' ∧ lS.input = l.input ∧ readNextSignificant n w l = .ret (nxt cs', nxtW cs', lS.step cs') ∧
      ign.foldl gapStep ((if w then .afterCR else .plain), l.place) = ((if (m : Bool) then .afterCR else .plain), lS.place) := by
  induction ign generalizing n w l with
  | nil =>
    obtain _ | n := n
    · omega
    refine ⟨l, w, h, rfl, ?_, rfl⟩
    unfold readNextSignificant
    rw [rd_at h]; dsimp only
    obtain _ | ⟨c, cs⟩ := cs'
    · rw [List.nil_append, if_neg (by simp [nxt]), if_neg (by simp [nxt]), if_neg (by simp [nxt])]
    · have := hs c cs rfl
      have hni : ¬ _ := fun hh => by rw [(ignored_nat c).2 hh] at this; cases this
      rw [List.nil_append, show nxt (c :: cs) = c.toNat from rfl, if_neg (by omega), if_neg (by omega), if_neg (by omega)]
  | cons c ign ih =>
    obtain _ | n := n
    · omega
    have hlen : (ign ++ cs').length < n := by simp at hn ⊢; omega
    have hi' : ∀ d ∈ ign, ignored d = true := fun d hd => hi d (List.mem_cons_of_mem _ hd)
    have hc := (ignored_nat c).1 (hi c (List.mem_cons_self ..))
    have hh : c ≠ '#' := by intro e; subst e; revert hc; decide
    rw [List.cons_append] at h
    have e : nxt (c :: (ign ++ cs')) = c.toNat := rfl
    have est : l.step (c :: (ign ++ cs')) = l.advs [c] := rfl
    have cont : ∀ (w' : Bool) (l1 : Lexer), At l1 (ign ++ cs') → l1.input = l.input →
        gapStep ((if w then .afterCR else .plain), l.place) c = ((if w' then .afterCR else .plain), l1.place) →
        readNextSignificant (n+1) w l = readNextSignificant n w' l1 →
        ∃ (lS : Lexer) (m : Bool), At lS cs' ∧ lS.input = l.input ∧ readNextSignificant (n+1) w l = .ret (nxt cs', nxtW cs', lS.step cs') ∧
          (c :: ign).foldl gapStep ((if w then .afterCR else .plain), l.place) = ((if (m : Bool) then .afterCR else .plain), lS.place) := by
      intro w' l1 a1 a2 a3 a4
      obtain ⟨lS, m, b1, b2, b3, b4⟩ := ih (w := w') a1 hi' hlen
      refine ⟨lS, m, b1, b2.trans a2, a4.trans b3, ?_⟩
      rw [List.foldl_cons, a3]; exact b4
    by_cases h13 : c = '\r'
    · subst h13
      refine cont true _ (h.adv1.upd 0 (l.line + 1)) rfl ?_ ?_
      · cases w <;> rfl
      · conv => lhs; unfold readNextSignificant
        rw [rd_at h]; dsimp only
        rw [e, est, if_pos (by decide)]; rfl
    by_cases h10 : c = '\n'
    · subst h10
      cases w with
      | true =>
        refine cont true _ h.adv1 rfl rfl ?_
        conv => lhs; unfold readNextSignificant
        rw [rd_at h]; dsimp only
        rw [e, est, if_neg (by decide), if_pos (by decide), if_pos rfl]
      | false =>
        refine cont false _ (h.adv1.upd 0 (l.line + 1)) rfl rfl ?_
        conv => lhs; unfold readNextSignificant
        rw [rd_at h]; dsimp only
        rw [e, est, if_neg (by decide), if_pos (by decide), if_neg (by simp)]; rfl
    have n13 : c.toNat ≠ 13 := fun hh => h13 (toNat_inj (d := '\r') hh)
    have n10 : c.toNat ≠ 10 := fun hh => h10 (toNat_inj (d := '\n') hh)
    refine cont w _ h.adv1 rfl ?_ ?_
    · cases w <;> simp [gapStep, ignoreStep, h13, h10, hh] <;> rfl
    · conv => lhs; unfold readNextSignificant
      rw [rd_at h]; dsimp only
      rw [e, est, if_neg n13, if_neg n10, if_pos (by omega)]

theorem fold_body {body : List Char} (h : ∀ c ∈ body, lineTerm c = false) (p : Place) :
    body.foldl gapStep (.comment, p) = (.comment, ⟨p.line, p.col + body.length⟩) := by
  induction body generalizing p with
  | nil => rfl
  | cons c body ih =>
    have hc := h c (List.mem_cons_self ..)
    have h1 : c ≠ '\r' := by rintro rfl; cases hc
    have h2 : c ≠ '\n' := by rintro rfl; cases hc
    rw [List.foldl_cons, gapStep, if_neg h1, if_neg h2, ih fun d hd => h d (List.mem_cons_of_mem _ hd)]
    simp [Place.next]; omega

/-- What `skipComment` does, with the place. -/
theorem comment_exact {n : Nat} {l : Lexer} {body term text : List Char} (h : At l (body ++ (term ++ text))) (hz : NoNul (body ++ (term ++ text)))
    (hb : ∀ c ∈ body, lineTerm c = false) (ht : Term term text) (hn : (body ++ (term ++ text)).length < n) :
    ∃ l', At l' text ∧ l'.input = l.input ∧ skipComment n false l = .ret l' ∧
      ∀ g t, text = g ++ t →
        ((term ++ g).foldl gapStep (.comment, ⟨l.line, l.lpos + body.length⟩)).2 = (g.foldl gapStep (.plain, l'.place)).2 := by
  induction body generalizing n l with
  | nil =>
    obtain _ | n := n
    · omega
    rw [List.nil_append] at h hz
    unfold skipComment
    rw [rd_at h]; dsimp only
    cases ht with
    | eof =>
      refine ⟨l, h, rfl, ?_, fun g t e => ?_⟩
      · rw [if_pos (show nxt ([] ++ []) = 0 from rfl)]; rfl
      · rw [(List.append_eq_nil_iff.1 e.symm).1]; rfl
    | lf =>
      have h' : At l ('\n' :: text) := h
      refine ⟨_, h'.adv1.upd 0 (l.line + 1), rfl, ?_, fun g t _ => rfl⟩
      rfl
    | crlf =>
      have h' : At l ('\r' :: '\n' :: text) := h
      obtain _ | n := n
      · simp at hn
      have hu := h'.adv1.upd 0 (l.line + 1)
      refine ⟨_, hu.adv1.upd 0 (l.line + 1), rfl, ?_, fun g t _ => rfl⟩
      show skipComment (n+1) true { l.advs ['\r'] with lpos := 0, line := l.line + 1 } = _
      unfold skipComment
      rw [rd_at hu]; rfl
    | cr _ hd =>
      have h' : At l ('\r' :: text) := h
      obtain _ | n := n
      · simp at hn
      have hu := h'.adv1.upd 0 (l.line + 1)
      have ef : ∀ g t, text = g ++ t → (g.foldl gapStep (.commentCR, ⟨l.line + 1, 0⟩)).2 = (g.foldl gapStep (.plain, ⟨l.line + 1, 0⟩)).2 := by
        intro g t e
        cases g with
        | nil => rfl
        | cons d g =>
          rw [List.foldl_cons, List.foldl_cons]
          have : gapStep (.commentCR, ⟨l.line + 1, 0⟩) d = gapStep (.plain, ⟨l.line + 1, 0⟩) d := by
            show (if d = '\n' then _ else _) = _
            rw [if_neg (hd d (g ++ t) e)]; rfl
          rw [this]
      refine ⟨_, hu, rfl, ?_, ef⟩
      show skipComment (n+1) true { l.advs ['\r'] with lpos := 0, line := l.line + 1 } = _
      unfold skipComment
      rw [rd_at hu]; dsimp only
      cases text with
      | nil => rfl
      | cons d t =>
        have hd := hd d t rfl
        rw [show nxt (d :: t) = d.toNat from rfl, if_neg hz.tail.head,
          if_neg (by
            simp only [Bool.true_and, decide_eq_true_eq]
            exact fun hh => hd (toNat_inj (d := '\n') hh)), if_pos (by
            simp only [Bool.true_and, ne_eq, decide_not, Bool.not_eq_true', decide_eq_false_iff_not]
            exact fun hh => hd (toNat_inj (d := '\n') hh))]
        show Out.ret (((_ : Lexer).advs [d]).unread (cw d)) = _
        rw [unread_adv]
  | cons c body ih =>
    obtain _ | n := n
    · omega
    have hc := hb c (List.mem_cons_self ..)
    have h1 : c ≠ '\r' := by rintro rfl; cases hc
    have h2 : c ≠ '\n' := by rintro rfl; cases hc
    have h' : At l (c :: (body ++ (term ++ text))) := h
    obtain ⟨l', q1, q2, q3, q4⟩ := ih (n := n) h'.adv1 hz.tail (fun d hd => hb d (List.mem_cons_of_mem _ hd)) (by simp at hn ⊢; omega)
    refine ⟨l', q1, q2, ?_, ?_⟩
    · unfold skipComment
      rw [rd_at h']; dsimp only
      rw [show nxt (c :: (body ++ (term ++ text))) = c.toNat from rfl, if_neg hz.head]
      simp only [Bool.false_and, Bool.false_eq_true, if_false]
      have n13 : c.toNat ≠ 13 := fun hh => h1 (toNat_inj (d := '\r') hh)
      have n10 : c.toNat ≠ 10 := fun hh => h2 (toNat_inj (d := '\n') hh)
      rw [if_neg n13, if_neg n10]
      exact q3
    · intro g t e
      rw [← q4 g t e]
      show _ = ((term ++ g).foldl gapStep (.comment, ⟨l.line, l.lpos + 1 + body.length⟩)).2
      rw [List.length_cons, show l.lpos + (body.length + 1) = l.lpos + 1 + body.length by omega]

/-- `Scan` up to the token, with the place. -/
theorem scanF_place {n : Nat} {l : Lexer} {cs : List Char} (h : At l cs) (hz : NoNul cs) (hn : cs.length < n) :
    ∃ ign cs' lS, cs = ign ++ cs' ∧
      (∀ pre items rest, Lex GoBlock (pre ++ ign) cs' items rest → Lex GoBlock pre cs items rest) ∧
      (∀ c t, cs' = c :: t → ignored c = false ∧ c ≠ '#') ∧
      At lS cs' ∧ lS.input = l.input ∧ scanF n l = scanTok (nxt cs') (nxtW cs') (lS.step cs') ∧
      lS.place = l.place.skip ign := by
  induction n generalizing l cs with
  | zero => omega
  | succ n ih =>
    unfold scanF
    obtain ⟨ign, cs', -, p1, p2, p3, -, -, -, -, -⟩ := rns_at (n := l.fuel) (wasCR := false) h hz (fuel_length h)
    subst p1
    obtain ⟨lS, m, p4, p5, p6, p7⟩ := rns_exact (n := l.fuel) (w := false) h p2 p3 (fuel_length h)
    rw [p6]; dsimp only
    have hz' : NoNul cs' := hz.right
    by_cases hc : nxt cs' = 35
    · obtain _ | ⟨c, cs'⟩ := cs'
      · cases hc
      have := toNat_inj (c := c) (d := '#') hc; subst this
      rw [show nxt ('#' :: cs') = 35 from rfl, if_neg (by decide), if_neg (by decide), if_neg (by decide), if_pos rfl]
      have a1 : At (lS.step ('#' :: cs')) cs' := p4.step
      obtain ⟨body, term, text, -, q1, q2, q3, -, -, -, -, -⟩ :=
        comment_at (n := (lS.step ('#' :: cs')).fuel) a1 hz'.tail (fuel_length a1)
      subst q1
      obtain ⟨l', q4, q5, q6, q7⟩ := comment_exact (n := (lS.step ('#' :: (body ++ (term ++ text)))).fuel) a1 hz'.tail q2 q3 (fuel_length a1)
      rw [q6]; dsimp only
      have hzt : NoNul text := (hz'.tail.right (a := body)).right
      obtain ⟨ign2, cs'', lT, r1, r2, r3, r4, r5, r6, r7⟩ := ih (l := l') (cs := text) q4 hzt (by simp at hn; omega)
      refine ⟨ign ++ ('#' :: body ++ (term ++ ign2)), cs'', lT, ?_, ?_, r3, r4, ?_, r6, ?_⟩
      · rw [r1]; simp
      · intro pre items rest hl
        apply Lex.ignAll p2
        have : '#' :: (body ++ (term ++ text)) = '#' :: body ++ (term ++ text) := rfl
        rw [this]
        apply Lex.comment q2 (term_head q3)
        apply Lex.ignAll (term_ignored q3)
        apply r2
        simpa using hl
      · rw [r5, q5]; exact p5
      · rw [r7]
        show (ign2.foldl gapStep (.plain, l'.place)).2 = ((ign ++ ('#' :: body ++ (term ++ ign2))).foldl gapStep (.plain, l.place)).2
        rw [← q7 ign2 cs'' r1, List.foldl_append (l := ign)]
        have p7 : ign.foldl gapStep (.plain, l.place) = _ := p7
        rw [p7, List.cons_append, List.foldl_cons]
        have : gapStep (if m then .afterCR else .plain, lS.place) '#' = (.comment, lS.place.next) := by cases m <;> rfl
        rw [this, List.foldl_append (l := body), fold_body q2]
        rfl
    · refine ⟨ign, cs', lS, rfl, ?_, ?_, p4, p5, ?_, ?_⟩
      · intro pre items rest hl; exact Lex.ignAll p2 hl
      · rintro c t rfl
        exact ⟨p3 c t rfl, fun hh => hc (by rw [hh]; rfl)⟩
      · unfold scanTok; rw [if_neg hc]
      · show _ = (ign.foldl gapStep (.plain, l.place)).2
        have : ign.foldl gapStep (.plain, l.place) = _ := p7
        rw [this]

theorem strText_noCR {s v rest lx : List Char} (h : StrText s v rest) (hs : s = lx ++ rest) : ∀ c ∈ lx, c ≠ '\r' := by
  have hexne : ∀ {a i}, hexVal a = some i → a ≠ '\r' := by
    rintro a i h rfl; rw [show hexVal '\r' = none by decide] at h; cases h
  induction h generalizing lx with
  | close rest =>
    have : lx = ['"'] := (List.append_cancel_right (show ['"'] ++ rest = lx ++ rest from hs)).symm
    subst this; simp
  | char c h1 h2 h3 h4 ih =>
    obtain ⟨lx', e⟩ := h4.split
    have : lx = c :: lx' := by
      rw [e, ← List.cons_append] at hs; exact (List.append_cancel_right hs).symm
    subst this
    intro d hd
    rcases List.mem_cons.1 hd with rfl | hd
    · rintro rfl; revert h3; decide
    · exact ih e d hd
  | esc e x h1 h2 ih =>
    obtain ⟨lx', e'⟩ := h2.split
    have : lx = '\\' :: e :: lx' := by
      rw [e', ← List.cons_append, ← List.cons_append] at hs; exact (List.append_cancel_right hs).symm
    subst this
    intro d hd
    rcases List.mem_cons.1 hd with rfl | hd
    · decide
    rcases List.mem_cons.1 hd with rfl | hd
    · rintro rfl
      rw [simpleEscape_table] at h1; simp [simpleEscape] at h1
    · exact ih e' d hd
  | @unicode a b c d i j k m s v rest h1 h2 h3 h4 h5 ih =>
    obtain ⟨lx', e'⟩ := h5.split
    have : lx = '\\' :: 'u' :: a :: b :: c :: d :: lx' := by
      rw [e'] at hs; simp only [← List.cons_append] at hs; exact (List.append_cancel_right hs).symm
    subst this
    intro x hx
    simp only [List.mem_cons] at hx
    rcases hx with rfl | rfl | rfl | rfl | rfl | rfl | hx
    · decide
    · decide
    · exact hexne h1
    · exact hexne h2
    · exact hexne h3
    · exact hexne h4
    · exact ih e' x hx

/-- The tokens that are not block strings have no line terminators. -/
theorem lexeme_oneLine {lx rest : List Char} {tok : Tok} (h : Lexeme GoBlock (lx ++ rest) tok rest) :
    (∃ s raw, lx = quotes3 ++ s ∧ GoBlockText (s ++ rest) raw rest) ∨ ((∀ c ∈ lx, lineTerm c = false) ∧ tokenBreaks lx = 0) := by
  have digitOk : ∀ {c : Char}, c.isDigit = true → lineTerm c = false ∧ c ≠ '"' := by
    intro c hc
    have h1 : c ≠ '\n' := by rintro rfl; revert hc; decide
    have h2 : c ≠ '\r' := by rintro rfl; revert hc; decide
    have h3 : c ≠ '"' := by rintro rfl; revert hc; decide
    exact ⟨by simp [lineTerm, h1, h2], h3⟩
  have intOk : ∀ {i}, IsIntegerPart i → ∀ c ∈ i, lineTerm c = false ∧ c ≠ '"' := by
    intro i hi
    cases hi with
    | zero => decide
    | negZero => decide
    | pos c ds h1 h2 h3 =>
      intro d hd
      rcases List.mem_cons.1 hd with rfl | hd
      · exact digitOk h1
      · exact digitOk (h3 d hd)
    | neg c ds h1 h2 h3 =>
      intro d hd
      simp only [List.mem_cons] at hd
      rcases hd with rfl | rfl | hd
      · decide
      · exact digitOk h1
      · exact digitOk (h3 d hd)
  have fracOk : ∀ {i}, IsFraction i → ∀ c ∈ i, lineTerm c = false ∧ c ≠ '"' := by
    rintro i ⟨ds, hds⟩ d hd
    rcases List.mem_cons.1 hd with rfl | hd
    · decide
    · exact digitOk (hds.2 d hd)
  have expOk : ∀ {i}, IsExponent i → ∀ c ∈ i, lineTerm c = false ∧ c ≠ '"' := by
    rintro i (⟨e, ds, he, hds⟩ | ⟨e, s, ds, he, hse, hds⟩) d hd
    · rcases List.mem_cons.1 hd with rfl | hd
      · rcases he with rfl | rfl <;> decide
      · exact digitOk (hds.2 d hd)
    · simp only [List.mem_cons] at hd
      rcases hd with rfl | rfl | hd
      · rcases he with rfl | rfl <;> decide
      · rcases hse with rfl | rfl <;> decide
      · exact digitOk (hds.2 d hd)
  have fin : ∀ {lx' : List Char}, lx' ++ rest = lx ++ rest → (∀ c ∈ lx', lineTerm c = false ∧ c ≠ '"') →
      (∃ s raw, lx = quotes3 ++ s ∧ GoBlockText (s ++ rest) raw rest) ∨ ((∀ c ∈ lx, lineTerm c = false) ∧ tokenBreaks lx = 0) := by
    intro lx' e hh
    have := List.append_cancel_right e
    subst this
    refine .inr ⟨fun c hc => (hh c hc).1, ?_⟩
    unfold tokenBreaks
    split
    · exact absurd rfl (hh '"' (List.mem_cons_self ..)).2
    · rfl
  generalize hs : lx ++ rest = s at h
  cases h with
  | punct c rest hc =>
    refine fin (lx' := [c]) hs.symm ?_
    intro d hd; simp only [List.mem_singleton] at hd; subst hd
    have : ∀ d ∈ punctuators, lineTerm d = false ∧ d ≠ '"' := by decide
    exact this d hc
  | spread rest => exact fin (lx' := ['.', '.', '.']) hs.symm (by decide)
  | name c w rest h1 h2 h3 =>
    refine fin (lx' := c :: w) hs.symm ?_
    intro d hd
    have hn : nameCont d = true := by
      rcases List.mem_cons.1 hd with rfl | hd
      · exact nameCont_of_start h1
      · exact h2 d hd
    have h1 : d ≠ '\n' := by rintro rfl; revert hn; decide
    have h2 : d ≠ '\r' := by rintro rfl; revert hn; decide
    have h3 : d ≠ '"' := by rintro rfl; revert hn; decide
    exact ⟨by simp [lineTerm, h1, h2], h3⟩
  | int i rest hi hr => exact fin hs.symm (intOk hi)
  | fraction i f rest hi hf hr =>
    refine fin hs.symm fun c hc => ?_
    rcases List.mem_append.1 hc with hc | hc
    · exact intOk hi c hc
    · exact fracOk hf c hc
  | exponent i f rest hi hf hr =>
    refine fin hs.symm fun c hc => ?_
    rcases List.mem_append.1 hc with hc | hc
    · exact intOk hi c hc
    · exact expOk hf c hc
  | fracExp i f e rest hi hf he hr =>
    refine fin hs.symm fun c hc => ?_
    rcases List.mem_append.1 hc with hc | hc
    · rcases List.mem_append.1 hc with hc | hc
      · exact intOk hi c hc
      · exact fracOk hf c hc
    · exact expOk he c hc
  | @string s v rest hst hv =>
    right
    obtain ⟨lx', e⟩ := hst.split
    have hlx : lx = '"' :: lx' := by
      rw [e, ← List.cons_append] at hs; exact List.append_cancel_right hs
    subst hlx
    refine ⟨fun c hc => ?_, ?_⟩
    · rcases List.mem_cons.1 hc with rfl | hc
      · decide
      · have h1 := strText_noLF hst e c hc
        have h2 : c ≠ '\r' := strText_noCR hst e c hc
        simp [lineTerm, h1, h2]
    · unfold tokenBreaks
      split
      · rename_i s' e'
        cases e'
        generalize hx : '"' :: '"' :: s' ++ rest = x at e
        subst e
        cases hst with
        | close =>
          have := congrArg List.length hx
          simp at this; omega
        | char c h => cases hx; exact absurd rfl h
        | esc => cases hx
        | unicode => cases hx
      · rfl
  | @block s v rest hb =>
    left
    obtain ⟨raw, hgt, rfl⟩ := hb
    obtain ⟨lx', e⟩ := hgt.split
    have hlx : lx = quotes3 ++ lx' := by
      rw [e, ← List.append_assoc] at hs; exact List.append_cancel_right hs
    exact ⟨lx', raw, hlx, e ▸ hgt⟩

theorem crDropped_append {lx rest : List Char} (h : ∃ x, lx = x ++ quotes3) : crDropped (lx ++ rest) = crDropped lx := by
  obtain ⟨x, rfl⟩ := h
  obtain _ | ⟨a, _ | ⟨b, x⟩⟩ := x <;> rfl

/-- The line breaks in a block string. -/
theorem goBlock_breaks {s raw rest lx : List Char} (h : GoBlockText s raw rest) (hs : s = lx ++ rest) :
    raw.count '\n' = goBreaks lx ∧ ∃ x, lx = x ++ quotes3 := by
  induction h generalizing lx with
  | close rest =>
    have : lx = quotes3 := (List.append_cancel_right (show quotes3 ++ rest = lx ++ rest from hs)).symm
    subst this; exact ⟨rfl, [], rfl⟩
  | @esc s v rest h ih =>
    obtain ⟨lx', e'⟩ := h.split
    have hlx : lx = '\\' :: quotes3 ++ lx' := by
      rw [e', ← List.append_assoc] at hs; exact (List.append_cancel_right hs).symm
    subst hlx
    obtain ⟨i1, x, rfl⟩ := ih e'
    refine ⟨?_, '\\' :: quotes3 ++ x, by simp⟩
    rw [List.count_append, i1]
    show _ = goBreaks ('\\' :: '"' :: '"' :: '"' :: _)
    rw [goBreaks]
    simp [quotes3]
  | @pair c s v rest hq h ih =>
    obtain ⟨lx', e'⟩ := h.split
    have hlx : lx = '\\' :: c :: lx' := by
      rw [e', ← List.cons_append, ← List.cons_append] at hs; exact (List.append_cancel_right hs).symm
    subst hlx
    obtain ⟨i1, x, e2⟩ := ih e'
    refine ⟨?_, '\\' :: c :: x, by rw [e2]; rfl⟩
    rw [goBreaks, List.count_cons, List.count_cons, i1]
    · by_cases hc : c = '\n' <;> simp [hc] <;> omega
    · rintro y rfl rfl
      apply hq
      exact ⟨y ++ rest, by rw [e']; rfl⟩
  | @cr s v rest h ih =>
    obtain ⟨lx', e'⟩ := h.split
    have hlx : lx = '\r' :: lx' := by
      rw [e', ← List.cons_append] at hs; exact (List.append_cancel_right hs).symm
    subst hlx
    obtain ⟨i1, x, e2⟩ := ih e'
    refine ⟨?_, '\r' :: x, by rw [e2]; rfl⟩
    rw [e', crDropped_append ⟨x, e2⟩, goBreaks]
    · cases hd : crDropped lx' <;> simp [i1, Nat.add_comm]
    · intro _ hh; cases hh
    · intro _ _ hh; cases hh
  | @char c s v rest h1 h2 h3 h4 h ih =>
    obtain ⟨lx', e'⟩ := h.split
    have hlx : lx = c :: lx' := by
      rw [e', ← List.cons_append] at hs; exact (List.append_cancel_right hs).symm
    subst hlx
    obtain ⟨i1, x, e2⟩ := ih e'
    refine ⟨?_, c :: x, by rw [e2]; rfl⟩
    rw [goBreaks, List.count_cons, i1]
    · by_cases hc : c = '\n' <;> simp [hc, h2] <;> omega
    · intro _ hh; exact absurd hh h1
    · intro _ _ hh; exact absurd hh h1

theorem scanQuote_short {l : Lexer} (h : At l ['"']) : scanQuote l = scanString { l with lpos := l.lpos - 1 } := by
  unfold scanQuote
  rw [rd_at h]; dsimp only
  rw [rd_at h.step]; dsimp only
  rw [if_neg (by rintro ⟨-, h⟩; cases h)]
  show scanString (((l.advs ['"']).unread 0).unread (cw '"')) = _
  rw [advs_one]; simp [Lexer.unread]

/-- Where a token is and where it ends. -/
theorem lexeme_place {lS : Lexer} {lx rest : List Char} {tok : Tok} {t : Token} {l' : Lexer}
    (h : Lexeme GoBlock (lx ++ rest) tok rest) (ha : At lS (lx ++ rest)) (hz : NoNul (lx ++ rest))
    (hr : scanTok (nxt (lx ++ rest)) (nxtW (lx ++ rest)) (lS.step (lx ++ rest)) = .ret (t, l')) :
    let e := if lx = ['"', '"'] ∧ rest = [] then 1 else 0
    t.line = lS.line ∧ t.col = ((lS.lpos + 1 - e : Nat) : Int) ∧ l'.line = lS.line + tokenBreaks lx ∧ l'.lpos = lS.lpos + lx.length - e := by
  intro e
  obtain ⟨t', l2, s1, s2⟩ := lexeme_complete h ha hz
  rw [hr] at s1
  cases s1
  by_cases hend : lx = ['"', '"'] ∧ rest = []
  · have he : e = 1 := if_pos hend
    rw [he]
    obtain ⟨rfl, rfl⟩ := hend
    have ha' : At lS ('"' :: ['"']) := ha
    have a1 : At (lS.step ['"', '"']) ['"'] := ha'.step
    have hc := scanString_complete (l := { lS.step ['"', '"'] with lpos := (lS.step ['"', '"']).lpos - 1 }) (lx := ['"'])
      (StrText.close []) rfl ⟨a1.le, a1.eq⟩
    have := (scanTok_quote (w := 1) (l := lS.step ['"', '"'])).trans ((scanQuote_short a1).trans hc)
    rw [show scanTok 34 1 (lS.step ['"', '"']) = _ from hr] at this
    cases this
    exact ⟨rfl, rfl, rfl, rfl⟩
  · have he : e = 0 := if_neg hend
    rw [he]
    rcases lexeme_oneLine h with ⟨s, raw, hlx, hg⟩ | ⟨h1, h2⟩
    · refine ⟨s2.line, s2.col hend, ?_, ?_⟩
      all_goals
        subst hlx
        have ha' : At lS ('"' :: '"' :: '"' :: (s ++ rest)) := ha
        have a1 : At (lS.step ('"' :: '"' :: '"' :: (s ++ rest))) ('"' :: '"' :: (s ++ rest)) := ha'.step
        have a3 : At ((lS.step ('"' :: '"' :: '"' :: (s ++ rest))).advs ['"', '"']) (s ++ rest) := At.advs (a := ['"', '"']) a1
        have hfin := scanBlock_complete hg rfl a3 (hz.right (a := quotes3))
        have := (scanTok_quote (w := 1) (l := lS.step ('"' :: '"' :: '"' :: (s ++ rest)))).trans ((scanQuote_block a1).trans hfin)
        rw [show scanTok 34 1 (lS.step ('"' :: '"' :: '"' :: (s ++ rest))) = _ from hr] at this
        cases this
      · show lS.line + ((splitLF raw).length - 1) = lS.line + goBreaks s
        rw [splitLF_length, (goBlock_breaks hg rfl).1]; omega
      · show lS.lpos + 3 + s.length = _
        simp [quotes3]; omega
    · refine ⟨s2.line, s2.col hend, ?_, ?_⟩
      · rw [s2.lineSingle h1, h2]; rfl
      · exact s2.lpos (fun c hc hh => by have := h1 c hc; rw [hh] at this; cases this) hend

/-- The tokens of a text, with their places. -/
theorem tokensF_place {n : Nat} {l : Lexer} {cs : List Char} (h : At l cs) (hz : NoNul cs) (hn : cs.length < n) (pre : List Char) :
    ∃ items rest toks last, Lex GoBlock pre cs items rest ∧ Final GoBlock rest ∧ tokensF n l = .ret (toks ++ [last]) ∧
      toks.map (fun t => (t.kind, t.lit)) = items.map (fun i => (goKind i.tok.kind, utf8 i.tok.value)) ∧
      toks.map (fun t => (t.line, t.col)) =
        (positions (pre ++ cs) l.place pre.length items).map (fun p => (p.1, (p.2 : Int))) ∧
      (rest = [] → last.kind = .eof ∧ last.line = (endPlace (pre ++ cs) l.place pre.length items).line ∧
        last.col = (((endPlace (pre ++ cs) l.place pre.length items).col + 1 : Nat) : Int)) := by
  induction n generalizing l cs pre with
  | zero => omega
  | succ n ih =>
    obtain ⟨ign, cs', lS, p1, p2, p3, p4, p5, p6, p7⟩ := scanF_place (n := l.fuel) h hz (fuel_length h)
    unfold tokensF scan
    subst p1
    rw [p6]
    obtain _ | ⟨c, cs'⟩ := cs'
    · refine ⟨[], [], [], ⟨.eof, [], lS.line, lS.lpos + 1⟩, p2 _ _ _ (.done _ _), .inl rfl, ?_, rfl, rfl, fun _ => ⟨rfl, ?_⟩⟩
      · have : scanTok (nxt []) (nxtW []) (lS.step []) = .ret (⟨.eof, [], lS.line, lS.lpos + 1⟩, lS) := by
          show scanTok 0 0 lS = _
          unfold scanTok
          rw [if_neg (by decide), if_neg (by decide), if_neg (by decide), if_neg (by decide), if_pos rfl]
        rw [this]; rfl
      · have : endPlace (pre ++ (ign ++ [])) l.place pre.length [] = lS.place := by
          rw [endPlace, List.drop_left, List.append_nil, p7]
        rw [this]; exact ⟨rfl, rfl⟩
    · have hz' : NoNul (c :: cs') := hz.right
      by_cases hex : ∃ tok rest, Lexeme GoBlock (c :: cs') tok rest
      · obtain ⟨tok, rest, hlx⟩ := hex
        obtain ⟨lx, e, hne⟩ := lexeme_split hlx
        rw [e] at hlx p4 hz' hn p2 h hz ⊢
        obtain ⟨t, l', s1, s2⟩ := lexeme_complete hlx p4 hz'
        obtain ⟨x1, x2, x3, x4⟩ := lexeme_place hlx p4 hz' s1
        rw [s1]; dsimp only
        have hk : ¬ (t.kind = .eof ∨ t.kind = .illegal) := by
          rw [s2.kind]; cases tok.kind <;> simp [goKind]
        rw [if_neg hk]
        have hlen : rest.length < n := by
          have : 0 < lx.length := List.length_pos_iff.2 hne
          simp at hn; omega
        obtain ⟨items, rest', toks, last, q1, q2, q3, q4, q5, q6⟩ :=
          ih (l := l') (cs := rest) s2.at' hz'.right hlen (pre ++ ign ++ lx)
        rw [q3]
        have et : pre ++ (ign ++ (lx ++ rest)) = pre ++ ign ++ lx ++ rest := by simp
        have hb : l.place.begin pre.length ⟨tok, pre ++ ign, lx⟩ = lS.place := by
          show l.place.skip ((pre ++ ign).drop pre.length) = _
          rw [List.drop_left, p7]
        have hee : emptyAtEnd (pre ++ (ign ++ (lx ++ rest))) ⟨tok, pre ++ ign, lx⟩ = if lx = ['"', '"'] ∧ rest = [] then 1 else 0 := by
          unfold emptyAtEnd
          have : pre ++ ign ++ lx = pre ++ (ign ++ (lx ++ rest)) ↔ rest = [] := by
            rw [et]
            constructor
            · intro hh
              have := congrArg List.length hh
              simp at this
              exact this
            · rintro rfl; simp
          simp only [this]
        have hf : l.place.finish (pre ++ (ign ++ (lx ++ rest))) pre.length ⟨tok, pre ++ ign, lx⟩ = l'.place := by
          unfold Place.finish
          rw [hb, hee]
          show (⟨lS.line + tokenBreaks lx, lS.lpos + lx.length - _⟩ : Place) = ⟨l'.line, l'.lpos⟩
          rw [x3, x4]
        have hlen2 : (pre ++ ign).length + lx.length = (pre ++ ign ++ lx).length := by rw [List.length_append (as := pre ++ ign)]
        refine ⟨⟨tok, pre ++ ign, lx⟩ :: items, rest', t :: toks, last, p2 _ _ _ (.token hlx q1), q2, rfl, ?_, ?_, ?_⟩
        · simp only [List.map_cons, q4, s2.kind, s2.lit]
        · rw [positions, hf, hb, hee, List.map_cons, List.map_cons]
          show _ :: toks.map _ = _ :: List.map _ (positions _ _ ((pre ++ ign).length + lx.length) _)
          rw [q5, hlen2, et, x1, x2]
          rfl
        · intro hrest
          rw [endPlace, hf]
          show _ ∧ last.line = (endPlace _ _ ((pre ++ ign).length + lx.length) _).line ∧ last.col = (((endPlace _ _ ((pre ++ ign).length + lx.length) _).col + 1 : Nat) : Int)
          rw [hlen2, et]
          exact q6 hrest
      · rcases lexeme_sound p4 hz' with h' | ⟨tk, l', e, hk⟩
        · exact absurd h' hex
        · refine ⟨[], c :: cs', [], tk, p2 _ _ _ (.done _ _), ?_, ?_, rfl, rfl, fun hh => by cases hh⟩
          · right
            exact ⟨c, cs', rfl, (p3 c cs' rfl).1, (p3 c cs' rfl).2, fun tok rest hh => hex ⟨tok, rest, hh⟩⟩
          · have e' : scanTok (nxt (c :: cs')) (nxtW (c :: cs')) (lS.step (c :: cs')) = .ret (tk, l') := e
            rw [e']; dsimp only
            rw [if_pos (.inr hk)]; rfl

end GQL
