/-
How many calls of `Scan` inside one another it takes to reach a token.
-/
import Verif.Spec.Depth
import Verif.Model.Stack
import Verif.Proofs.LexRun

namespace GQL
open Spec

theorem leading_ign {ign cs : List Char} (h : ∀ c ∈ ign, ignored c = true) : leadingComments false (ign ++ cs) = leadingComments false cs := by
  induction ign with
  | nil => rfl
  | cons c ign ih =>
    have hc := h c (List.mem_cons_self ..)
    have hne : c ≠ '#' := by intro e; subst e; revert hc; decide
    rw [List.cons_append, leadingComments, if_neg hne, if_pos hc]
    exact ih fun d hd => h d (List.mem_cons_of_mem _ hd)

theorem leading_body {body text : List Char} (h : ∀ c ∈ body, lineTerm c = false) : leadingComments true (body ++ text) = leadingComments true text := by
  induction body with
  | nil => rfl
  | cons c body ih =>
    rw [List.cons_append, leadingComments, h c (List.mem_cons_self ..)]
    exact ih fun d hd => h d (List.mem_cons_of_mem _ hd)

theorem leading_term {term text : List Char} (h : Term term text) : leadingComments true (term ++ text) = leadingComments false text := by
  cases h with
  | eof => rfl
  | lf => rfl
  | crlf => rfl
  | cr => rfl

theorem leading_comment {body term text : List Char} (h : ∀ c ∈ body, lineTerm c = false) (ht : Term term text) :
    leadingComments false ('#' :: (body ++ (term ++ text))) = 1 + leadingComments false text := by
  rw [leadingComments, if_pos rfl, leading_body h, leading_term ht]

theorem leading_token {cs : List Char} (h : ∀ c t, cs = c :: t → ignored c = false ∧ c ≠ '#') : leadingComments false cs = 0 := by
  cases cs with
  | nil => rfl
  | cons c t =>
    obtain ⟨h1, h2⟩ := h c t rfl
    rw [leadingComments, if_neg h2, h1]; rfl

/-- A call of `Scan` needs exactly one call more than there are comments ahead. -/
theorem scan_depth {n m : Nat} {l : Lexer} {cs : List Char} (h : At l cs) (hz : NoNul cs) (hm : leadingComments false cs < m) :
    (leadingComments false cs < n → scanF n l = scanF m l) ∧ (n ≤ leadingComments false cs → scanF n l = .oof) := by
  induction n generalizing m l cs with
  | zero => exact ⟨fun h => by omega, fun _ => rfl⟩
  | succ n ih =>
    obtain _ | m := m
    · omega
    unfold scanF
    obtain ⟨ign, cs', lS, p1, p2, p3, p4, p5, p6, -, -⟩ :=
      rns_at (n := l.fuel) (wasCR := false) h hz (fuel_length h)
    subst p1
    rw [p6]; dsimp only
    rw [leading_ign p2] at hm ⊢
    have hz' : NoNul cs' := hz.right
    by_cases hc : nxt cs' = 35
    · obtain _ | ⟨c, cs'⟩ := cs'
      · cases hc
      have := toNat_inj (c := c) (d := '#') hc; subst this
      rw [show nxt ('#' :: cs') = 35 from rfl, if_neg (by decide), if_neg (by decide), if_neg (by decide), if_pos rfl,
        if_neg (by decide), if_neg (by decide), if_neg (by decide), if_pos rfl]
      have a1 : At (lS.step ('#' :: cs')) cs' := p4.step
      obtain ⟨body, term, text, l', q1, q2, q3, q4, q5, q6, -, -⟩ :=
        comment_at (n := (lS.step ('#' :: cs')).fuel) a1 hz'.tail (fuel_length a1)
      rw [q6]; dsimp only
      subst q1
      rw [leading_comment q2 q3] at hm ⊢
      have hzt : NoNul text := (hz'.tail.right (a := body)).right
      have := ih (m := m) (l := l') (cs := text) q4 hzt (by omega)
      exact ⟨fun h => this.1 (by omega), fun h => this.2 (by omega)⟩
    · have hl : leadingComments false cs' = 0 := leading_token fun c t e => by
        refine ⟨p3 c t e, fun e2 => ?_⟩
        subst e e2; exact hc rfl
      rw [hl]
      refine ⟨fun _ => ?_, fun h => by omega⟩
      simp only [if_neg hc]

theorem tokensWithinF_at {n sc : Nat} {l : Lexer} {cs : List Char} (h : At l cs) (hz : NoNul cs)
    (hn : cs.length < n) (pre : List Char) :
    ∃ items rest, Lex GoBlock pre cs items rest ∧ Final GoBlock rest ∧
      (CommentRun sc (pre ++ cs) items cs → tokensWithinF sc n l = .oof) ∧
      (¬ CommentRun sc (pre ++ cs) items cs → tokensWithinF sc n l = tokensF n l) := by
  induction n generalizing l cs pre with
  | zero => omega
  | succ n ih =>
    have hfuel : leadingComments false cs < l.fuel := by
      have : ∀ b (cs : List Char), leadingComments b cs ≤ cs.length := by
        intro b cs
        induction cs generalizing b with
        | nil => cases b <;> exact Nat.le_refl _
        | cons c cs ih =>
          cases b with
          | true => rw [leadingComments]; exact Nat.le_trans (ih _) (by simp)
          | false =>
            rw [leadingComments]
            split
            · have := ih true; simp; omega
            · split
              · exact Nat.le_trans (ih _) (by simp)
              · omega
      have h1 := this false cs
      have h2 := fuel_length h
      omega
    obtain ⟨e1, e2⟩ := scan_depth (n := sc) h hz hfuel
    obtain ⟨ign, cs', lS, p1, p2, p3, p4, p5, p6, -, -⟩ := scanF_skip (n := l.fuel) h hz (fuel_length h)
    unfold tokensWithinF tokensF scan
    by_cases hd : leadingComments false cs < sc
    · rw [e1 hd]
      have hnd : ¬ sc ≤ leadingComments false cs := by omega
      subst p1
      rw [p6]
      obtain _ | ⟨c, cs'⟩ := cs'
      · refine ⟨[], [], p2 _ _ _ (.done _ _), .inl rfl, ?_, fun _ => ?_⟩
        · rintro (h | ⟨i, hi, -⟩)
          · exact absurd h hnd
          · cases hi
        · have : scanTok (nxt []) (nxtW []) (lS.step []) = .ret (⟨.eof, [], lS.line, lS.lpos + 1⟩, lS) := by
            show scanTok 0 0 lS = _
            unfold scanTok
            rw [if_neg (by decide), if_neg (by decide), if_neg (by decide), if_neg (by decide), if_pos rfl]
          rw [this]; rfl
      · have hz' : NoNul (c :: cs') := hz.right
        by_cases hex : ∃ tok rest, Lexeme GoBlock (c :: cs') tok rest
        · obtain ⟨tok, rest, hlx⟩ := hex
          obtain ⟨lx, e, hne⟩ := lexeme_split hlx
          rw [e] at hlx p4 hz' hn p2 h hz hnd ⊢
          obtain ⟨t, l', s1, s2⟩ := lexeme_complete hlx p4 hz'
          rw [s1]; dsimp only
          have hk : ¬ (t.kind = .eof ∨ t.kind = .illegal) := by
            rw [s2.kind]; cases tok.kind <;> simp [goKind]
          rw [if_neg hk, if_neg hk]
          have hlen : rest.length < n := by
            have : 0 < lx.length := List.length_pos_iff.2 hne
            simp at hn; omega
          obtain ⟨items, rest', q1, q2, q3, q4⟩ :=
            ih (l := l') (cs := rest) s2.at' hz'.right hlen (pre ++ ign ++ lx)
          have et : pre ++ (ign ++ (lx ++ rest)) = pre ++ ign ++ lx ++ rest := by simp
          have ed : (pre ++ ign ++ lx ++ rest).drop ((pre ++ ign).length + lx.length) = rest := by
            rw [← List.length_append, List.drop_left]
          have key : CommentRun sc (pre ++ (ign ++ (lx ++ rest))) (⟨tok, pre ++ ign, lx⟩ :: items) (ign ++ (lx ++ rest)) ↔
              CommentRun sc (pre ++ ign ++ lx ++ rest) items rest := by
            rw [et]
            constructor
            · rintro (h | ⟨i, hi, h⟩)
              · exact absurd h hnd
              · rcases List.mem_cons.1 hi with rfl | hi
                · rw [ed] at h; exact .inl h
                · exact .inr ⟨i, hi, h⟩
            · rintro (h | ⟨i, hi, h⟩)
              · exact .inr ⟨_, List.mem_cons_self .., by rw [ed]; exact h⟩
              · exact .inr ⟨i, List.mem_cons_of_mem _ hi, h⟩
          refine ⟨⟨tok, pre ++ ign, lx⟩ :: items, rest', p2 _ _ _ (.token hlx q1), q2, fun h => ?_, fun h => ?_⟩
          · rw [q3 (key.1 h)]
          · rw [q4 fun h' => h (key.2 h')]
            cases tokensF n l' <;> rfl
        · rcases lexeme_sound p4 hz' with h' | ⟨tk, l', e, hk⟩
          · exact absurd h' hex
          · refine ⟨[], c :: cs', p2 _ _ _ (.done _ _), ?_, ?_, fun _ => ?_⟩
            · right
              exact ⟨c, cs', rfl, (p3 c cs' rfl).1, (p3 c cs' rfl).2, fun tok rest hh => hex ⟨tok, rest, hh⟩⟩
            · rintro (h | ⟨i, hi, -⟩)
              · exact absurd h hnd
              · cases hi
            · have e' : scanTok (nxt (c :: cs')) (nxtW (c :: cs')) (lS.step (c :: cs')) = .ret (tk, l') := e
              rw [e']; dsimp only
              rw [if_pos (.inr hk), if_pos (.inr hk)]
    · obtain ⟨items, rest, toks, last, q1, q2, -⟩ := tokensF_at (n := n+1) h hz hn pre
      refine ⟨items, rest, q1, q2, fun _ => ?_, fun h => absurd (.inl (by omega)) h⟩
      rw [e2 (by omega)]

end GQL
