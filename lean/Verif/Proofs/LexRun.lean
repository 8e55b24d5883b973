/-
Scanning a whole text against `Spec.Lex`.
-/
import Verif.Proofs.LexScan

namespace GQL
open Spec

theorem utf8_inj {a b : List Char} (h : utf8 a = utf8 b) : a = b := by
  induction a generalizing b with
  | nil =>
    cases b with
    | nil => rfl
    | cons d b =>
      rw [utf8_cons] at h
      exact absurd (List.append_eq_nil_iff.1 h.symm).1 (utf8Char_ne_nil d)
  | cons c a ih =>
    cases b with
    | nil =>
      rw [utf8_cons] at h
      exact absurd (List.append_eq_nil_iff.1 h).1 (utf8Char_ne_nil c)
    | cons d b =>
      rw [utf8_cons, utf8_cons] at h
      have h1 := decode_encode c.toNat (char_valid c) (utf8 a)
      have h2 := decode_encode d.toNat (char_valid d) (utf8 b)
      rw [← utf8Char_eq] at h1 h2
      rw [h, h2] at h1
      have : c = d := (toNat_inj (congrArg Prod.fst h1)).symm
      subst this
      rw [List.append_cancel_left_eq] at h
      rw [ih h]

theorem lexeme_split {s rest : List Char} {tok : Tok} (h : Lexeme GoBlock s tok rest) :
    ∃ lx, s = lx ++ rest ∧ lx ≠ [] := by
  cases h with
  | punct c rest => exact ⟨[c], rfl, by simp⟩
  | spread => exact ⟨['.', '.', '.'], rfl, by simp⟩
  | name c w => exact ⟨c :: w, rfl, by simp⟩
  | int i rest hi =>
    obtain ⟨c, w, rfl, -⟩ := intPart_head hi
    exact ⟨_, rfl, by simp⟩
  | fraction i f rest hi =>
    obtain ⟨c, w, rfl, -⟩ := intPart_head hi
    exact ⟨_, rfl, by simp⟩
  | exponent i f rest hi =>
    obtain ⟨c, w, rfl, -⟩ := intPart_head hi
    exact ⟨_, rfl, by simp⟩
  | fracExp i f e rest hi =>
    obtain ⟨c, w, rfl, -⟩ := intPart_head hi
    exact ⟨_, rfl, by simp⟩
  | string h => obtain ⟨lx, rfl⟩ := h.split; exact ⟨'"' :: lx, rfl, by simp⟩
  | block h =>
    obtain ⟨raw, h, -⟩ := h
    obtain ⟨lx, rfl⟩ := h.split; exact ⟨quotes3 ++ lx, by simp, by simp [quotes3]⟩

/-- At most one token begins at a place. -/
theorem lexeme_unique {s r1 r2 : List Char} {t1 t2 : Tok} (hz : NoNul s)
    (h1 : Lexeme GoBlock s t1 r1) (h2 : Lexeme GoBlock s t2 r2) : t1 = t2 ∧ r1 = r2 := by
  obtain ⟨x1, e1, -⟩ := lexeme_split h1
  obtain ⟨x2, e2, -⟩ := lexeme_split h2
  have ha : At ⟨utf8 s, 0, 0, 1⟩ s := ⟨Nat.zero_le _, rfl⟩
  subst e1
  have p1 := lexeme_complete h1 ha hz
  rw [e2] at h2 ha hz p1
  have p2 := lexeme_complete h2 ha hz
  obtain ⟨a, l, q1, q2⟩ := p1
  obtain ⟨a', l', q1', q2'⟩ := p2
  rw [q1'] at q1; cases q1
  constructor
  · have hk : ∀ x y, goKind x = goKind y → x = y := by intro x y; cases x <;> cases y <;> simp [goKind]
    have k := hk _ _ (q2.kind.symm.trans q2'.kind)
    have v := utf8_inj (q2.lit.symm.trans q2'.lit)
    cases t1; cases t2; simp_all
  · exact utf8_inj (q2.at'.eq.symm.trans q2'.at'.eq)

/-- No token can follow and no ignored character. -/
def Final (B : List Char → List Char → List Char → Prop) (rest : List Char) : Prop :=
  rest = [] ∨ Stuck B rest

theorem final_not_ignored {B c t} (h : Final B (c :: t)) : ignored c = false ∧ c ≠ '#' ∧
    ∀ tok rest, ¬ Lexeme B (c :: t) tok rest := by
  rcases h with h | ⟨c', t', e, h1, h2, h3⟩
  · cases h
  · cases e; exact ⟨h1, h2, h3⟩

theorem comment_unique {b1 b2 t1 t2 : List Char} (h : b1 ++ t1 = b2 ++ t2)
    (h1 : ∀ c ∈ b1, lineTerm c = false) (h2 : ∀ c ∈ b2, lineTerm c = false)
    (e1 : ∀ c t, t1 = c :: t → lineTerm c = true) (e2 : ∀ c t, t2 = c :: t → lineTerm c = true) :
    b1 = b2 ∧ t1 = t2 := by
  induction b1 generalizing b2 with
  | nil =>
    cases b2 with
    | nil => exact ⟨rfl, h⟩
    | cons c b2 =>
      have := e1 c _ h; rw [h2 c (List.mem_cons_self ..)] at this; cases this
  | cons c b1 ih =>
    cases b2 with
    | nil =>
      have := e2 c _ h.symm; rw [h1 c (List.mem_cons_self ..)] at this; cases this
    | cons d b2 =>
      cases h' : (List.cons.inj h)
      rename_i hc ht
      obtain ⟨rfl, rfl⟩ := ih ht (fun c hc => h1 c (List.mem_cons_of_mem _ hc))
        (fun c hc => h2 c (List.mem_cons_of_mem _ hc))
      exact ⟨by rw [hc], rfl⟩

/-- A text has one division into tokens. -/
theorem Lex.unique {pre s r1 r2 : List Char} {i1 i2 : List Item} (hz : NoNul s)
    (h1 : Lex GoBlock pre s i1 r1) (f1 : Final GoBlock r1)
    (h2 : Lex GoBlock pre s i2 r2) (f2 : Final GoBlock r2) : i1 = i2 ∧ r1 = r2 := by
  induction h1 generalizing i2 r2 with
  | done pre text =>
    cases h2 with
    | done => exact ⟨rfl, rfl⟩
    | ignore hi _ =>
      have := (final_not_ignored f1).1; rw [hi] at this; cases this
    | comment => exact absurd rfl (final_not_ignored f1).2.1
    | token hl _ =>
      obtain ⟨lx', e, hne⟩ := lexeme_split hl
      have := List.append_cancel_right e
      subst this
      rename_i lx text tok items _
      obtain _ | ⟨c, lx⟩ := lx
      · exact absurd rfl hne
      · exact absurd hl ((final_not_ignored f1).2.2 _ _)
  | @ignore pre c text items rest hi hl ih =>
    generalize hs : c :: text = s at h2 hz
    cases h2 with
    | done =>
      subst hs
      have := (final_not_ignored f2).1; rw [hi] at this; cases this
    | ignore hi' hl' => cases hs; exact ih hz.tail f1 hl' f2
    | comment => cases hs; exact absurd hi (by decide)
    | @token _ lx text' tok items' _ hl' _ =>
      obtain ⟨lx', e, hne⟩ := lexeme_split hl'
      have := List.append_cancel_right e
      subst this
      rw [← hs] at hl'
      have := (lexeme_not_ignored hl').1; rw [hi] at this; cases this
  | @comment pre body text items rest hb hb' hl ih =>
    generalize hs : '#' :: body ++ text = s at h2 hz
    cases h2 with
    | done =>
      subst hs
      exact absurd rfl (final_not_ignored f2).2.1
    | ignore hi' hl' => cases hs; exact absurd hi' (by decide)
    | @comment _ body' text' _ _ hb2 hb2' hl' =>
      have e := (List.cons.inj hs).2
      obtain ⟨rfl, rfl⟩ := comment_unique e hb hb2 hb' hb2'
      exact ih (hz.right (a := '#' :: body)) f1 hl' f2
    | @token _ lx text' tok items' _ hl' _ =>
      rw [← hs] at hl'
      exact absurd rfl (lexeme_not_ignored hl').2
  | @token pre lx text tok items rest hl hx ih =>
    generalize hs : lx ++ text = s at h2 hz
    obtain ⟨lx0, e0, hne⟩ := lexeme_split hl
    have := List.append_cancel_right e0
    subst this
    cases h2 with
    | done =>
      subst hs
      obtain _ | ⟨c, lx⟩ := lx
      · exact absurd rfl hne
      · exact absurd hl ((final_not_ignored f2).2.2 _ _)
    | ignore hi' hl' =>
      rw [hs] at hl
      have := (lexeme_not_ignored hl).1; rw [hi'] at this; cases this
    | comment =>
      rw [hs] at hl
      exact absurd rfl (lexeme_not_ignored hl).2
    | @token _ lx' text' tok' items' _ hl' hx' =>
      rw [hs] at hl
      obtain ⟨rfl, rfl⟩ := lexeme_unique hz hl hl'
      have := List.append_cancel_right hs
      subst this
      obtain ⟨rfl, rfl⟩ := ih hz.right f1 hx' f2
      exact ⟨rfl, rfl⟩

theorem noLF_after {lx rest : List Char} (hne : lx ≠ []) (h : ∃ p, crlf p (lx ++ rest))
    (hl : ∀ c ∈ lx, lineTerm c = false) : (∃ p, crlf p rest) ∧ ∀ c t, rest = c :: t → c ≠ '\n' := by
  obtain ⟨p, hp⟩ := h
  induction lx generalizing p with
  | nil => exact absurd rfl hne
  | cons x lx ih =>
    have hx := hl x (List.mem_cons_self ..)
    cases lx with
    | nil =>
      refine ⟨⟨_, hp.2⟩, ?_⟩
      rintro c t rfl rfl
      have := hp.2.1 rfl
      simp only [beq_iff_eq] at this
      subst this; cases hx
    | cons y lx =>
      exact ih (by simp) (fun c hc => hl c (List.mem_cons_of_mem _ hc)) _ hp.2

/-- Scanning a text. -/
theorem tokensF_at {n : Nat} {l : Lexer} {cs : List Char} (h : At l cs) (hz : NoNul cs)
    (hn : cs.length < n) (pre : List Char) :
    ∃ items rest toks last, Lex GoBlock pre cs items rest ∧ Final GoBlock rest ∧
      tokensF n l = .ret (toks ++ [last]) ∧
      toks.map (fun t => (t.kind, t.lit)) = items.map (fun i => (goKind i.tok.kind, utf8 i.tok.value)) ∧
      (last.kind = if rest = [] then .eof else .illegal) ∧
      (CRfree cs → l.line = 1 + pre.count '\n' →
        toks.map (·.line) = items.map (fun i => 1 + i.before.count '\n')) ∧
      ((∃ p, crlf p cs) → (∀ c t, cs = c :: t → c ≠ '\n') →
        (∀ i ∈ items, ∀ c ∈ i.chars, lineTerm c = false) → l.line = 1 + pre.count '\r' →
        toks.map (·.line) = items.map (fun i => 1 + i.before.count '\r')) ∧
      (CRfree cs → (∀ i ∈ items, ∀ c ∈ i.chars, c ≠ '\n') →
        (∀ i ∈ items, i.chars = ['"', '"'] → i.before ++ i.chars ≠ pre ++ cs) →
        l.lpos = colSkip 0 pre →
        toks.map (·.col) = items.map (fun i => ((colSkip 0 i.before + 1 : Nat) : Int))) := by
  induction n generalizing l cs pre with
  | zero => omega
  | succ n ih =>
    obtain ⟨ign, cs', lS, p1, p2, p3, p4, p5, p6, p7, p8⟩ := scanF_skip (n := l.fuel) h hz (fuel_length h)
    subst p1
    unfold tokensF scan
    rw [p6]
    obtain _ | ⟨c, cs'⟩ := cs'
    · refine ⟨[], [], [], ⟨.eof, [], lS.line, lS.lpos + 1⟩, p2 _ _ _ (.done _ _), .inl rfl, ?_, rfl, rfl,
        fun _ _ => rfl, fun _ _ _ _ => rfl, fun _ _ _ _ => rfl⟩
      have : scanTok (nxt []) (nxtW []) (lS.step []) = .ret (⟨.eof, [], lS.line, lS.lpos + 1⟩, lS) := by
        show scanTok 0 0 lS = _
        unfold scanTok
        rw [if_neg (by decide), if_neg (by decide), if_neg (by decide), if_neg (by decide), if_pos rfl]
      rw [this]; rfl
    · have hz' : NoNul (c :: cs') := hz.right
      by_cases hex : ∃ tok rest, Lexeme GoBlock (c :: cs') tok rest
      · obtain ⟨tok, rest, hlx⟩ := hex
        obtain ⟨lx, e, hne⟩ := lexeme_split hlx
        rw [e] at hlx p4 hz' p8 hn p2 h hz ⊢
        obtain ⟨t, l', s1, s2⟩ := lexeme_complete hlx p4 hz'
        rw [s1]; dsimp only
        have hk : ¬ (t.kind = .eof ∨ t.kind = .illegal) := by
          rw [s2.kind]; cases tok.kind <;> simp [goKind]
        rw [if_neg hk]
        have hlen : rest.length < n := by
          have : 0 < lx.length := List.length_pos_iff.2 hne
          simp at hn; omega
        obtain ⟨items, rest', toks, last, q1, q2, q3, q4, q5, q6, q7, q8⟩ :=
          ih (l := l') (cs := rest) s2.at' hz'.right hlen (pre ++ ign ++ lx)
        rw [q3]
        refine ⟨⟨tok, pre ++ ign, lx⟩ :: items, rest', t :: toks, last, p2 _ _ _ (.token hlx q1), q2, rfl,
          ?_, q5, ?_, ?_, ?_⟩
        · simp only [List.map_cons, q4, s2.kind, s2.lit]
        · intro hcr hline
          rw [e] at p7
          obtain ⟨a1, -⟩ := p7 hcr
          have a2 := s2.lineCRfree hcr.right.left
          have a3 := q6 hcr.right.right (by
            rw [a2, a1, hline]; simp only [List.count_append]; omega)
          simp only [List.map_cons, a3, s2.line, a1, hline, List.count_append]
          congr 1; omega
        · intro hc1 hc2 hit hline
          obtain ⟨a1, q, hq⟩ := p8 hc1 hc2
          have hs := hit _ (List.mem_cons_self ..)
          obtain ⟨b1, b2⟩ := noLF_after hne ⟨q, hq⟩ hs
          have a2 := s2.lineSingle hs
          have a3 := q7 b1 b2 (fun i hi => hit i (List.mem_cons_of_mem _ hi)) (by
            rw [a2, a1, hline]; simp only [List.count_append]
            rw [count_lineTerm (d := '\r') hs rfl]; omega)
          simp only [List.map_cons, a3, s2.line, a1, hline, List.count_append]
          congr 1; omega
        · intro hcr hit hq hlp
          rw [e] at p7
          obtain ⟨-, a1⟩ := p7 hcr
          have hs := hit _ (List.mem_cons_self ..)
          have hnq : ¬ (lx = ['"', '"'] ∧ rest = []) := by
            rintro ⟨rfl, rfl⟩
            exact hq _ (List.mem_cons_self ..) rfl (by simp)
          have a2 := s2.lpos hs hnq
          have a3 := q8 hcr.right.right (fun i hi => hit i (List.mem_cons_of_mem _ hi))
            (fun i hi hi2 => by
              have := hq i (List.mem_cons_of_mem _ hi) hi2
              simpa using this) (by
            rw [a2, a1, hlp, colSkip_append, colSkip_append, colSkip_noLF _ _ hs])
          simp only [List.map_cons, a3, s2.col hnq, a1, hlp, colSkip_append]
      · rcases lexeme_sound p4 hz' with h' | ⟨tk, l', e, hk⟩
        · exact absurd h' hex
        · refine ⟨[], c :: cs', [], tk, p2 _ _ _ (.done _ _), ?_, ?_, rfl, by rw [if_neg (by simp)]; exact hk,
            fun _ _ => rfl, fun _ _ _ _ => rfl, fun _ _ _ _ => rfl⟩
          · right
            exact ⟨c, cs', rfl, (p3 c cs' rfl).1, (p3 c cs' rfl).2, fun tok rest hh => hex ⟨tok, rest, hh⟩⟩
          · have e' : scanTok (nxt (c :: cs')) (nxtW (c :: cs')) (lS.step (c :: cs')) = .ret (tk, l') := e
            rw [e']; dsimp only
            rw [if_pos (.inr hk)]; rfl

end GQL
