/-
A `Parser` used again: the state of the lexer between the calls of `Parse`.
-/
import Verif.Model.ParseAgain
import Verif.Proofs.LexBytes
import Verif.Props.C79
import Verif.Props.C04

namespace GQL
open Spec Spec.Syntax

theorem rd_moves {l : Lexer} (h : l.pos < l.input.length) : l.pos < l.rd.2.2.pos := by
  by_cases h0 : l.rd.1 = 0
  · unfold Lexer.rd Lexer.read
    rw [List.getElem?_eq_getElem h]
    dsimp only
    split
    · rename_i h1
      unfold Lexer.readUnicode
      dsimp only
      split
      · simp
      · have hw := decodeRune_width (l.input.drop l.pos) (by
          intro hn; have := congrArg List.length hn; simp at this; omega)
        simp only [Nat.add_sub_cancel]
        omega
    · simp
  · exact (rd_adv l (Nat.le_of_lt h)).2.2 h0

theorem rns_moves {n : Nat} {cr : Bool} {l l0 : Lexer} {r w : Nat} (h : l.pos < l.input.length)
    (e : readNextSignificant n cr l = .ret (r, w, l0)) : l.pos < l0.pos := by
  cases n with
  | zero => cases e
  | succ n =>
    unfold readNextSignificant at e
    have hm := rd_moves h
    rcases e1 : l.rd with ⟨r1, w1, l1⟩
    obtain ⟨a1, -, -⟩ := rd_adv' e1 (Nat.le_of_lt h)
    rw [e1] at e hm; dsimp only at e hm
    have step : ∀ {c} {lx : Lexer}, lx.input = l1.input → lx.pos = l1.pos → readNextSignificant n c lx = .ret (r, w, l0) → l.pos < l0.pos := by
      intro c lx hi hp he
      have hb := a1.bound
      have := (rns_cases (by rw [hi, hp, a1.input]; exact hb) he).2.1
      omega
    split at e
    · exact step (lx := { l1 with line := l1.line + 1, lpos := 0 }) rfl rfl e
    split at e
    · split at e
      · exact step (lx := l1) rfl rfl e
      · exact step (lx := { l1 with line := l1.line + 1, lpos := 0 }) rfl rfl e
    split at e
    · exact step rfl rfl e
    · cases e; exact hm

/-- A call of `Scan` that does not begin at the end of the text goes forward, be it an EOF token or not. -/
theorem scanF_moves {n : Nat} {l l' : Lexer} {t : Token} (hn : l.input.length - l.pos < n) (h : l.pos < l.input.length)
    (e : scanF n l = .ret (t, l')) : l.pos < l'.pos := by
  by_cases hk : t.kind = .eof
  · cases n with
    | zero => cases e
    | succ n =>
      unfold scanF at e
      obtain ⟨r, w, l0, e1, a1, -, -⟩ := readNextSignificant_total l.fuel false l (Nat.le_of_lt h) (by unfold Lexer.fuel; omega)
      have hm := rns_moves h e1
      rw [e1] at e; dsimp only at e
      by_cases h35 : r = 35
      · subst h35
        rw [if_neg (by decide), if_neg (by decide), if_neg (by decide), if_pos rfl] at e
        obtain ⟨l1, e2, a2⟩ := skipComment_total l0.fuel false l0 a1.inv (by unfold Lexer.fuel; omega)
        rw [e2] at e; dsimp only at e
        have hi : l1.input = l.input := a2.input.trans a1.input
        have h2 := a2.le
        obtain ⟨t', l'', e', a3, -⟩ := scanF_total n l1 a2.inv (by rw [hi]; omega)
        rw [e'] at e; cases e
        have := a3.le
        omega
      · have : scanTok r w l0 = .ret (t, l') := by unfold scanTok; rw [if_neg h35] at e; exact e
        obtain ⟨-, rfl⟩ := scanTok_eof_inv this hk
        exact hm
  · obtain ⟨t', l'', e', -, hp⟩ := scanF_total n l (Nat.le_of_lt h) hn
    rw [e'] at e; cases e
    exact hp hk

theorem scan_moves {input : Bytes} {l l' : Lexer} {t : Token} (hr : Reach input l) (h : l.pos < input.length)
    (e : scan l = .ret (t, l')) : l.pos < l'.pos := by
  have hi := hr.inv.1
  exact scanF_moves (by unfold Lexer.fuel; omega) (by rw [hi]; exact h) e

/-- At the end of the text there is one EOF token after the other. -/
theorem scan_end {l : Lexer} (h : l.pos = l.input.length) : scan l = .ret (⟨.eof, [], l.line, l.lpos + 1⟩, l) := by
  have hf : l.fuel = 1 := by unfold Lexer.fuel; omega
  have hrd : l.rd = (0, 0, l) := by
    unfold Lexer.rd Lexer.read
    rw [h, List.getElem?_eq_none (Nat.le_refl _)]
    rfl
  have h1 : readNextSignificant l.fuel false l = .ret (0, 0, l) := by
    rw [hf, readNextSignificant, hrd]; rfl
  unfold scan
  rw [hf] at h1 ⊢
  rw [scanF, hf, h1]
  rfl

theorem scanTimes_reach {input : Bytes} (n : Nat) {l : Lexer} (h : Reach input l) :
    ∃ l', scanTimes n l = .ret l' ∧ Reach input l' ∧ l.pos ≤ l'.pos ∧ (0 < n → l.pos < input.length → l.pos < l'.pos) := by
  induction n generalizing l with
  | zero => exact ⟨l, rfl, h, Nat.le_refl _, fun h => absurd h (Nat.lt_irrefl _)⟩
  | succ n ih =>
    obtain ⟨⟨t, l1⟩, e⟩ := C01_scan_returns input l h
    obtain ⟨l', h1, h2, h3, -⟩ := ih (.scan h e)
    have := (C02_progress input l h t l1 e).2.1
    refine ⟨l', by rw [scanTimes, e]; exact h1, h2, by omega, fun _ hl => ?_⟩
    have := scan_moves h hl e
    omega

theorem scanTimes_end {l : Lexer} (h : l.pos = l.input.length) (n : Nat) : scanTimes n l = .ret l := by
  induction n with
  | zero => rfl
  | succ n ih => rw [scanTimes, scan_end h]; exact ih

/-- The tokens from a state on: they end at the first EOF or Illegal token. -/
theorem tokensF_shape {input : Bytes} {l : Lexer} (h : Reach input l) :
    ∃ us t, tokensF (l.input.length + 2) l = .ret (us ++ [t]) ∧ (t.kind = .eof ∨ t.kind = .illegal) ∧
      ∀ u ∈ us, u.kind ≠ .eof ∧ u.kind ≠ .illegal := by
  obtain ⟨us, t, h1, h2, h3, -⟩ := tokensF_total input (l.input.length + 2) l h (by rw [h.inv.1]; omega)
  exact ⟨us, t, h1, h2, h3⟩

theorem tokensF_mono {n : Nat} {l : Lexer} {ts : Toks} (h : tokensF n l = .ret ts) {m : Nat} (hm : n ≤ m) : tokensF m l = .ret ts := by
  induction n generalizing l ts m with
  | zero => cases h
  | succ n ih =>
    cases m with
    | zero => omega
    | succ m =>
      rw [tokensF] at h ⊢
      rcases e : scan l with ⟨t, l1⟩ | _ | _ <;> rw [e] at h <;> dsimp only at h ⊢
      · split at h
        · rename_i hk; rw [if_pos hk]; exact h
        · rename_i hk
          rw [if_neg hk]
          rcases e2 : tokensF n l1 with ts1 | _ | _ <;> rw [e2] at h <;> dsimp only at h
          · rw [ih e2 (Nat.le_of_succ_le_succ hm)]; exact h
          · cases h
          · cases h
      · cases h
      · cases h

/-- After as many calls of `Scan` as there are tokens before it, what is left is left. -/
theorem scanTimes_tokens {input : Bytes} (c : Toks) {n : Nat} {l : Lexer} {r : Toks} (h : Reach input l) (hr : r ≠ [])
    (e : tokensF n l = .ret (c ++ r)) :
    ∃ l', scanTimes c.length l = .ret l' ∧ Reach input l' ∧ tokensF n l' = .ret r := by
  induction c generalizing l n with
  | nil => exact ⟨l, rfl, h, e⟩
  | cons t c ih =>
    cases n with
    | zero => cases e
    | succ n =>
      rw [tokensF] at e
      obtain ⟨⟨t', l1⟩, e1⟩ := C01_scan_returns input l h
      rw [e1] at e; dsimp only at e
      split at e
      · have := (List.cons.inj (Out.ret.inj e)).2
        exact absurd (List.append_eq_nil_iff.1 this.symm).2 hr
      · rcases e2 : tokensF n l1 with ts1 | _ | _ <;> rw [e2] at e <;> dsimp only at e
        · have := Out.ret.inj e
          rw [List.cons_append] at this
          obtain ⟨rfl, rfl⟩ := List.cons.inj this
          obtain ⟨l', g1, g2, g3⟩ := ih (.scan h e1) e2
          exact ⟨l', by rw [List.length_cons, scanTimes, e1]; exact g1, g2, tokensF_mono g3 (Nat.le_succ _)⟩
        · cases e
        · cases e

section
variable {pf : Bytes → Option Nat}

theorem hasEnd_shape {us : Toks} {t : Token} (h : t.kind = .eof ∨ t.kind = .illegal) : HasEnd (us ++ [t]) := ⟨t, by simp, h⟩

/-- What a call of `Parse` does, in any state. -/
theorem parseCall_cases {input : Bytes} {l : Lexer} (h : Reach input l) {ts : Toks} (ht : tokensF (l.input.length + 2) l = .ret ts) :
    (parseTokens pf ts = .panic ∧ parseCall pf l = .panic) ∨
    ∃ r l', ((∃ ds, parseDefs pf (ts.length + 1) ts = .ok ds r ∧ parseTokens pf ts = .ok (mkDocument ds)) ∨
        ∃ e, parseDefs pf (ts.length + 1) ts = .err e r ∧ parseTokens pf ts = .err e) ∧
      scanTimes (ts.length - r.length + 1) l = .ret l' ∧ parseCall pf l = .ret (parseTokens pf ts, l') ∧
      Reach input l' ∧ l.pos ≤ l'.pos ∧ (l.pos < input.length → l.pos < l'.pos) := by
  have hs : HasEnd ts := by
    obtain ⟨us, t, h1, h2, -⟩ := tokensF_shape h
    rw [ht] at h1; cases h1
    exact hasEnd_shape h2
  have hT := parseDefs_total (pf := pf) (ts.length + 1) hs (Nat.lt_succ_self _)
  unfold parseCall parseTokens
  rw [ht]; dsimp only
  rcases e : parseDefs pf (ts.length + 1) ts with ⟨ds, r⟩ | ⟨er, r⟩ | _ | _ <;> rw [e] at hT <;> dsimp only
  · obtain ⟨l', h1, h2, h3, h4⟩ := scanTimes_reach (ts.length - r.length + 1) h
    exact .inr ⟨r, l', .inl ⟨ds, rfl, rfl⟩, h1, by rw [h1]; rfl, h2, h3, h4 (Nat.succ_pos _)⟩
  · obtain ⟨l', h1, h2, h3, h4⟩ := scanTimes_reach (ts.length - r.length + 1) h
    exact .inr ⟨r, l', .inr ⟨er, rfl, rfl⟩, h1, by rw [h1]; rfl, h2, h3, h4 (Nat.succ_pos _)⟩
  · exact .inl ⟨rfl, rfl⟩
  · exact absurd hT id

end

end GQL
