/-
C01 Scanning always terminates, never panics and reaches end of input.
C02 Every scanned token makes progress.
-/
import Verif.Proofs.LexTotal

namespace GQL

/-- The states a lexer over `input` can be in between calls of `Scan`. -/
inductive Reach (input : Bytes) : Lexer → Prop
  | new : Reach input (newLexer input)
  | scan {l l' : Lexer} {t : Token} : Reach input l → scan l = .ret (t, l') → Reach input l'

theorem Reach.inv {input : Bytes} {l : Lexer} (h : Reach input l) :
    l.input = input ∧ l.pos ≤ input.length := by
  induction h with
  | new => exact ⟨rfl, Nat.zero_le _⟩
  | @scan l l' t hr e ih =>
    obtain ⟨t', l'', e', a, -⟩ := scanF_total l.fuel l (by rw [ih.1]; exact ih.2)
      (by unfold Lexer.fuel; omega)
    unfold GQL.scan at e; rw [e'] at e; cases e
    exact ⟨a.input.trans ih.1, by have := a.bound; rw [ih.1] at this; exact this⟩

/-- C01 (first half): in every reachable state `Scan` returns: it neither panics nor diverges. -/
theorem C01_scan_returns (input : Bytes) (l : Lexer) (h : Reach input l) : (scan l).returns := by
  obtain ⟨t, l', e, -⟩ := scanF_total l.fuel l (by rw [h.inv.1]; exact h.inv.2)
    (by unfold Lexer.fuel; omega)
  exact ⟨_, e⟩

/-- C02: a token other than EOF consumes at least one byte; the lexer never moves backwards nor
past the end of the input, and keeps scanning the same input. -/
theorem C02_progress (input : Bytes) (l : Lexer) (h : Reach input l) (t : Token) (l' : Lexer)
    (e : scan l = .ret (t, l')) :
    l'.input = input ∧ l.pos ≤ l'.pos ∧ l'.pos ≤ input.length ∧
      (t.kind ≠ .eof → l.pos < l'.pos) := by
  obtain ⟨t', l'', e', a, p⟩ := scanF_total l.fuel l (by rw [h.inv.1]; exact h.inv.2)
    (by unfold Lexer.fuel; omega)
  unfold scan at e; rw [e'] at e; cases e
  exact ⟨a.input.trans h.inv.1, a.le, by have := a.bound; rw [h.inv.1] at this; exact this, p⟩

theorem tokensF_total (input : Bytes) (n : Nat) (l : Lexer) (h : Reach input l)
    (hn : input.length - l.pos < n) :
    ∃ ts t, tokensF n l = .ret (ts ++ [t]) ∧ (t.kind = .eof ∨ t.kind = .illegal) ∧
      (∀ u ∈ ts, u.kind ≠ .eof ∧ u.kind ≠ .illegal) ∧ ts.length ≤ input.length - l.pos := by
  induction n generalizing l with
  | zero => omega
  | succ n ih =>
    unfold tokensF
    obtain ⟨⟨t, l'⟩, e⟩ := C01_scan_returns input l h
    rw [e]; dsimp only
    split
    · rename_i hk
      exact ⟨[], t, rfl, hk, by simp, by simp⟩
    · rename_i hk
      obtain ⟨-, h2, h3, h4⟩ := C02_progress input l h t l' e
      have hlt := h4 (fun hh => hk (.inl hh))
      obtain ⟨ts, t', e', k, hall, hlen⟩ := ih l' (.scan h e) (by omega)
      rw [e']
      refine ⟨t :: ts, t', rfl, k, ?_, by simp; omega⟩
      intro u hu
      rcases List.mem_cons.1 hu with rfl | hu
      · exact ⟨fun hh => hk (.inl hh), fun hh => hk (.inr hh)⟩
      · exact hall u hu

/-- C01 (second half): repeated scanning ends with an EOF or Illegal token after at most
`len(input)+1` calls. -/
theorem C01_tokens_end (input : Bytes) :
    ∃ ts t, tokens input = .ret (ts ++ [t]) ∧ (t.kind = .eof ∨ t.kind = .illegal) ∧
      (∀ u ∈ ts, u.kind ≠ .eof ∧ u.kind ≠ .illegal) ∧ (ts ++ [t]).length ≤ input.length + 1 := by
  obtain ⟨ts, t, e, k, hall, hlen⟩ := tokensF_total input (input.length + 2) (newLexer input) .new
    (by simp [newLexer])
  exact ⟨ts, t, e, k, hall, by simp [newLexer] at hlen ⊢; exact hlen⟩

/-- A reachable state in the middle of an input, on which the two theorems say something. -/
example : Reach b!"{ \"\\u00e9\" # x" ⟨b!"{ \"\\u00e9\" # x", 1, 1, 1⟩ :=
  .scan .new (show scan (newLexer _) = .ret (⟨.punctuator, b!"{", 1, 1⟩, _) by decide)

example : scan ⟨b!"{ \"\\u00e9\" # x", 1, 1, 1⟩ =
    .ret (⟨.stringValue, [0xC3, 0xA9], 1, 3⟩, ⟨b!"{ \"\\u00e9\" # x", 10, 10, 1⟩) := by decide

/-- The bound of C01 is reached. -/
example : tokens b!"{}" =
    .ret [⟨.punctuator, b!"{", 1, 1⟩, ⟨.punctuator, b!"}", 1, 2⟩, ⟨.eof, [], 1, 3⟩] := by decide

end GQL
