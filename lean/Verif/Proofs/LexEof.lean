/-
An EOF token has an empty literal.
-/
import Verif.Props.C01

namespace GQL

/-- The token is not EOF. -/
def NotEof (o : Out (Token × Lexer)) : Prop := ∀ t l, o = .ret (t, l) → t.kind ≠ .eof

theorem notEof_ret {t : Token} {l : Lexer} (h : t.kind ≠ .eof) : NotEof (.ret (t, l)) := by
  intro t' l' e; cases e; exact h

theorem notEof_panic : NotEof .panic := by intro t l e; cases e
theorem notEof_oof : NotEof .oof := by intro t l e; cases e

theorem scanName_notEof (l : Lexer) : NotEof (scanName l) := by
  unfold scanName
  split
  · exact notEof_panic
  · exact notEof_oof
  · split
    · exact notEof_panic
    · exact notEof_ret (fun h => by cases h)

theorem scanPunctuator_notEof (l : Lexer) (r w : Nat) : NotEof (scanPunctuator l r w) := by
  unfold scanPunctuator
  split
  · simp only
    split
    · exact notEof_ret (fun h => by cases h)
    · exact notEof_ret (fun h => by cases h)
  · split
    · exact notEof_panic
    · exact notEof_ret (fun h => by cases h)

theorem numberEnd_notEof (l0 : Lexer) (f : Bool) (r w : Nat) (l : Lexer) : NotEof (numberEnd l0 f r w l) := by
  unfold numberEnd
  simp only
  split
  · exact notEof_panic
  · exact notEof_ret (by cases f <;> exact fun h => by cases h)

theorem numberExp_notEof (l0 : Lexer) (f : Bool) (r w : Nat) (l : Lexer) : NotEof (numberExp l0 f r w l) := by
  unfold numberExp
  split
  · simp only
    split
    · exact numberEnd_notEof _ _ _ _ _
    · exact notEof_ret (fun h => by cases h)
    · exact notEof_panic
    · exact notEof_oof
  · exact numberEnd_notEof _ _ _ _ _

theorem numberFrac_notEof (l0 : Lexer) (r w : Nat) (l : Lexer) : NotEof (numberFrac l0 r w l) := by
  unfold numberFrac
  split
  · simp only
    split
    · exact numberExp_notEof _ _ _ _ _
    · exact notEof_ret (fun h => by cases h)
    · exact notEof_panic
    · exact notEof_oof
  · exact numberExp_notEof _ _ _ _ _

theorem scanNumber_notEof (l0 : Lexer) (r : Nat) : NotEof (scanNumber l0 r) := by
  unfold scanNumber
  simp only
  split
  · split
    · exact notEof_ret (fun h => by cases h)
    · exact numberFrac_notEof _ _ _ _
  · split
    · exact numberFrac_notEof _ _ _ _
    · exact notEof_ret (fun h => by cases h)
    · exact notEof_panic
    · exact notEof_oof

theorem stringPass2_notEof (c ln n : Nat) (acc : Bytes) (l : Lexer) : NotEof (stringPass2 c ln n acc l) := by
  induction n generalizing acc l with
  | zero => exact notEof_oof
  | succ n ih =>
    unfold stringPass2
    simp only
    split
    · exact notEof_ret (fun h => by cases h)
    · split
      · split
        · exact notEof_ret (fun h => by cases h)
        · exact ih _ _
      · exact ih _ _

theorem scanString_notEof (l : Lexer) : NotEof (scanString l) := by
  unfold scanString
  split
  · exact notEof_panic
  · exact notEof_oof
  · exact notEof_ret (fun h => by cases h)
  · split
    · exact stringPass2_notEof _ _ _ _ _
    · split
      · exact notEof_panic
      · exact notEof_ret (fun h => by cases h)

theorem scanBlockString_notEof (l : Lexer) : NotEof (scanBlockString l) := by
  unfold scanBlockString
  simp only
  split
  · exact notEof_panic
  · exact notEof_oof
  · exact notEof_ret (fun h => by cases h)
  · split
    · split
      · exact notEof_panic
      · exact notEof_ret (fun h => by cases h)
    · split
      · exact notEof_panic
      · exact notEof_oof
      · exact notEof_ret (fun h => by cases h)
      · exact notEof_ret (fun h => by cases h)

theorem scanF_eof_lit (n : Nat) (l : Lexer) (t : Token) (l' : Lexer) (h : scanF n l = .ret (t, l')) (hk : t.kind = .eof) :
    t.lit = [] := by
  induction n generalizing l with
  | zero => cases h
  | succ n ih =>
    unfold scanF at h
    split at h
    · cases h
    · cases h
    · split at h
      · exact absurd hk (scanName_notEof _ _ _ h)
      split at h
      · exact absurd hk (scanPunctuator_notEof _ _ _ _ _ h)
      split at h
      · exact absurd hk (scanNumber_notEof _ _ _ _ h)
      split at h
      · split at h
        · cases h
        · cases h
        · exact ih _ h
      split at h
      · simp only at h
        split at h
        · exact absurd hk (scanBlockString_notEof _ _ _ h)
        · exact absurd hk (scanString_notEof _ _ _ h)
      split at h
      · cases h; rfl
      · cases h; cases hk

theorem tokensF_eof_lit (n : Nat) (l : Lexer) (ts : List Token) (h : tokensF n l = .ret ts) (t : Token) (ht : t ∈ ts)
    (hk : t.kind = .eof) : t.lit = [] := by
  induction n generalizing l ts with
  | zero => cases h
  | succ n ih =>
    unfold tokensF at h
    split at h
    · cases h
    · cases h
    · rename_i t' l' e
      split at h
      · cases h
        simp only [List.mem_singleton] at ht
        subst ht
        exact scanF_eof_lit _ _ _ _ e hk
      · split at h
        · cases h
        · cases h
        · rename_i ts' e2
          cases h
          rcases List.mem_cons.1 ht with rfl | ht
          · exact scanF_eof_lit _ _ _ _ e hk
          · exact ih _ _ e2 ht

theorem tokens_eof_lit {input : Bytes} {ts : List Token} (h : tokens input = .ret ts) {t : Token} (ht : t ∈ ts)
    (hk : t.kind = .eof) : t.lit = [] := tokensF_eof_lit _ _ _ h _ ht hk

end GQL
