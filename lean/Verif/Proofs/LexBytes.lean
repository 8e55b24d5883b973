/-
Facts about `Scan` on arbitrary bytes (not necessarily UTF-8).
-/
import Verif.Proofs.LexScan

namespace GQL
open Spec

theorem le_ite_fst {c : Prop} [Decidable c] {a b : Nat × Nat} {n : Nat} (h1 : c → n ≤ a.1) (h2 : n ≤ b.1) :
    n ≤ (if c then a else b).1 := by
  by_cases h : c
  · rw [if_pos h]; exact h1 h
  · rw [if_neg h]; exact h2

theorem decodeRune_wide (b0 : Nat) (t : Bytes) (h : 0x80 ≤ b0) : 0x80 ≤ (decodeRune (b0 :: t)).1 := by
  have hr : 0x80 ≤ runeError := by decide
  unfold decodeRune
  dsimp only
  rw [if_neg (by omega)]
  split
  · rcases t with _ | ⟨b1, t⟩
    · exact hr
    · dsimp only; split
      · dsimp only; omega
      · exact hr
  split
  · rcases t with _ | ⟨b1, _ | ⟨b2, t⟩⟩
    · exact hr
    · exact hr
    · dsimp only
      by_cases he : b0 = 0xE0
      · subst he
        simp only [if_true]
        refine le_ite_fst (fun _ => ?_) hr; dsimp only; omega
      · rw [if_neg he]
        refine le_ite_fst (fun _ => ?_) hr; dsimp only; omega
  split
  · rcases t with _ | ⟨b1, _ | ⟨b2, _ | ⟨b3, t⟩⟩⟩
    · exact hr
    · exact hr
    · exact hr
    · dsimp only
      by_cases he : b0 = 0xF0
      · subst he
        simp only [if_true]
        refine le_ite_fst (fun _ => ?_) hr; dsimp only; omega
      · rw [if_neg he]
        refine le_ite_fst (fun _ => ?_) hr; dsimp only; omega
  · exact hr

/-- Reading: at the end; an ASCII byte; a wide rune; or a lone byte ≥ 0x80 at the end. -/
theorem rd_cases (l : Lexer) (h : l.pos ≤ l.input.length) :
    (l.input[l.pos]? = none ∧ l.pos = l.input.length ∧ l.rd = (0, 0, l)) ∨
    (∃ b, l.input[l.pos]? = some b ∧ b < 0x80 ∧
      l.rd = (b, 1, { l with pos := l.pos + 1, lpos := l.lpos + 1 })) ∨
    (∃ b, l.input[l.pos]? = some b ∧ 0x80 ≤ b ∧ l.pos + 1 = l.input.length ∧
      l.rd = (0, 0, { l with pos := l.pos + 1, lpos := l.lpos + 1 })) ∨
    (∃ b r w, l.input[l.pos]? = some b ∧ 0x80 ≤ b ∧ 0x80 ≤ r ∧ 1 ≤ w ∧ l.pos + w ≤ l.input.length ∧
      l.rd = (r, w, { l with pos := l.pos + w, lpos := l.lpos + 1 })) := by
  cases hb : l.input[l.pos]? with
  | none =>
    left
    have : l.input.length ≤ l.pos := List.getElem?_eq_none_iff.1 hb
    refine ⟨rfl, by omega, ?_⟩
    simp [Lexer.rd, Lexer.read, hb]
  | some b =>
    right
    have hlt : l.pos < l.input.length := by
      rcases Nat.lt_or_ge l.pos l.input.length with h' | h'
      · exact h'
      · rw [List.getElem?_eq_none h'] at hb; cases hb
    by_cases h80 : b < 0x80
    · left
      refine ⟨b, rfl, h80, ?_⟩
      simp only [Lexer.rd, Lexer.read, hb]; rw [if_neg (by omega)]
    · right
      by_cases he : l.pos + 1 = l.input.length
      · left
        refine ⟨b, rfl, by omega, he, ?_⟩
        simp only [Lexer.rd, Lexer.read, hb]; rw [if_pos (by omega)]
        simp only [Lexer.readUnicode]; rw [if_pos (by omega)]
      · right
        have hd : l.input.drop l.pos = b :: l.input.drop (l.pos + 1) := by
          rw [List.drop_eq_getElem_cons hlt]
          congr 1
          rw [List.getElem?_eq_getElem hlt] at hb; exact Option.some.inj hb
        have h1 := decodeRune_wide b (l.input.drop (l.pos + 1)) (by omega)
        have h2 := decodeRune_width (l.input.drop l.pos) (by rw [hd]; simp)
        rw [← hd] at h1
        rw [List.length_drop] at h2
        refine ⟨b, (decodeRune (l.input.drop l.pos)).1, (decodeRune (l.input.drop l.pos)).2, rfl, by omega, h1,
          h2.1, by omega, ?_⟩
        simp only [Lexer.rd, Lexer.read, hb]; rw [if_pos (by omega)]
        simp only [Lexer.readUnicode]; rw [if_neg (by omega)]
        simp only [Nat.add_sub_cancel, Prod.mk.injEq, true_and]
        congr 1; omega

/-- What `readNextSignificant` can return. -/
theorem rns_cases {n : Nat} {cr : Bool} {l l0 : Lexer} {r w : Nat} (h : l.pos ≤ l.input.length)
    (e : readNextSignificant n cr l = .ret (r, w, l0)) :
    l0.input = l.input ∧ l.pos ≤ l0.pos ∧ l0.pos ≤ l.input.length ∧
    (r = 0 → (l0.pos = l.input.length) ∨ (∃ q, q + 1 = l0.pos ∧ l.input[q]? = some 0)) ∧
    (0 < r → r < 0x80 → ∃ q, q + 1 = l0.pos ∧ l.input[q]? = some r) := by
  induction n generalizing cr l with
  | zero => cases e
  | succ n ih =>
    unfold readNextSignificant at e
    rcases e1 : l.rd with ⟨r1, w1, l1⟩
    obtain ⟨a1, -, -⟩ := rd_adv' e1 h
    rw [e1] at e; dsimp only at e
    have step : ∀ {c} {lx : Lexer}, lx.input = l1.input → lx.pos = l1.pos →
        readNextSignificant n c lx = .ret (r, w, l0) →
        l0.input = l.input ∧ l.pos ≤ l0.pos ∧ l0.pos ≤ l.input.length ∧
        (r = 0 → (l0.pos = l.input.length) ∨ (∃ q, q + 1 = l0.pos ∧ l.input[q]? = some 0)) ∧
        (0 < r → r < 0x80 → ∃ q, q + 1 = l0.pos ∧ l.input[q]? = some r) := by
      intro c lx hi hp he
      have hi2 : lx.input = l.input := hi.trans a1.input
      have := ih (l := lx) (by rw [hi2, hp]; exact a1.bound) he
      rw [hi2] at this
      refine ⟨this.1, ?_, this.2.2.1, this.2.2.2⟩
      have h1 := this.2.1; have h2 := a1.le; omega
    repeat' split at e
    · exact step (lx := { l1 with line := l1.line + 1, lpos := 0 }) rfl rfl e
    · exact step rfl rfl e
    · exact step (lx := { l1 with line := l1.line + 1, lpos := 0 }) rfl rfl e
    · exact step rfl rfl e
    · cases e
      refine ⟨a1.input, a1.le, a1.bound, ?_, ?_⟩
      · rintro rfl
        rcases rd_cases l h with ⟨-, h2, h3⟩ | ⟨b, h2, h3, h4⟩ | ⟨b, h2, h3, h4, h5⟩ | ⟨b, r', w', h2, h3, h4, h5, h6, h7⟩
        · rw [h3] at e1; cases e1; exact .inl h2
        · rw [h4] at e1; cases e1; exact .inr ⟨l.pos, rfl, h2⟩
        · rw [h5] at e1; cases e1; exact .inl h4
        · rw [h7] at e1; cases e1; omega
      · intro h0 h80
        rcases rd_cases l h with ⟨-, h2, h3⟩ | ⟨b, h2, h3, h4⟩ | ⟨b, h2, h3, h4, h5⟩ | ⟨b, r', w', h2, h3, h4, h5, h6, h7⟩
        · rw [h3] at e1; cases e1; omega
        · rw [h4] at e1; cases e1; exact ⟨l.pos, rfl, h2⟩
        · rw [h5] at e1; cases e1; omega
        · rw [h7] at e1; cases e1; omega

/-- `Scan` on bytes: some skipping, then one of the token functions. -/
theorem scanF_cases {n : Nat} {l l' : Lexer} {t : Token} (h : l.pos ≤ l.input.length)
    (e : scanF n l = .ret (t, l')) :
    ∃ m l1 r w l0, readNextSignificant m false l1 = .ret (r, w, l0) ∧ l1.input = l.input ∧
      l1.pos ≤ l1.input.length ∧ scanTok r w l0 = .ret (t, l') := by
  induction n generalizing l with
  | zero => cases e
  | succ n ih =>
    unfold scanF at e
    obtain ⟨r, w, l0, e1, a1, -, -⟩ := readNextSignificant_total l.fuel false l h
      (by unfold Lexer.fuel; omega)
    rw [e1] at e; dsimp only at e
    by_cases h35 : r = 35
    · subst h35
      rw [if_neg (by decide), if_neg (by decide), if_neg (by decide), if_pos rfl] at e
      obtain ⟨l1, e2, a2⟩ := skipComment_total l0.fuel false l0 a1.inv (by unfold Lexer.fuel; omega)
      rw [e2] at e; dsimp only at e
      have hi : l1.input = l.input := a2.input.trans a1.input
      obtain ⟨m, l1', r, w, l0', h1, h2, h3, h4⟩ := ih (l := l1) a2.inv e
      exact ⟨m, l1', r, w, l0', h1, h2.trans hi, h3, h4⟩
    · refine ⟨_, l, r, w, l0, e1, rfl, h, ?_⟩
      unfold scanTok; rw [if_neg h35] at e; exact e

/-! ### The kinds of the token functions -/

theorem scanPunctuator_kind {l l' : Lexer} {r w : Nat} {t : Token} (e : scanPunctuator l r w = .ret (t, l')) :
    t.kind = .illegal ∨ t.kind = .punctuator := by
  unfold scanPunctuator at e
  dsimp only at e
  repeat' split at e
  all_goals first
    | (cases e; first | exact .inl rfl | exact .inr rfl)
    | cases e

theorem numberEnd_kind {l0 l l' : Lexer} {f : Bool} {r w : Nat} {t : Token}
    (e : numberEnd l0 f r w l = .ret (t, l')) : t.kind = .intValue ∨ t.kind = .floatValue := by
  unfold numberEnd at e
  dsimp only at e
  generalize (if r ≠ 0 then l.unread w else l) = lx at e
  split at e
  · cases e
  · cases e
    cases f
    · exact .inl rfl
    · exact .inr rfl

theorem numberExp_kind {l0 l l' : Lexer} {f : Bool} {r w : Nat} {t : Token}
    (e : numberExp l0 f r w l = .ret (t, l')) :
    t.kind = .illegal ∨ t.kind = .intValue ∨ t.kind = .floatValue := by
  unfold numberExp at e
  dsimp only at e
  repeat' split at e
  all_goals first
    | exact .inr (numberEnd_kind e)
    | (cases e; exact .inl rfl)
    | cases e

theorem numberFrac_kind {l0 l l' : Lexer} {r w : Nat} {t : Token}
    (e : numberFrac l0 r w l = .ret (t, l')) :
    t.kind = .illegal ∨ t.kind = .intValue ∨ t.kind = .floatValue := by
  unfold numberFrac at e
  dsimp only at e
  repeat' split at e
  all_goals first
    | exact numberExp_kind e
    | (cases e; exact .inl rfl)
    | cases e

theorem scanNumber_kind {l0 l' : Lexer} {r : Nat} {t : Token}
    (e : scanNumber l0 r = .ret (t, l')) :
    t.kind = .illegal ∨ t.kind = .intValue ∨ t.kind = .floatValue := by
  unfold scanNumber at e
  dsimp only at e
  repeat' split at e
  all_goals first
    | exact numberFrac_kind e
    | (cases e; exact .inl rfl)
    | cases e

theorem stringPass2_kind {c ln n : Nat} {acc : Bytes} {l l' : Lexer} {t : Token}
    (e : stringPass2 c ln n acc l = .ret (t, l')) : t.kind = .illegal ∨ t.kind = .stringValue := by
  induction n generalizing acc l with
  | zero => cases e
  | succ n ih =>
    unfold stringPass2 at e
    dsimp only at e
    repeat' split at e
    all_goals first
      | exact ih e
      | (cases e; first | exact .inl rfl | exact .inr rfl)

theorem scanString_kind {l l' : Lexer} {t : Token}
    (e : scanString l = .ret (t, l')) : t.kind = .illegal ∨ t.kind = .stringValue := by
  unfold scanString at e
  repeat' split at e
  all_goals first
    | exact stringPass2_kind e
    | (cases e; first | exact .inl rfl | exact .inr rfl)
    | cases e

theorem scanBlock_kind {l l' : Lexer} {t : Token}
    (e : scanBlockString l = .ret (t, l')) : t.kind = .illegal ∨ t.kind = .stringValue := by
  unfold scanBlockString at e
  dsimp only at e
  repeat' split at e
  all_goals first
    | (cases e; first | exact .inl rfl | exact .inr rfl)
    | cases e

theorem scanName_kind {l l' : Lexer} {t : Token} (e : scanName l = .ret (t, l')) : t.kind = .name := by
  unfold scanName at e
  repeat' split at e
  all_goals first
    | (cases e; rfl)
    | cases e

theorem scanTok_name_inv {l l' : Lexer} {t : Token} {r w : Nat} (e : scanTok r w l = .ret (t, l'))
    (hk : t.kind = .name) : isNameStart r = true ∧ scanName l = .ret (t, l') := by
  unfold scanTok at e
  split at e
  · rename_i h; exact ⟨h, e⟩
  exfalso
  split at e
  · have := scanPunctuator_kind e; rw [hk] at this; simp at this
  split at e
  · have := scanNumber_kind e; rw [hk] at this; simp at this
  split at e
  · dsimp only at e
    split at e
    · have := scanBlock_kind e; rw [hk] at this; simp at this
    · have := scanString_kind e; rw [hk] at this; simp at this
  split at e <;> (cases e; cases hk)

theorem scanTok_eof_inv {l l' : Lexer} {t : Token} {r w : Nat} (e : scanTok r w l = .ret (t, l'))
    (hk : t.kind = .eof) : r = 0 ∧ l' = l := by
  unfold scanTok at e
  split at e
  · have := scanName_kind e; rw [hk] at this; cases this
  split at e
  · have := scanPunctuator_kind e; rw [hk] at this; simp at this
  split at e
  · have := scanNumber_kind e; rw [hk] at this; simp at this
  split at e
  · dsimp only at e
    split at e
    · have := scanBlock_kind e; rw [hk] at this; simp at this
    · have := scanString_kind e; rw [hk] at this; simp at this
  split at e
  · rename_i h; cases e; exact ⟨h, rfl⟩
  · cases e; cases hk

/-- The loop of `scanName` on bytes. -/
theorem nameLoop_bytes {n : Nat} {l l' : Lexer} (h : l.pos ≤ l.input.length)
    (e : scanNameLoop n l = .ret l') :
    ∃ w x, l'.input = l.input ∧ l.pos + (w ++ x).length = l'.pos ∧
      w ++ x <+: l.input.drop l.pos ∧ (∀ b ∈ w, isNameCont b = true) ∧
      ((x = [] ∧ (∀ b, l.input[l'.pos]? = some b → isNameCont b = false)) ∨ x = [0] ∨
       (∃ b, x = [b] ∧ 0x80 ≤ b ∧ l'.pos = l.input.length)) := by
  induction n generalizing l with
  | zero => cases e
  | succ n ih =>
    unfold scanNameLoop at e
    have hdrop : ∀ b, l.input[l.pos]? = some b → l.input.drop l.pos = b :: l.input.drop (l.pos + 1) := by
      intro b hb
      have hlt : l.pos < l.input.length := by
        rcases Nat.lt_or_ge l.pos l.input.length with h' | h'
        · exact h'
        · rw [List.getElem?_eq_none h'] at hb; cases hb
      rw [List.drop_eq_getElem_cons hlt]
      congr 1
      rw [List.getElem?_eq_getElem hlt] at hb; exact Option.some.inj hb
    rcases rd_cases l h with ⟨h1, h2, h3⟩ | ⟨b, h2, h3, h4⟩ | ⟨b, h2, h3, h4, h5⟩ | ⟨b, r', w', h2, h3, h4, h5, h6, h7⟩
    · rw [h3] at e; dsimp only at e
      rw [if_neg (by decide), if_pos rfl] at e; cases e
      exact ⟨[], [], rfl, rfl, List.nil_prefix, by simp, .inl ⟨rfl, by intro b hb; rw [h1] at hb; cases hb⟩⟩
    · rw [h4] at e; dsimp only at e
      split at e
      · rename_i hc
        have hlt : l.pos < l.input.length := by
          rcases Nat.lt_or_ge l.pos l.input.length with h' | h'
          · exact h'
          · rw [List.getElem?_eq_none h'] at h2; cases h2
        obtain ⟨w, x, q1, q2, q3, q4, q5⟩ := ih (l := { l with pos := l.pos + 1, lpos := l.lpos + 1 }) (Nat.succ_le_of_lt hlt) e
        refine ⟨b :: w, x, q1, ?_, ?_, ?_, q5⟩
        · simp only [List.cons_append, List.length_cons] at q2 ⊢; omega
        · rw [hdrop b h2, List.cons_append]
          exact List.cons_prefix_cons.2 ⟨rfl, q3⟩
        · intro d hd
          rcases List.mem_cons.1 hd with rfl | hd
          · exact hc
          · exact q4 d hd
      · rename_i hc
        split at e
        · rename_i h0; subst h0; cases e
          refine ⟨[], [0], rfl, rfl, ?_, by simp, .inr (.inl rfl)⟩
          rw [hdrop 0 h2]; exact ⟨_, rfl⟩
        · cases e
          refine ⟨[], [], rfl, by simp [Lexer.unread], List.nil_prefix, by simp, .inl ⟨rfl, ?_⟩⟩
          intro d hd
          simp [Lexer.unread, h2] at hd; subst hd
          simpa using hc
    · rw [h5] at e; dsimp only at e
      rw [if_neg (by decide), if_pos rfl] at e; cases e
      refine ⟨[], [b], rfl, rfl, ?_, by simp, .inr (.inr ⟨b, rfl, h3, h4⟩)⟩
      rw [hdrop b h2]; exact ⟨_, rfl⟩
    · rw [h7] at e; dsimp only at e
      have hnc : ∀ x, 0x80 ≤ x → isNameCont x = false := by
        intro x hx
        simp only [isNameCont, isDigit, isNameStart, Bool.or_eq_false_iff, Bool.and_eq_false_iff,
          decide_eq_false_iff_not, beq_eq_false_iff_ne]
        omega
      rw [hnc r' h4, if_neg (by simp), if_neg (by omega)] at e; cases e
      refine ⟨[], [], rfl, by simp [Lexer.unread], List.nil_prefix, by simp, .inl ⟨rfl, ?_⟩⟩
      intro d hd
      simp [Lexer.unread, h2] at hd; subst hd
      exact hnc b h3

end GQL
