/-
Basic facts about parser functions.
-/
import Verif.Model.Parser
import Verif.Spec.Grammar
import Verif.Proofs.Says

namespace GQL
open Spec

theorem bind_ok {α β : Type} {p : P α} {f : α → P β} {ts rest : Toks} {b : β} :
    (p >>= f) ts = .ok b rest ↔ ∃ a r, p ts = .ok a r ∧ f a r = .ok b rest := by
  show P.bind p f ts = _ ↔ _
  unfold P.bind
  constructor
  · intro h
    cases e : p ts <;> rw [e] at h <;> simp only at h
    · exact ⟨_, _, rfl, h⟩
    all_goals cases h
  · rintro ⟨a, r, e, h⟩
    rw [e]; exact h

theorem bind_eq {α β : Type} {p : P α} {f : α → P β} {ts r : Toks} {a : α} (h : p ts = .ok a r) :
    (p >>= f) ts = f a r := by
  show P.bind p f ts = _
  unfold P.bind; rw [h]

theorem pure_ok {α : Type} {a b : α} {ts rest : Toks} :
    (pure a : P α) ts = .ok b rest ↔ a = b ∧ ts = rest := by
  show Res.ok a ts = .ok b rest ↔ _
  simp

theorem pure_eq {α : Type} (a : α) (ts : Toks) : (pure a : P α) ts = .ok a ts := rfl

theorem map_ok {α β : Type} {p : P α} {f : α → β} {ts rest : Toks} {b : β} :
    (f <$> p) ts = .ok b rest ↔ ∃ a, p ts = .ok a rest ∧ f a = b := by
  show (p >>= fun a => pure (f a)) ts = _ ↔ _
  rw [bind_ok]
  constructor
  · rintro ⟨a, r, h1, h2⟩; obtain ⟨h, rfl⟩ := pure_ok.1 h2; exact ⟨a, h1, h⟩
  · rintro ⟨a, h1, h2⟩; exact ⟨a, rest, h1, pure_ok.2 ⟨h2, rfl⟩⟩

theorem fail_ok {α : Type} {e : PErr} {ts rest : Toks} {b : α} : (fail e : P α) ts = .ok b rest ↔ False := by
  simp [fail]

theorem crash_ok {α : Type} {ts rest : Toks} {b : α} : (crash : P α) ts = .ok b rest ↔ False := by
  simp [crash]

theorem oof_ok {α : Type} {ts rest : Toks} {b : α} : (outOfFuel : P α) ts = .ok b rest ↔ False := by
  simp [outOfFuel]

theorem unexpectedCur_ok {α : Type} {w : List Bytes} {ts rest : Toks} {b : α} :
    (unexpectedCur w : P α) ts = .ok b rest ↔ False := by
  simp [unexpectedCur, bind_ok, fail]

theorem cur_ok {ts rest : Toks} {t : Token} : cur ts = .ok t rest ↔ t = hd ts ∧ rest = ts := by
  simp only [cur, Res.ok.injEq]; exact ⟨fun h => ⟨h.1.symm, h.2.symm⟩, fun h => ⟨h.1.symm, h.2.symm⟩⟩

theorem cur_eq (ts : Toks) : cur ts = .ok (hd ts) ts := rfl

theorem hd_cons (t : Token) (ts : Toks) : hd (t :: ts) = t := rfl

theorem tok1_iff {k : TokenKind} {l : Bytes} {ts rest : Toks} (hk : k ≠ .eof) :
    Tok1 k l ts rest ↔ (hd ts).kind = k ∧ (hd ts).lit = l ∧ rest = ts.tail := by
  cases ts with
  | nil =>
    constructor
    · rintro ⟨t, h, -⟩; cases h
    · rintro ⟨h, -⟩; exact absurd h.symm hk
  | cons t ts =>
    constructor
    · rintro ⟨t, h, h1, h2⟩; cases h; exact ⟨h1, h2, rfl⟩
    · rintro ⟨h1, h2, rfl⟩; exact ⟨t, rfl, h1, h2⟩

theorem notNext1_iff {k : TokenKind} {l : Bytes} {ts : Toks} (hk : k ≠ .eof) :
    NotNext1 k l ts ↔ ¬ ((hd ts).kind = k ∧ (hd ts).lit = l) := by
  unfold NotNext1
  constructor
  · rintro h ⟨h1, h2⟩; exact h ts.tail ((tok1_iff hk).2 ⟨h1, h2, rfl⟩)
  · intro h r h'; obtain ⟨h1, h2, -⟩ := (tok1_iff hk).1 h'; exact h ⟨h1, h2⟩

theorem notKind_iff {k : TokenKind} {ts : Toks} (hk : k ≠ .eof) : NotKind k ts ↔ (hd ts).kind ≠ k := by
  unfold NotKind
  constructor
  · rintro h h1; exact h _ ts.tail ((tok1_iff hk).2 ⟨h1, rfl, rfl⟩)
  · intro h l r h'; obtain ⟨h1, -, -⟩ := (tok1_iff hk).1 h'; exact h h1

theorem tok1_length {k : TokenKind} {l : Bytes} {ts rest : Toks} (h : Tok1 k l ts rest) :
    ts.length = rest.length + 1 := by
  obtain ⟨t, rfl, -⟩ := h; rfl

theorem tok1_unique {k : TokenKind} {l : Bytes} {ts r1 r2 : Toks} (h : Tok1 k l ts r1) (h2 : Tok1 k l ts r2) :
    r1 = r2 := by
  obtain ⟨t, rfl, -⟩ := h; obtain ⟨t, e, -⟩ := h2; cases e; rfl

/-- Two different tokens do not begin at one place. -/
theorem tok1_ne {k k' : TokenKind} {l l' : Bytes} {ts rest : Toks} (h : Tok1 k l ts rest)
    (hne : k ≠ k' ∨ l ≠ l') : NotNext1 k' l' ts := by
  obtain ⟨t, rfl, h1, h2⟩ := h
  rintro r ⟨t', e, h3, h4⟩
  cases e
  rcases hne with h | h
  · exact h (h1.symm.trans h3)
  · exact h (h2.symm.trans h4)

theorem tok1_kind {k k' : TokenKind} {l : Bytes} {ts rest : Toks} (h : Tok1 k l ts rest)
    (hne : k ≠ k') : NotKind k' ts := by
  intro l' r h'
  exact tok1_ne (l' := l') h (.inl hne) r h'

theorem skip1_bind {β : Type} {k : TokenKind} (hk : k ≠ .eof) {l : Bytes} {f : Bool → P β} {ts rest : Toks} {b : β} :
    (skip1 k l >>= f) ts = .ok b rest ↔
      (∃ r, Tok1 k l ts r ∧ f true r = .ok b rest) ∨ (NotNext1 k l ts ∧ f false ts = .ok b rest) := by
  rw [notNext1_iff hk]
  simp only [tok1_iff hk]
  have : skip1 k l ts = if (hd ts).kind = k ∧ (hd ts).lit = l then .ok true ts.tail else .ok false ts := by
    unfold skip1
    rw [bind_eq (cur_eq ts)]
    by_cases h : (hd ts).kind = k ∧ (hd ts).lit = l
    · rw [if_pos h, if_neg (by simp [h.1, h.2])]; rfl
    · rw [if_neg h, if_pos (by simpa [Classical.or_iff_not_imp_left] using h)]; rfl
  by_cases h : (hd ts).kind = k ∧ (hd ts).lit = l
  · rw [if_pos h] at this
    rw [bind_eq this]
    constructor
    · intro hh; exact .inl ⟨_, ⟨h.1, h.2, rfl⟩, hh⟩
    · rintro (⟨r, ⟨-, -, rfl⟩, hh⟩ | ⟨hn, -⟩)
      · exact hh
      · exact absurd h hn
  · rw [if_neg h] at this
    rw [bind_eq this]
    constructor
    · intro hh; exact .inr ⟨h, hh⟩
    · rintro (⟨r, ⟨h1, h2, rfl⟩, hh⟩ | ⟨hn, hh⟩)
      · exact absurd ⟨h1, h2⟩ h
      · exact hh

theorem skip1_ok {k : TokenKind} (hk : k ≠ .eof) {l : Bytes} {ts rest : Toks} {b : Bool} :
    skip1 k l ts = .ok b rest ↔
      (b = true ∧ Tok1 k l ts rest) ∨ (b = false ∧ NotNext1 k l ts ∧ rest = ts) := by
  have := skip1_bind (β := Bool) hk (l := l) (f := pure) (ts := ts) (rest := rest) (b := b)
  rw [bind_ok] at this
  simp only [pure_ok] at this
  constructor
  · intro h
    rcases this.1 ⟨b, rest, h, rfl, rfl⟩ with ⟨r, h1, rfl, rfl⟩ | ⟨h1, rfl, rfl⟩
    · exact .inl ⟨rfl, h1⟩
    · exact .inr ⟨rfl, h1, rfl⟩
  · intro h
    obtain ⟨a, r, h1, rfl, rfl⟩ := this.2 (by
      rcases h with ⟨rfl, h⟩ | ⟨rfl, h, rfl⟩
      · exact .inl ⟨_, h, rfl, rfl⟩
      · exact .inr ⟨h, rfl, rfl⟩)
    exact h1

theorem skip1_true {k : TokenKind} {l : Bytes} {ts rest : Toks} (h : Tok1 k l ts rest) (hk : k ≠ .eof := by decide) :
    skip1 k l ts = .ok true rest := (skip1_ok hk).2 (.inl ⟨rfl, h⟩)

theorem skip1_false {k : TokenKind} {l : Bytes} {ts : Toks} (h : NotNext1 k l ts) (hk : k ≠ .eof := by decide) :
    skip1 k l ts = .ok false ts := (skip1_ok hk).2 (.inr ⟨rfl, h, rfl⟩)

theorem peek1_ok {k : TokenKind} (hk : k ≠ .eof) {l : Bytes} {ts rest : Toks} {b : Bool} :
    peek1 k l ts = .ok b rest ↔
      rest = ts ∧ ((b = true ∧ ∃ r, Tok1 k l ts r) ∨ (b = false ∧ NotNext1 k l ts)) := by
  unfold peek1
  rw [bind_eq (cur_eq ts)]
  rw [notNext1_iff hk]
  simp only [tok1_iff hk, pure_ok]
  by_cases h1 : (hd ts).kind = k <;> by_cases h2 : (hd ts).lit = l <;> cases b <;>
    simp [h1, h2] <;> exact ⟨Eq.symm, Eq.symm⟩

theorem peek1_true {k : TokenKind} {l : Bytes} {ts r : Toks} (h : Tok1 k l ts r) (hk : k ≠ .eof := by decide) :
    peek1 k l ts = .ok true ts := (peek1_ok hk).2 ⟨rfl, .inl ⟨rfl, r, h⟩⟩

theorem peek1_false {k : TokenKind} {l : Bytes} {ts : Toks} (h : NotNext1 k l ts) (hk : k ≠ .eof := by decide) :
    peek1 k l ts = .ok false ts := (peek1_ok hk).2 ⟨rfl, .inr ⟨rfl, h⟩⟩

theorem peek0_ok {k : TokenKind} {ts rest : Toks} {b : Bool} :
    peek0 k ts = .ok b rest ↔ rest = ts ∧ b = ((hd ts).kind == k) := by
  unfold peek0
  rw [bind_eq (cur_eq ts), pure_ok]
  constructor
  · rintro ⟨h, rfl⟩; exact ⟨rfl, h.symm⟩
  · rintro ⟨rfl, h⟩; exact ⟨h.symm, rfl⟩

theorem peekn_eq {k : TokenKind} {ls : List Bytes} (hl : ls ≠ []) (ts : Toks) :
    peekn k ls ts = .ok (decide ((hd ts).kind = k) && ls.contains (hd ts).lit) ts := by
  unfold peekn
  rw [bind_eq (cur_eq ts)]
  have : ls.isEmpty = false := by cases ls <;> simp_all
  by_cases h : (hd ts).kind = k
  · simp [h, this, pure_eq]
  · simp [h, pure_eq]

theorem consume0_ok {k : TokenKind} (hk : k ≠ .eof) {ts rest : Toks} {o : Option Token} :
    consume0 k ts = .ok o rest ↔
      (∃ t, o = some t ∧ ts = t :: rest ∧ t.kind = k) ∨ (o = none ∧ NotKind k ts ∧ rest = ts) := by
  rw [notKind_iff hk]
  unfold consume0
  rw [bind_eq (cur_eq ts)]
  cases ts with
  | nil =>
    rw [if_neg (by exact fun h => hk h.symm)]
    rw [pure_ok]
    constructor
    · rintro ⟨rfl, rfl⟩; exact .inr ⟨rfl, fun h => hk h.symm, rfl⟩
    · rintro (⟨t, rfl, h, -⟩ | ⟨rfl, -, rfl⟩)
      · cases h
      · exact ⟨rfl, rfl⟩
  | cons t ts =>
    rw [hd_cons]
    by_cases h : t.kind = k
    · rw [if_pos h, bind_eq (show advance (t :: ts) = .ok () ts from rfl), pure_ok]
      constructor
      · rintro ⟨rfl, rfl⟩; exact .inl ⟨t, rfl, rfl, h⟩
      · rintro (⟨t, rfl, e, -⟩ | ⟨-, hn, -⟩)
        · cases e; exact ⟨rfl, rfl⟩
        · exact absurd h hn
    · rw [if_neg h, pure_ok]
      constructor
      · rintro ⟨rfl, rfl⟩; exact .inr ⟨rfl, h, rfl⟩
      · rintro (⟨t, rfl, e, h'⟩ | ⟨rfl, -, rfl⟩)
        · cases e; exact absurd h' h
        · exact ⟨rfl, rfl⟩

theorem consume0_none {k : TokenKind} {ts : Toks} (h : NotKind k ts) (hk : k ≠ .eof := by decide) :
    consume0 k ts = .ok none ts := (consume0_ok hk).2 (.inr ⟨rfl, h, rfl⟩)

theorem consume0_some {k : TokenKind} {t : Token} {ts : Toks} (h : t.kind = k) (hk : k ≠ .eof := by decide) :
    consume0 k (t :: ts) = .ok (some t) ts := (consume0_ok hk).2 (.inl ⟨t, rfl, rfl, h⟩)

theorem mustConsume0_ok {k : TokenKind} (hk : k ≠ .eof) {ts rest : Toks} {t : Token} :
    mustConsume0 k ts = .ok t rest ↔ ts = t :: rest ∧ t.kind = k := by
  unfold mustConsume0
  rw [bind_eq (cur_eq ts)]
  cases ts with
  | nil =>
    rw [if_pos (by exact fun h => hk h.symm), fail_ok]
    simp
  | cons t' ts =>
    rw [hd_cons]
    by_cases h : t'.kind = k
    · rw [if_neg (by simpa using h), bind_eq (show advance (t' :: ts) = .ok () ts from rfl), pure_ok]
      constructor
      · rintro ⟨rfl, rfl⟩; exact ⟨rfl, h⟩
      · rintro ⟨e, -⟩; cases e; exact ⟨rfl, rfl⟩
    · rw [if_pos h, fail_ok]
      constructor
      · exact False.elim
      · rintro ⟨e, h'⟩; cases e; exact h h'

theorem mustConsume0_eq {k : TokenKind} {t : Token} {ts : Toks} (h : t.kind = k) (hk : k ≠ .eof := by decide) :
    mustConsume0 k (t :: ts) = .ok t ts := (mustConsume0_ok hk).2 ⟨rfl, h⟩

theorem mustConsume1_ok {k : TokenKind} (hk : k ≠ .eof) {l : Bytes} {ts rest : Toks} {t : Token} :
    mustConsume1 k l ts = .ok t rest ↔ ts = t :: rest ∧ t.kind = k ∧ t.lit = l := by
  unfold mustConsume1
  rw [bind_eq (cur_eq ts)]
  cases ts with
  | nil =>
    rw [if_pos (.inl (by exact fun h => hk h.symm)), fail_ok]
    simp
  | cons t' ts =>
    rw [hd_cons]
    by_cases h : t'.kind = k ∧ t'.lit = l
    · rw [if_neg (by simpa using h), bind_eq (show advance (t' :: ts) = .ok () ts from rfl), pure_ok]
      constructor
      · rintro ⟨rfl, rfl⟩; exact ⟨rfl, h⟩
      · rintro ⟨e, -⟩; cases e; exact ⟨rfl, rfl⟩
    · rw [if_pos (by simpa [Classical.or_iff_not_imp_left] using h), fail_ok]
      constructor
      · exact False.elim
      · rintro ⟨e, h'⟩; cases e; exact h h'

theorem mustConsume1_bind {β : Type} {k : TokenKind} (hk : k ≠ .eof) {l : Bytes} {p : P β} {ts rest : Toks} {b : β} :
    (mustConsume1 k l >>= fun _ => p) ts = .ok b rest ↔ ∃ r, Tok1 k l ts r ∧ p r = .ok b rest := by
  rw [bind_ok]
  simp only [mustConsume1_ok hk]
  constructor
  · rintro ⟨a, r, ⟨rfl, h1, h2⟩, h⟩; exact ⟨r, ⟨a, rfl, h1, h2⟩, h⟩
  · rintro ⟨r, ⟨a, rfl, h1, h2⟩, h⟩; exact ⟨a, r, ⟨rfl, h1, h2⟩, h⟩

theorem mustConsume1_eq {k : TokenKind} {l : Bytes} {t : Token} {ts : Toks} (h : t.kind = k) (h' : t.lit = l)
    (hk : k ≠ .eof := by decide) : mustConsume1 k l (t :: ts) = .ok t ts :=
  (mustConsume1_ok hk).2 ⟨rfl, h, h'⟩

theorem mustConsume1_step {β : Type} {k : TokenKind} {l : Bytes} {p : P β} {ts r : Toks} (h : Tok1 k l ts r)
    (hk : k ≠ .eof := by decide) : (mustConsume1 k l >>= fun _ => p) ts = p r := by
  obtain ⟨t, rfl, h1, h2⟩ := h
  rw [bind_eq (mustConsume1_eq h1 h2 hk)]

theorem consumen_ok {k : TokenKind} (hk : k ≠ .eof) {ls : List Bytes} (hl : ls ≠ []) {ts rest : Toks} {o : Option Token} :
    consumen k ls ts = .ok o rest ↔
      (∃ t, o = some t ∧ ts = t :: rest ∧ t.kind = k ∧ t.lit ∈ ls) ∨
      (o = none ∧ (∀ l ∈ ls, NotNext1 k l ts) ∧ rest = ts) := by
  simp only [notNext1_iff hk]
  unfold consumen
  rw [bind_eq (cur_eq ts)]
  have he : ls.isEmpty = false := by cases ls <;> simp_all
  simp only [he, Bool.false_eq_true, if_false]
  by_cases h : (hd ts).kind = k ∧ (hd ts).lit ∈ ls
  · rw [if_neg (by simpa using h.1), if_pos (by simpa using h.2)]
    cases ts with
    | nil => exact absurd h.1.symm hk
    | cons t ts =>
      rw [hd_cons] at h ⊢
      rw [bind_eq (show advance (t :: ts) = .ok () ts from rfl), pure_ok]
      constructor
      · rintro ⟨rfl, rfl⟩; exact .inl ⟨t, rfl, rfl, h⟩
      · rintro (⟨t, rfl, e, -⟩ | ⟨-, hn, -⟩)
        · cases e; exact ⟨rfl, rfl⟩
        · exact absurd ⟨h.1, rfl⟩ (hn _ h.2)
  · have hn : (if (hd ts).kind ≠ k then (pure none : P (Option Token))
        else if ls.contains (hd ts).lit = true then (do advance; pure (some (hd ts))) else pure none) ts = .ok none ts := by
      by_cases h1 : (hd ts).kind = k
      · rw [if_neg (by simpa using h1), if_neg (by simpa using fun h2 => h ⟨h1, h2⟩)]; rfl
      · rw [if_pos h1]; rfl
    rw [hn]
    constructor
    · intro e; cases e
      refine .inr ⟨rfl, ?_, rfl⟩
      rintro l hl ⟨h1, h2⟩; exact h ⟨h1, h2 ▸ hl⟩
    · rintro (⟨t, rfl, rfl, h'⟩ | ⟨rfl, -, rfl⟩)
      · exact absurd h' h
      · rfl

theorem mustConsumen_ok {k : TokenKind} (hk : k ≠ .eof) {ls : List Bytes} (hl : ls ≠ []) {ts rest : Toks} {t : Token} :
    mustConsumen k ls ts = .ok t rest ↔ ts = t :: rest ∧ t.kind = k ∧ t.lit ∈ ls := by
  unfold mustConsumen
  rw [bind_eq (cur_eq ts), bind_ok]
  simp only [consumen_ok hk hl]
  constructor
  · rintro ⟨a, r, ⟨t', rfl, rfl, h1, h2⟩ | ⟨rfl, -, rfl⟩, h⟩
    · obtain ⟨rfl, rfl⟩ := pure_ok.1 h; exact ⟨rfl, h1, h2⟩
    · exact (fail_ok.1 h).elim
  · rintro ⟨rfl, h1, h2⟩; exact ⟨_, rest, .inl ⟨t, rfl, rfl, h1, h2⟩, pure_ok.2 ⟨rfl, rfl⟩⟩

theorem orP_ok {p q : P Bool} {ts rest : Toks} {b : Bool} :
    orP p q ts = .ok b rest ↔
      (b = true ∧ p ts = .ok true rest) ∨ (∃ r, p ts = .ok false r ∧ q r = .ok b rest) := by
  unfold orP
  rw [bind_ok]
  constructor
  · rintro ⟨a, r, h1, h2⟩
    cases a with
    | true => obtain ⟨rfl, rfl⟩ := pure_ok.1 h2; exact .inl ⟨rfl, h1⟩
    | false => exact .inr ⟨r, h1, h2⟩
  · rintro (⟨rfl, h⟩ | ⟨r, h1, h2⟩)
    · exact ⟨true, rest, h, pure_ok.2 ⟨rfl, rfl⟩⟩
    · exact ⟨false, r, h1, h2⟩

theorem notP_ok {p : P Bool} {ts rest : Toks} {b : Bool} :
    notP p ts = .ok b rest ↔ p ts = .ok (!b) rest := by
  unfold notP
  rw [bind_ok]
  constructor
  · rintro ⟨a, r, h1, h2⟩; obtain ⟨rfl, rfl⟩ := pure_ok.1 h2; simpa using h1
  · intro h; exact ⟨_, _, h, pure_ok.2 ⟨by simp, rfl⟩⟩

end GQL
