/-
The loops of the parser against `Many` and `SepBy`.
-/
import Verif.Proofs.ParseBasic

namespace GQL
open Spec

/-- `for { R; if B { break } }`. -/
inductive RLoop {α : Type} (R : Toks → α → Toks → Prop) (B : Toks → Bool → Toks → Prop) :
    Toks → List α → Toks → Prop
  | stop {ts a r rest} : R ts a r → B r true rest → RLoop R B ts [a] rest
  | next {ts a r r' as rest} : R ts a r → B r false r' → RLoop R B r' as rest → RLoop R B ts (a :: as) rest

/-- `for !B { R }`. -/
inductive ULoop {α : Type} (B : Toks → Bool → Toks → Prop) (R : Toks → α → Toks → Prop) :
    Toks → List α → Toks → Prop
  | stop {ts rest} : B ts true rest → ULoop B R ts [] rest
  | next {ts r a r' as rest} : B ts false r → R r a r' → ULoop B R r' as rest → ULoop B R ts (a :: as) rest

/-- Every successful run is in `R`. -/
def Sound {α : Type} (p : P α) (R : Toks → α → Toks → Prop) : Prop :=
  ∀ ts a rest, p ts = .ok a rest → R ts a rest

/-- Every derivation of fewer than `N` tokens is run successfully. -/
def Complete {α : Type} (N : Nat) (p : P α) (R : Toks → α → Toks → Prop) : Prop :=
  ∀ ts a rest, ts.length < N → R ts a rest → p ts = .ok a rest

/-- Consumes something. -/
def Shrink {α : Type} (R : Toks → α → Toks → Prop) : Prop := ∀ ts a rest, R ts a rest → rest.length < ts.length

/-- Does not grow. -/
def NoGrow {α : Type} (R : Toks → α → Toks → Prop) : Prop := ∀ ts a rest, R ts a rest → rest.length ≤ ts.length

theorem Shrink.noGrow {α : Type} {R : Toks → α → Toks → Prop} (h : Shrink R) : NoGrow R :=
  fun ts a rest hr => Nat.le_of_lt (h ts a rest hr)

theorem Complete.mono {α : Type} {N M : Nat} {p : P α} {R : Toks → α → Toks → Prop} (h : Complete N p R)
    (hm : M ≤ N) : Complete M p R := fun ts a rest hl hr => h ts a rest (Nat.lt_of_lt_of_le hl hm) hr

theorem doWhile_sound {α : Type} {body : P α} {brk : P Bool} {R : Toks → α → Toks → Prop} {B}
    (hb : Sound body R) (hk : Sound brk B) : Sound (doWhile body brk) (RLoop R B) := by
  intro ts as rest
  unfold doWhile
  generalize ts.length + 1 = n
  intro h
  induction n generalizing ts as with
  | zero => exact (oof_ok.1 h).elim
  | succ n ih =>
    rw [doWhileF, bind_ok] at h
    obtain ⟨a, r, h1, h⟩ := h
    rw [bind_ok] at h
    obtain ⟨b, r', h2, h⟩ := h
    cases b with
    | true => obtain ⟨rfl, rfl⟩ := pure_ok.1 h; exact .stop (hb _ _ _ h1) (hk _ _ _ h2)
    | false =>
      simp only [Bool.false_eq_true, if_false] at h
      rw [bind_ok] at h
      obtain ⟨as', r'', h3, h⟩ := h
      obtain ⟨rfl, rfl⟩ := pure_ok.1 h
      exact .next (hb _ _ _ h1) (hk _ _ _ h2) (ih _ _ h3)

theorem doWhile_complete {α : Type} {N : Nat} {body : P α} {brk : P Bool} {R : Toks → α → Toks → Prop} {B}
    (hb : Complete N body R) (hk : Complete N brk B) (hs : Shrink R) (hg : NoGrow B) :
    Complete N (doWhile body brk) (RLoop R B) := by
  intro ts as rest hl h
  unfold doWhile
  have : ∀ n, ts.length < n → doWhileF body brk n ts = .ok as rest := by
    induction h with
    | @stop ts a r rest h1 h2 =>
      intro n hn
      obtain ⟨n, rfl⟩ : ∃ m, n = m + 1 := ⟨n - 1, by omega⟩
      have := hs _ _ _ h1
      rw [doWhileF, bind_eq (hb _ _ _ hl h1), bind_eq (hk _ _ _ (by omega) h2)]
      rfl
    | @next ts a r r' as rest h1 h2 h3 ih =>
      intro n hn
      obtain ⟨n, rfl⟩ : ∃ m, n = m + 1 := ⟨n - 1, by omega⟩
      have := hs _ _ _ h1
      have := hg _ _ _ h2
      rw [doWhileF, bind_eq (hb _ _ _ hl h1), bind_eq (hk _ _ _ (by omega) h2)]
      simp only [Bool.false_eq_true, if_false]
      rw [bind_eq (ih (by omega) n (by omega))]
      rfl
  exact this _ (Nat.lt_succ_self _)

theorem untilDo_sound {α : Type} {body : P α} {brk : P Bool} {R : Toks → α → Toks → Prop} {B}
    (hb : Sound body R) (hk : Sound brk B) : Sound (untilDo brk body) (ULoop B R) := by
  intro ts as rest
  unfold untilDo
  generalize ts.length + 1 = n
  intro h
  induction n generalizing ts as with
  | zero => exact (oof_ok.1 h).elim
  | succ n ih =>
    rw [untilDoF, bind_ok] at h
    obtain ⟨b, r, h1, h⟩ := h
    cases b with
    | true => obtain ⟨rfl, rfl⟩ := pure_ok.1 h; exact .stop (hk _ _ _ h1)
    | false =>
      simp only [Bool.false_eq_true, if_false] at h
      rw [bind_ok] at h
      obtain ⟨a, r', h2, h⟩ := h
      rw [bind_ok] at h
      obtain ⟨as', r'', h3, h⟩ := h
      obtain ⟨rfl, rfl⟩ := pure_ok.1 h
      exact .next (hk _ _ _ h1) (hb _ _ _ h2) (ih _ _ h3)

theorem untilDo_complete {α : Type} {N : Nat} {body : P α} {brk : P Bool} {R : Toks → α → Toks → Prop} {B}
    (hb : Complete N body R) (hk : Complete N brk B) (hs : Shrink R) (hg : NoGrow B) :
    Complete N (untilDo brk body) (ULoop B R) := by
  intro ts as rest hl h
  unfold untilDo
  have : ∀ n, ts.length < n → untilDoF brk body n ts = .ok as rest := by
    induction h with
    | @stop ts rest h1 =>
      intro n hn
      obtain ⟨n, rfl⟩ : ∃ m, n = m + 1 := ⟨n - 1, by omega⟩
      rw [untilDoF, bind_eq (hk _ _ _ hl h1)]
      rfl
    | @next ts r a r' as rest h1 h2 h3 ih =>
      intro n hn
      obtain ⟨n, rfl⟩ : ∃ m, n = m + 1 := ⟨n - 1, by omega⟩
      have := hg _ _ _ h1
      have := hs _ _ _ h2
      rw [untilDoF, bind_eq (hk _ _ _ hl h1)]
      simp only [Bool.false_eq_true, if_false]
      rw [bind_eq (hb _ _ _ (by omega) h2), bind_eq (ih (by omega) n (by omega))]
      rfl
  exact this _ (Nat.lt_succ_self _)

/-! Break conditions. -/

/-- Stop and move past the token. -/
def BSkip (k : TokenKind) (l : Bytes) (ts : Toks) (b : Bool) (rest : Toks) : Prop :=
  (b = true ∧ Tok1 k l ts rest) ∨ (b = false ∧ NotNext1 k l ts ∧ rest = ts)

/-- Go on past the token, stop otherwise. -/
def BSep (k : TokenKind) (l : Bytes) (ts : Toks) (b : Bool) (rest : Toks) : Prop := BSkip k l ts (!b) rest

/-- Stop before the token. -/
def BPeek (k : TokenKind) (l : Bytes) (ts : Toks) (b : Bool) (rest : Toks) : Prop :=
  rest = ts ∧ ((b = true ∧ ∃ r, Tok1 k l ts r) ∨ (b = false ∧ NotNext1 k l ts))

/-- Stop before the token or at the end of the input. -/
def BPeekEof (k : TokenKind) (l : Bytes) (ts : Toks) (b : Bool) (rest : Toks) : Prop :=
  rest = ts ∧ ((b = true ∧ ((∃ r, Tok1 k l ts r) ∨ (hd ts).kind = .eof)) ∨
    (b = false ∧ NotNext1 k l ts ∧ (hd ts).kind ≠ .eof))

/-- Go on at the token, stop otherwise. -/
def BNotPeek (k : TokenKind) (l : Bytes) (ts : Toks) (b : Bool) (rest : Toks) : Prop := BPeek k l ts (!b) rest

theorem bskip_iff {k l ts b rest} (hk : k ≠ .eof := by decide) :
    skip1 k l ts = .ok b rest ↔ BSkip k l ts b rest := skip1_ok hk
theorem bsep_iff {k l ts b rest} (hk : k ≠ .eof := by decide) :
    notP (skip1 k l) ts = .ok b rest ↔ BSep k l ts b rest := by rw [notP_ok]; exact skip1_ok hk
theorem bpeek_iff {k l ts b rest} (hk : k ≠ .eof := by decide) :
    peek1 k l ts = .ok b rest ↔ BPeek k l ts b rest := peek1_ok hk
theorem bnotPeek_iff {k l ts b rest} (hk : k ≠ .eof := by decide) :
    notP (peek1 k l) ts = .ok b rest ↔ BNotPeek k l ts b rest := by rw [notP_ok]; exact peek1_ok hk
theorem bpeekEof_iff {k l ts b rest} (hk : k ≠ .eof := by decide) :
    orP (peek1 k l) (peek0 .eof) ts = .ok b rest ↔ BPeekEof k l ts b rest := by
  rw [orP_ok]
  simp only [peek1_ok hk, peek0_ok, BPeekEof]
  constructor
  · rintro (⟨rfl, rfl, ⟨-, h⟩ | ⟨h, -⟩⟩ | ⟨r, ⟨rfl, ⟨h, -⟩ | ⟨-, h⟩⟩, rfl, h2⟩)
    · exact ⟨rfl, .inl ⟨rfl, .inl h⟩⟩
    · cases h
    · cases h
    · refine ⟨rfl, ?_⟩
      cases b with
      | true => exact .inl ⟨rfl, .inr (by simpa using h2.symm)⟩
      | false => exact .inr ⟨rfl, h, by simpa using h2.symm⟩
  · rintro ⟨rfl, ⟨rfl, h | h⟩ | ⟨rfl, h, h2⟩⟩
    · exact .inl ⟨rfl, rfl, .inl ⟨trivial, h⟩⟩
    · right
      refine ⟨rest, ⟨rfl, .inr ⟨trivial, ?_⟩⟩, rfl, by simp [h]⟩
      rw [notNext1_iff hk]; rintro ⟨h1, -⟩; exact hk (h1.symm.trans h)
    · exact .inr ⟨rest, ⟨rfl, .inr ⟨trivial, h⟩⟩, rfl, by simpa using h2⟩

theorem bskip_noGrow {k l} : NoGrow (BSkip k l) := by
  rintro ts b rest (⟨-, h⟩ | ⟨-, -, rfl⟩)
  · have := tok1_length h; omega
  · exact Nat.le_refl _
theorem bsep_noGrow {k l} : NoGrow (BSep k l) := fun ts b rest h => bskip_noGrow ts (!b) rest h
theorem bpeek_noGrow {k l} : NoGrow (BPeek k l) := by rintro ts b rest ⟨rfl, -⟩; exact Nat.le_refl _
theorem bnotPeek_noGrow {k l} : NoGrow (BNotPeek k l) := by rintro ts b rest ⟨rfl, -⟩; exact Nat.le_refl _
theorem bpeekEof_noGrow {k l} : NoGrow (BPeekEof k l) := by rintro ts b rest ⟨rfl, -⟩; exact Nat.le_refl _

section
variable {α : Type} {R : Toks → α → Toks → Prop} {k : TokenKind} {l : Bytes} {ts rest : Toks} {as : List α}

theorem many_noGrow (h : NoGrow R) : NoGrow (Many R) := by
  intro ts as rest hm
  induction hm with
  | nil => exact Nat.le_refl _
  | cons h1 _ ih => exact Nat.le_trans ih (h _ _ _ h1)

theorem many_shrink (h : Shrink R) (hm : Many R ts as rest) (hne : as ≠ []) : rest.length < ts.length := by
  cases hm with
  | nil => exact absurd rfl hne
  | cons h1 h2 => exact Nat.lt_of_le_of_lt (many_noGrow h.noGrow _ _ _ h2) (h _ _ _ h1)

theorem sepBy_shrink (h : Shrink R) : Shrink (SepBy R l) := by
  intro ts as rest hm
  induction hm with
  | one h1 _ => exact h _ _ _ h1
  | cons h1 h2 _ ih =>
    have := h _ _ _ h1; have := tok1_length h2; omega

theorem uloop_skip_many (h : ULoop (BSkip k l) R ts as rest) : ∃ r, Many R ts as r ∧ Tok1 k l r rest := by
  induction h with
  | stop h =>
    rcases h with ⟨-, h⟩ | ⟨h, -⟩
    · exact ⟨_, .nil _, h⟩
    · cases h
  | next h1 h2 _ ih =>
    rcases h1 with ⟨h, -⟩ | ⟨-, h, rfl⟩
    · cases h
    · obtain ⟨r, h3, h4⟩ := ih; exact ⟨r, .cons h2 h3, h4⟩

theorem many_uloop_skip {r : Toks} (hs : ∀ ts a r, R ts a r → NotNext1 k l ts) (h : Many R ts as r)
    (h2 : Tok1 k l r rest) : ULoop (BSkip k l) R ts as rest := by
  induction h with
  | nil => exact .stop (.inl ⟨rfl, h2⟩)
  | cons h1 _ ih => exact .next (.inr ⟨rfl, hs _ _ _ h1, rfl⟩) h1 (ih h2)

theorem uloop_peek_many (h : ULoop (BNotPeek k l) R ts as rest) : Many R ts as rest ∧ NotNext1 k l rest := by
  induction h with
  | stop h =>
    obtain ⟨rfl, ⟨h, -⟩ | ⟨-, h⟩⟩ := h
    · cases h
    · exact ⟨.nil _, h⟩
  | next h1 h2 _ ih =>
    obtain ⟨rfl, -⟩ := h1
    exact ⟨.cons h2 ih.1, ih.2⟩

theorem many_uloop_peek (hs : ∀ ts a r, R ts a r → ∃ r', Tok1 k l ts r') (h : Many R ts as rest)
    (h2 : NotNext1 k l rest) : ULoop (BNotPeek k l) R ts as rest := by
  induction h with
  | nil => exact .stop ⟨rfl, .inr ⟨rfl, h2⟩⟩
  | cons h1 _ ih => exact .next ⟨rfl, .inl ⟨rfl, hs _ _ _ h1⟩⟩ h1 (ih h2)

theorem rloop_skip_many (h : RLoop R (BSkip k l) ts as rest) :
    ∃ r, Many R ts as r ∧ as ≠ [] ∧ Tok1 k l r rest := by
  induction h with
  | stop h1 h2 =>
    rcases h2 with ⟨-, h⟩ | ⟨h, -⟩
    · exact ⟨_, .cons h1 (.nil _), by simp, h⟩
    · cases h
  | next h1 h2 _ ih =>
    rcases h2 with ⟨h, -⟩ | ⟨-, h, rfl⟩
    · cases h
    · obtain ⟨r, h3, -, h4⟩ := ih; exact ⟨r, .cons h1 h3, by simp, h4⟩

theorem many_rloop_skip {r : Toks} (hs : ∀ ts a r, R ts a r → NotNext1 k l ts) (h : Many R ts as r)
    (hne : as ≠ []) (h2 : Tok1 k l r rest) : RLoop R (BSkip k l) ts as rest := by
  induction h with
  | nil => exact absurd rfl hne
  | @cons ts a r as rest' h1 h3 ih =>
    cases h3 with
    | nil => exact .stop h1 (.inl ⟨rfl, h2⟩)
    | cons h4 h5 => exact .next h1 (.inr ⟨rfl, hs _ _ _ h4, rfl⟩) (ih (by simp) h2)

theorem rloop_peek_many (h : RLoop R (BPeek k l) ts as rest) : Many R ts as rest ∧ as ≠ [] := by
  induction h with
  | stop h1 h2 => obtain ⟨rfl, -⟩ := h2; exact ⟨.cons h1 (.nil _), by simp⟩
  | next h1 h2 _ ih => obtain ⟨rfl, -⟩ := h2; exact ⟨.cons h1 ih.1, by simp⟩

theorem many_rloop_peek {r' : Toks} (hs : ∀ ts a r, R ts a r → NotNext1 k l ts) (h : Many R ts as rest)
    (hne : as ≠ []) (h2 : Tok1 k l rest r') : RLoop R (BPeek k l) ts as rest := by
  induction h with
  | nil => exact absurd rfl hne
  | @cons ts a r as rest' h1 h3 ih =>
    cases h3 with
    | nil => exact .stop h1 ⟨rfl, .inl ⟨rfl, _, h2⟩⟩
    | cons h4 h5 => exact .next h1 ⟨rfl, .inr ⟨rfl, hs _ _ _ h4⟩⟩ (ih (by simp) h2)

theorem rloop_peekEof_many (h : RLoop R (BPeekEof k l) ts as rest) : Many R ts as rest ∧ as ≠ [] := by
  induction h with
  | stop h1 h2 => obtain ⟨rfl, -⟩ := h2; exact ⟨.cons h1 (.nil _), by simp⟩
  | next h1 h2 _ ih => obtain ⟨rfl, -⟩ := h2; exact ⟨.cons h1 ih.1, by simp⟩

theorem many_rloop_peekEof {r' : Toks} (hs : ∀ ts a r, R ts a r → NotNext1 k l ts ∧ (hd ts).kind ≠ .eof)
    (h : Many R ts as rest) (hne : as ≠ []) (h2 : Tok1 k l rest r') : RLoop R (BPeekEof k l) ts as rest := by
  induction h with
  | nil => exact absurd rfl hne
  | @cons ts a r as rest' h1 h3 ih =>
    cases h3 with
    | nil => exact .stop h1 ⟨rfl, .inl ⟨rfl, .inl ⟨_, h2⟩⟩⟩
    | cons h4 h5 => exact .next h1 ⟨rfl, .inr ⟨rfl, hs _ _ _ h4⟩⟩ (ih (by simp) h2)

theorem rloop_sep (h : RLoop R (BSep .punctuator l) ts as rest) : SepBy R l ts as rest := by
  induction h with
  | stop h1 h2 =>
    rcases h2 with ⟨h, -⟩ | ⟨-, h, rfl⟩
    · cases h
    · exact .one h1 h
  | next h1 h2 _ ih =>
    rcases h2 with ⟨-, h⟩ | ⟨h, -⟩
    · exact .cons h1 h ih
    · cases h

theorem sep_rloop (h : SepBy R l ts as rest) : RLoop R (BSep .punctuator l) ts as rest := by
  induction h with
  | one h1 h2 => exact .stop h1 (.inr ⟨rfl, h2, rfl⟩)
  | cons h1 h2 _ ih => exact .next h1 (.inl ⟨rfl, h2⟩) ih

end

end GQL
