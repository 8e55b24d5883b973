/-
The parser never runs out of fuel or tokens, its errors name tokens of the input, and it panics only at a `fragment` that
is not followed by a name.
-/
import Verif.Proofs.ParseComplete

namespace GQL
open Spec

/-- There is an EOF or an Illegal token. -/
def HasEnd (ts : Toks) : Prop := ∃ t ∈ ts, t.kind = .eof ∨ t.kind = .illegal

theorem HasEnd.of_eats {ts r : Toks} (h : HasEnd ts) (he : Eats ts r) : HasEnd r := by
  obtain ⟨t, ht, hk⟩ := h
  obtain ⟨pre, rfl, hp⟩ := he
  rcases List.mem_append.1 ht with h1 | h1
  · have := hp t h1
    rcases hk with hk | hk
    · exact absurd hk this.1
    · exact absurd hk this.2
  · exact ⟨t, h1, hk⟩

theorem HasEnd.hd_mem {ts : Toks} (h : HasEnd ts) : hd ts ∈ ts := by
  obtain ⟨t, ht, -⟩ := h
  cases ts with
  | nil => cases ht
  | cons a as => simp [hd]

/-- What an error talks about is in the input. -/
def ErrOK (ts : Toks) : PErr → Prop
  | .unexpected t _ => t ∈ ts
  | .atoi l => ∃ t ∈ ts, t.kind = .intValue ∧ t.lit = l
  | .parseFloat l => ∃ t ∈ ts, t.kind = .floatValue ∧ t.lit = l
  | .todo => True

theorem ErrOK.mono {ts r : Toks} {e : PErr} (h : ErrOK r e) (he : Eats ts r) : ErrOK ts e := by
  cases e with
  | unexpected t w => exact he.mem h
  | atoi l => obtain ⟨t, h1, h2⟩ := h; exact ⟨t, he.mem h1, h2⟩
  | parseFloat l => obtain ⟨t, h1, h2⟩ := h; exact ⟨t, he.mem h1, h2⟩
  | todo => trivial

/-- The run from `ts` ends well or with an error, without touching EOF or Illegal tokens. -/
def SafeAt {α : Type} (p : P α) (ts : Toks) : Prop :=
  match p ts with
  | .ok _ r => Eats ts r
  | .err e r => Eats ts r ∧ ErrOK ts e
  | .panic => False
  | .oof => False

/-- Safe from every state of fewer than `n` tokens. -/
def Safe {α : Type} (n : Nat) (p : P α) : Prop := ∀ ts, HasEnd ts → ts.length < n → SafeAt p ts

theorem Safe.mono {α : Type} {n m : Nat} {p : P α} (h : Safe n p) (hm : m ≤ n) : Safe m p :=
  fun ts ht hl => h ts ht (by omega)

theorem safeAt_ok {α : Type} {p : P α} {ts r : Toks} {a : α} (h : p ts = .ok a r) (he : Eats ts r) : SafeAt p ts := by
  unfold SafeAt; rw [h]; exact he

theorem safeAt_err {α : Type} {p : P α} {ts r : Toks} {e : PErr} (h : p ts = .err e r) (he : Eats ts r)
    (h2 : ErrOK ts e) : SafeAt p ts := by
  unfold SafeAt; rw [h]; exact ⟨he, h2⟩

theorem safeAt_bind {α β : Type} {p : P α} {f : α → P β} {ts : Toks} (h : SafeAt p ts)
    (hf : ∀ a r, p ts = .ok a r → Eats ts r → SafeAt (f a) r) : SafeAt (p >>= f) ts := by
  unfold SafeAt at h
  cases e : p ts with
  | ok a r =>
    rw [e] at h
    have h2 := hf a r e h
    unfold SafeAt at h2 ⊢
    rw [bind_eq e]
    cases e2 : f a r with
    | ok b r2 => rw [e2] at h2; exact h.trans h2
    | err er r2 => rw [e2] at h2; exact ⟨h.trans h2.1, h2.2.mono h⟩
    | panic => rw [e2] at h2; exact h2
    | oof => rw [e2] at h2; exact h2
  | err er r => rw [e] at h; exact safeAt_err (bind_err_eq e) h.1 h.2
  | panic => rw [e] at h; exact h.elim
  | oof => rw [e] at h; exact h.elim

/-- The same with errors about tokens of `ts0`. -/
def SafeFrom {α : Type} (ts0 : Toks) (p : P α) (ts : Toks) : Prop :=
  match p ts with
  | .ok _ r => Eats ts r
  | .err e r => Eats ts r ∧ ErrOK ts0 e
  | .panic => False
  | .oof => False

theorem SafeAt.from {α : Type} {p : P α} {ts0 ts : Toks} (h : SafeAt p ts) (he : Eats ts0 ts) : SafeFrom ts0 p ts := by
  unfold SafeAt at h; unfold SafeFrom
  cases e : p ts with
  | ok a r => rw [e] at h; exact h
  | err er r => rw [e] at h; exact ⟨h.1, h.2.mono he⟩
  | panic => rw [e] at h; exact h
  | oof => rw [e] at h; exact h

theorem safeFrom_err {α : Type} {p : P α} {ts0 ts : Toks} {e : PErr} (h : p ts = .err e ts)
    (h2 : ErrOK ts0 e) : SafeFrom ts0 p ts := by
  unfold SafeFrom; rw [h]; exact ⟨.refl _, h2⟩

theorem safeFrom_ok {α : Type} {p : P α} {ts0 ts : Toks} {a : α} (h : p ts = .ok a ts) : SafeFrom ts0 p ts := by
  unfold SafeFrom; rw [h]; exact .refl _

theorem safeAt_bind' {α β : Type} {p : P α} {f : α → P β} {ts : Toks} (h : SafeAt p ts)
    (hf : ∀ a r, p ts = .ok a r → Eats ts r → SafeFrom ts (f a) r) : SafeAt (p >>= f) ts := by
  unfold SafeAt at h
  cases e : p ts with
  | ok a r =>
    rw [e] at h
    have h2 := hf a r e h
    unfold SafeFrom at h2; unfold SafeAt
    rw [bind_eq e]
    cases e2 : f a r with
    | ok b r2 => rw [e2] at h2; exact h.trans h2
    | err er r2 => rw [e2] at h2; exact ⟨h.trans h2.1, h2.2⟩
    | panic => rw [e2] at h2; exact h2
    | oof => rw [e2] at h2; exact h2
  | err er r => rw [e] at h; exact safeAt_err (bind_err_eq e) h.1 h.2
  | panic => rw [e] at h; exact h.elim
  | oof => rw [e] at h; exact h.elim

theorem safe_bind {α β : Type} {n : Nat} {p : P α} {f : α → P β} (h : Safe n p) (hf : ∀ a, Safe n (f a)) :
    Safe n (p >>= f) := fun ts ht hl =>
  safeAt_bind (h ts ht hl) (fun a r _ he => hf a r (ht.of_eats he) (Nat.lt_of_le_of_lt he.length hl))

theorem safe_pure {α : Type} {n : Nat} (a : α) : Safe n (pure a : P α) := fun ts _ _ => safeAt_ok rfl (.refl ts)

theorem safe_unexpectedCur {α : Type} {n : Nat} (w : List Bytes) : Safe n (unexpectedCur w : P α) := fun ts ht _ =>
  safeAt_err (r := ts) rfl (.refl ts) ht.hd_mem

theorem safe_cur {n : Nat} : Safe n cur := fun ts _ _ => safeAt_ok rfl (.refl ts)

theorem safe_fail_todo {α : Type} {n : Nat} : Safe n (fail .todo : P α) := fun ts _ _ =>
  safeAt_err (r := ts) rfl (.refl ts) trivial

theorem safe_ite {α : Type} {n : Nat} {c : Prop} [Decidable c] {p q : P α} (h1 : Safe n p) (h2 : Safe n q) :
    Safe n (if c then p else q) := by split <;> assumption

theorem hd_eats {ts : Toks} (h : HasEnd ts) (h1 : (hd ts).kind ≠ .eof) (h2 : (hd ts).kind ≠ .illegal) : Eats1 ts ts.tail := by
  cases ts with
  | nil => obtain ⟨t, ht, -⟩ := h; cases ht
  | cons t ts => exact eats_cons h1 h2

theorem safe_skip1 {n : Nat} {k : TokenKind} {l : Bytes} (hk : k ≠ .eof := by decide) (hk2 : k ≠ .illegal := by decide) :
    Safe n (skip1 k l) := by
  intro ts ht hl
  by_cases h : (hd ts).kind = k ∧ (hd ts).lit = l
  · have : Tok1 k l ts ts.tail := (tok1_iff hk).2 ⟨h.1, h.2, rfl⟩
    exact safeAt_ok (skip1_true this hk) (tok1_eats this hk hk2).1
  · exact safeAt_ok (skip1_false ((notNext1_iff hk).2 h) hk) (.refl _)

theorem safe_peek1 {n : Nat} {k : TokenKind} {l : Bytes} : Safe n (peek1 k l) :=
  safe_bind safe_cur (fun _ => safe_pure _)

theorem safe_peek0 {n : Nat} {k : TokenKind} : Safe n (peek0 k) := safe_bind safe_cur (fun _ => safe_pure _)

theorem safe_notP {n : Nat} {p : P Bool} (h : Safe n p) : Safe n (notP p) := safe_bind h (fun _ => safe_pure _)

theorem safe_orP {n : Nat} {p q : P Bool} (h : Safe n p) (h2 : Safe n q) : Safe n (orP p q) :=
  safe_bind h (fun b => safe_ite (safe_pure _) h2)

theorem safe_peekn {n : Nat} {k : TokenKind} {ls : List Bytes} : Safe n (peekn k ls) := by
  refine safe_bind safe_cur (fun t => safe_ite (safe_pure _) (safe_ite (safe_pure _) (safe_pure _)))

theorem safe_consume0 {n : Nat} {k : TokenKind} (hk : k ≠ .eof := by decide) (hk2 : k ≠ .illegal := by decide) :
    Safe n (consume0 k) := by
  intro ts ht hl
  cases ts with
  | nil => obtain ⟨t, ht, -⟩ := ht; cases ht
  | cons t ts =>
    by_cases h : t.kind = k
    · exact safeAt_ok (consume0_some h hk) (eats_cons (h ▸ hk) (h ▸ hk2)).1
    · exact safeAt_ok (consume0_none ((notKind_iff hk).2 h) hk) (.refl _)

theorem safe_mustConsume0 {n : Nat} {k : TokenKind} (hk : k ≠ .eof := by decide) (hk2 : k ≠ .illegal := by decide) :
    Safe n (mustConsume0 k) := by
  intro ts ht hl
  cases ts with
  | nil => obtain ⟨t, ht, -⟩ := ht; cases ht
  | cons t ts =>
    by_cases h : t.kind = k
    · exact safeAt_ok (mustConsume0_eq h hk) (eats_cons (h ▸ hk) (h ▸ hk2)).1
    · have : mustConsume0 k (t :: ts) = .err (.unexpected t [expected k []]) (t :: ts) := by
        rw [mustConsume0, bind_eq (cur_eq _), if_pos (show (hd (t :: ts)).kind ≠ k from h)]; rfl
      exact safeAt_err this (.refl _) (show t ∈ t :: ts by simp)

theorem safe_mustConsume1 {n : Nat} {k : TokenKind} {l : Bytes} (hk : k ≠ .eof := by decide) (hk2 : k ≠ .illegal := by decide) :
    Safe n (mustConsume1 k l) := by
  intro ts ht hl
  cases ts with
  | nil => obtain ⟨t, ht, -⟩ := ht; cases ht
  | cons t ts =>
    by_cases h : t.kind = k ∧ t.lit = l
    · exact safeAt_ok (mustConsume1_eq h.1 h.2 hk) (eats_cons (h.1 ▸ hk) (h.1 ▸ hk2)).1
    · have : mustConsume1 k l (t :: ts) = .err (.unexpected t [expected k [l]]) (t :: ts) := by
        rw [mustConsume1, bind_eq (cur_eq _), if_pos (by
          rw [hd_cons]; simpa [Classical.or_iff_not_imp_left] using h)]; rfl
      exact safeAt_err this (.refl _) (show t ∈ t :: ts by simp)

theorem safe_consumen {n : Nat} {k : TokenKind} {ls : List Bytes} (hl : ls ≠ []) (hk : k ≠ .eof := by decide)
    (hk2 : k ≠ .illegal := by decide) : Safe n (consumen k ls) := by
  intro ts ht _
  cases ts with
  | nil => obtain ⟨t, ht, -⟩ := ht; cases ht
  | cons t ts =>
    by_cases h : t.kind = k ∧ t.lit ∈ ls
    · exact safeAt_ok ((consumen_ok hk hl).2 (.inl ⟨t, rfl, rfl, h⟩)) (eats_cons (h.1 ▸ hk) (h.1 ▸ hk2)).1
    · refine safeAt_ok (consumen_none (fun l hm => (notNext1_iff hk).2 ?_) hl hk) (.refl _)
      rintro ⟨h1, h2⟩
      exact h ⟨h1, by rw [hd_cons] at h2; exact h2 ▸ hm⟩

theorem safe_mustConsumen {n : Nat} {k : TokenKind} {ls : List Bytes} (hl : ls ≠ []) (hk : k ≠ .eof := by decide)
    (hk2 : k ≠ .illegal := by decide) : Safe n (mustConsumen k ls) := by
  intro ts ht hn
  have hm := ht.hd_mem
  refine safeAt_bind (safe_cur (n := n) ts ht hn) ?_
  rintro a r h -
  obtain ⟨rfl, rfl⟩ := cur_ok.1 h
  refine safeAt_bind (safe_consumen hl hk hk2 r ht hn) ?_
  rintro o r' h2 -
  rcases (consumen_ok hk hl).1 h2 with ⟨t, rfl, rfl, h3⟩ | ⟨rfl, h3, rfl⟩
  · exact safeAt_ok rfl (.refl _)
  · exact safeAt_err (r := r') rfl (.refl _) hm

/-- Each run of `p` consumes something. -/
def Progress {α : Type} (p : P α) : Prop := ∀ ts a r, p ts = .ok a r → r.length < ts.length

theorem Sound.progress {α : Type} {p : P α} {R : Toks → α → Toks → Prop} (h : Sound p R)
    (he : ∀ ts a r, R ts a r → Eats1 ts r) : Progress p := fun ts a r hp => (he _ _ _ (h _ _ _ hp)).2

theorem safe_doWhile {α : Type} {n : Nat} {body : P α} {brk : P Bool} (h1 : Safe n body) (h2 : Safe n brk)
    (hp : Progress body) : Safe n (doWhile body brk) := by
  intro ts ht hl
  have key : ∀ m ts, HasEnd ts → ts.length < n → ts.length < m → SafeAt (doWhileF body brk m) ts := by
    intro m
    induction m with
    | zero => intro ts _ _ h; omega
    | succ m ih =>
      intro ts ht hl hm
      rw [doWhileF]
      refine safeAt_bind (h1 ts ht hl) (fun a r e he => ?_)
      have := hp _ _ _ e
      refine safeAt_bind (h2 r (ht.of_eats he) (by omega)) (fun b r' e' he' => ?_)
      have := he'.length
      cases b with
      | true => exact safeAt_ok rfl (.refl _)
      | false =>
        simp only [Bool.false_eq_true, if_false]
        exact safeAt_bind (ih r' ((ht.of_eats he).of_eats he') (by omega) (by omega)) (fun _ _ _ _ => safeAt_ok rfl (.refl _))
  exact key _ ts ht hl (by omega)

theorem safe_untilDo {α : Type} {n : Nat} {body : P α} {brk : P Bool} (h1 : Safe n body) (h2 : Safe n brk)
    (hp : Progress body) : Safe n (untilDo brk body) := by
  intro ts ht hl
  have key : ∀ m ts, HasEnd ts → ts.length < n → ts.length < m → SafeAt (untilDoF brk body m) ts := by
    intro m
    induction m with
    | zero => intro ts _ _ h; omega
    | succ m ih =>
      intro ts ht hl hm
      rw [untilDoF]
      refine safeAt_bind (h2 ts ht hl) (fun b r e he => ?_)
      have := he.length
      cases b with
      | true => exact safeAt_ok rfl (.refl _)
      | false =>
        simp only [Bool.false_eq_true, if_false]
        refine safeAt_bind (h1 r (ht.of_eats he) (by omega)) (fun a r' e' he' => ?_)
        have := hp _ _ _ e'
        exact safeAt_bind (ih r' ((ht.of_eats he).of_eats he') (by omega) (by omega)) (fun _ _ _ _ => safeAt_ok rfl (.refl _))
  exact key _ ts ht hl (by omega)

/-- After a token has been consumed one less may remain. -/
theorem safe_skip1_bind {β : Type} {n : Nat} {k : TokenKind} {l : Bytes} {f : Bool → P β} (h1 : Safe n (f true))
    (h2 : Safe (n + 1) (f false)) (hk : k ≠ .eof := by decide) (hk2 : k ≠ .illegal := by decide) :
    Safe (n + 1) (skip1 k l >>= f) := by
  intro ts ht hl
  refine safeAt_bind (safe_skip1 hk hk2 ts ht hl) (fun b r e he => ?_)
  rcases (skip1_ok hk).1 e with ⟨rfl, h⟩ | ⟨rfl, h, rfl⟩
  · exact h1 r (ht.of_eats he) (by have := tok1_length h; omega)
  · exact h2 r ht hl

section
variable {pf : Bytes → Option Nat}

theorem progress_fld (n : Nat) : Progress (do
        let t ← mustConsume0 .name
        let _ ← mustConsume1 .punctuator b!":"
        let v ← parseValue pf n
        return (t.lit, v)) :=
  (field_sound (parseValue_sound n true)).progress (fun _ _ _ h => by
    obtain ⟨r1, r2, h1, h2, h3⟩ := h
    exact (tok1_eats h1).trans ((tok1_eats h2).1.trans (val_eats h3).1))

theorem parseValue_progress (n : Nat) : Progress (parseValue pf n) :=
  (parseValue_sound n true).progress (fun _ _ _ h => val_eats h)

theorem safe_consume0_bind {β : Type} {n : Nat} {k : TokenKind} {f : Option Token → P β}
    (h1 : ∀ t r, t.kind = k → SafeFrom (t :: r) (f (some t)) r)
    (h2 : Safe n (f none)) (hk : k ≠ .eof := by decide) (hk2 : k ≠ .illegal := by decide) :
    Safe n (consume0 k >>= f) := by
  intro ts ht hl
  refine safeAt_bind' (safe_consume0 hk hk2 ts ht hl) (fun o r e he => ?_)
  rcases (consume0_ok hk).1 e with ⟨t, rfl, rfl, hk⟩ | ⟨rfl, hn, rfl⟩
  · exact h1 t r hk
  · exact (h2 r ht hl).from (.refl _)

theorem parseValue_safe (n : Nat) : Safe n (parseValue pf n) := by
  induction n with
  | zero => intro ts _ h; omega
  | succ n ih =>
    rw [parseValue]
    refine safe_skip1_bind (safe_bind safe_mustConsume0 (fun _ => safe_pure _)) ?_
    rw [if_neg (by decide)]
    refine safe_consume0_bind (fun t r hk => ?_) ?_
    · simp only
      cases e : atoi t.lit with
      | some i => exact safeFrom_ok rfl
      | none => exact safeFrom_err rfl ⟨t, by simp, hk, rfl⟩
    simp only
    refine safe_consume0_bind (fun t r hk => ?_) ?_
    · simp only
      cases e : pf t.lit with
      | some i => exact safeFrom_ok rfl
      | none => exact safeFrom_err rfl ⟨t, by simp, hk, rfl⟩
    simp only
    refine safe_consume0_bind (fun t r hk => safeFrom_ok rfl) ?_
    simp only
    refine safe_bind (safe_consumen (by simp)) (fun o => ?_)
    cases o with
    | some t => exact safe_pure _
    | none =>
      simp only
      refine safe_bind safe_skip1 (fun b => safe_ite (safe_pure _) ?_)
      refine safe_consume0_bind (fun t r hk => safeFrom_ok rfl) ?_
      simp only
      refine safe_skip1_bind (safe_bind (safe_untilDo ih safe_skip1 (parseValue_progress n)) (fun _ => safe_pure _)) ?_
      rw [if_neg (by decide)]
      refine safe_skip1_bind (safe_bind (safe_untilDo ?_ safe_skip1 (progress_fld n)) (fun _ => safe_pure _)) ?_
      · exact safe_bind safe_mustConsume0 (fun _ => safe_bind safe_mustConsume1 (fun _ => safe_bind ih (fun _ => safe_pure _)))
      · rw [if_neg (by decide)]; exact safe_fail_todo

theorem parseDefaultValue_safe (n : Nat) : Safe n (parseDefaultValue pf n) :=
  safe_bind safe_skip1 (fun _ => safe_ite (safe_bind (parseValue_safe n) (fun _ => safe_pure _)) (safe_pure _))

theorem parseArguments_safe (n : Nat) : Safe n (parseArguments pf n) := by
  refine safe_bind safe_skip1 (fun _ => safe_ite (safe_untilDo ?_ safe_skip1 ?_) (safe_pure _))
  · exact safe_bind safe_mustConsume0 (fun _ => safe_bind safe_mustConsume1 (fun _ =>
      safe_bind (parseValue_safe n) (fun _ => safe_pure _)))
  · intro ts a r h
    rw [bind_ok] at h
    obtain ⟨t, r1, h1, h⟩ := h
    rw [mustConsume1_bind (by decide)] at h
    obtain ⟨r2, h2, h⟩ := h
    rw [bind_ok] at h
    obtain ⟨v, r3, h3, h⟩ := h
    obtain ⟨rfl, rfl⟩ := pure_ok.1 h
    obtain ⟨rfl, hk⟩ := (mustConsume0_ok (by decide)).1 h1
    have := tok1_length h2; have := parseValue_progress n _ _ _ h3
    simp only [List.length_cons]; omega

theorem parseDirectives_safe (n : Nat) (loc : DirLoc) : Safe n (parseDirectives pf n loc) := by
  refine safe_untilDo ?_ (safe_notP safe_peek1) ?_
  · exact safe_bind safe_mustConsume1 (fun _ => safe_bind safe_mustConsume0 (fun _ =>
      safe_bind (parseArguments_safe n) (fun _ => safe_pure _)))
  · intro ts a r h
    rw [mustConsume1_bind (by decide)] at h
    obtain ⟨r2, h2, h⟩ := h
    rw [bind_ok] at h
    obtain ⟨t, r1, h1, h⟩ := h
    rw [bind_ok] at h
    obtain ⟨v, r3, h3, h⟩ := h
    obtain ⟨rfl, rfl⟩ := pure_ok.1 h
    obtain ⟨rfl, hk⟩ := (mustConsume0_ok (by decide)).1 h1
    have := tok1_length h2; have := (args_eats (parseArguments_sound n true _ _ _ h3)).length
    simp only [List.length_cons] at *; omega

theorem parseType_safe (n : Nat) : Safe n (parseType n) := by
  induction n with
  | zero => intro ts _ h; omega
  | succ n ih =>
    rw [parseType]
    refine safe_skip1_bind ?_ ?_
    · intro ts ht hl
      show SafeAt (fun ts => match parseType n ts with | .err _ r => _ | .panic => _ | .oof => _ | .ok t r => _) ts
      have := ih ts ht hl
      unfold SafeAt at this
      cases e : parseType n ts with
      | ok t r =>
        rw [e] at this
        have h2 : SafeAt (do
            let _ ← mustConsume1 .punctuator b!"]"
            return Ty.list t (← skip1 .punctuator b!"!")) r :=
          safe_bind safe_mustConsume1 (fun _ => safe_bind safe_skip1 (fun _ => safe_pure _)) (n := n) r (ht.of_eats this)
            (Nat.lt_of_le_of_lt this.length hl)
        unfold SafeAt at h2 ⊢
        simp only [e]
        cases e2 : (do
            let _ ← mustConsume1 .punctuator b!"]"
            return Ty.list t (← skip1 .punctuator b!"!") : P Ty) r with
        | ok b r2 => rw [e2] at h2; exact Eats.trans this h2
        | err er r2 => rw [e2] at h2; exact ⟨Eats.trans this h2.1, h2.2.mono this⟩
        | panic => rw [e2] at h2; exact h2
        | oof => rw [e2] at h2; exact h2
      | err er r => rw [e] at this; refine safeAt_ok (r := r) (a := .listNil false) ?_ this.1; simp only [e]
      | panic => rw [e] at this; exact this.elim
      | oof => rw [e] at this; exact this.elim
    · exact (safe_bind safe_mustConsume0 (fun t => safe_bind safe_skip1 (fun b => safe_pure (Ty.named t.lit b))) :
        Safe (n + 1) (mustConsume0 .name >>= fun t => skip1 .punctuator b!"!" >>= fun b => pure (Ty.named t.lit b)))

theorem parseType_progress (n : Nat) : Progress (parseType n) :=
  (parseType_sound n).progress (fun _ _ _ h => typeRef_eats h)

theorem mustBeNamed_safe {n : Nat} (t : Ty) : Safe n (mustBeNamed t) := by
  unfold mustBeNamed
  cases t with
  | named => exact safe_pure _
  | list => exact safe_unexpectedCur _
  | listNil => exact safe_unexpectedCur _

theorem parseTypeCondition_safe (n : Nat) : Safe n (parseTypeCondition n) :=
  safe_bind safe_mustConsume1 (fun _ => safe_bind (parseType_safe n) (fun t => safe_bind (mustBeNamed_safe t) (fun _ => safe_pure _)))

theorem parseVariableDefinitions_safe (n : Nat) : Safe n (parseVariableDefinitions pf n) := by
  refine safe_bind safe_skip1 (fun _ => safe_ite (safe_bind (safe_doWhile ?_ safe_peek1 ?_) (fun _ =>
    safe_bind safe_mustConsume1 (fun _ => safe_pure _))) (safe_pure _))
  · exact safe_bind safe_mustConsume1 (fun _ => safe_bind safe_mustConsume0 (fun _ => safe_bind safe_mustConsume1 (fun _ =>
      safe_bind (parseType_safe n) (fun _ => safe_bind (parseDefaultValue_safe n) (fun _ => safe_pure _)))))
  · intro ts a r h
    rw [mustConsume1_bind (by decide)] at h
    obtain ⟨r1, h1, h⟩ := h
    rw [bind_ok] at h
    obtain ⟨t, r2, h2, h⟩ := h
    rw [mustConsume1_bind (by decide)] at h
    obtain ⟨r3, h3, h⟩ := h
    rw [bind_ok] at h
    obtain ⟨ty, r4, h4, h⟩ := h
    rw [bind_ok] at h
    obtain ⟨dv, r5, h5, h⟩ := h
    obtain ⟨rfl, rfl⟩ := pure_ok.1 h
    obtain ⟨rfl, hk⟩ := (mustConsume0_ok (by decide)).1 h2
    have := tok1_length h1; have := tok1_length h3
    have := parseType_progress n _ _ _ h4; have := (default_eats (parseDefaultValue_sound n _ _ _ h5)).length
    simp only [List.length_cons] at *; omega

theorem parseSelectionSet_safe (n : Nat) (o : Bool) : Safe n (parseSelectionSet pf n o) := by
  induction n generalizing o with
  | zero => intro ts _ h; omega
  | succ n ih =>
    rw [parseSelectionSet]
    refine safe_skip1_bind (safe_bind (safe_doWhile ?_ (safe_orP safe_peek1 safe_peek0) ?_)
      (fun _ => safe_bind safe_mustConsume1 (fun _ => safe_pure _))) ?_
    · refine safe_bind safe_skip1 (fun _ => safe_ite (safe_bind safe_cur (fun _ => safe_ite ?_ ?_)) ?_)
      · exact safe_bind safe_mustConsume0 (fun _ => safe_bind (parseDirectives_safe n _) (fun _ => safe_pure _))
      · exact safe_bind (safe_bind safe_peek1 (fun _ => safe_ite (safe_bind (parseTypeCondition_safe n) (fun _ => safe_pure _))
          (safe_pure _))) (fun _ => safe_bind (parseDirectives_safe n _) (fun _ => safe_bind (ih false) (fun _ => safe_pure _)))
      · exact safe_bind safe_mustConsume0 (fun _ => safe_bind (safe_bind safe_skip1 (fun _ => safe_ite
          (safe_bind safe_mustConsume0 (fun _ => safe_pure _)) (safe_pure _))) (fun _ =>
          safe_bind (parseArguments_safe n) (fun _ => safe_bind (parseDirectives_safe n _) (fun _ =>
          safe_bind (ih true) (fun _ => safe_pure _)))))
    · exact (parseSelection_sound n).progress (fun _ _ _ h => sel_eats h)
    · rw [if_neg (by decide)]
      exact safe_ite (safe_pure _) (safe_unexpectedCur _)

theorem parseOperationType_safe {n : Nat} : Safe n parseOperationType :=
  safe_bind (safe_mustConsumen (by simp)) (fun _ => safe_pure _)

theorem parseOperationDefinition_safe (n : Nat) (b : Bool) : Safe n (parseOperationDefinition pf n b) :=
  safe_ite (safe_bind (parseSelectionSet_safe n _) (fun _ => safe_pure _))
    (safe_bind parseOperationType_safe (fun _ => safe_bind safe_consume0 (fun _ =>
      safe_bind (parseVariableDefinitions_safe n) (fun _ => safe_bind (parseDirectives_safe n _) (fun _ =>
      safe_bind (parseSelectionSet_safe n _) (fun _ => safe_pure _))))))

/-- `fragment` without a name after it. -/
def Unnamed (ts : Toks) : Prop := ∃ r, Nm b!"fragment" ts r ∧ NotKind .name r

theorem parseFragmentDefinition_safe (n : Nat) {ts r : Toks} (ht : HasEnd ts) (hl : ts.length < n)
    (h : Nm b!"fragment" ts r) (hn : ¬ NotKind .name r) : SafeAt (parseFragmentDefinition pf n) ts := by
  rw [parseFragmentDefinition]
  refine safeAt_bind ((safe_skip1 : Safe n _) ts ht hl) (fun b r' e he => ?_)
  rw [skip1_true h] at e
  cases e
  have ht' := ht.of_eats he
  have hl' := Nat.lt_of_le_of_lt he.length hl
  rw [if_pos rfl]
  refine safeAt_bind ((safe_consume0 : Safe n _) r ht' hl') (fun o r2 e he2 => ?_)
  rcases (consume0_ok (by decide)).1 e with ⟨t, rfl, rfl, hk⟩ | ⟨rfl, h2, rfl⟩
  · simp only
    refine (safe_ite (safe_unexpectedCur _) (safe_bind (parseTypeCondition_safe n) (fun _ =>
      safe_bind (parseDirectives_safe n _) (fun _ => safe_bind (parseSelectionSet_safe n _) (fun _ => safe_pure _)))) : Safe n _)
      r2 (ht'.of_eats he2) (Nat.lt_of_le_of_lt he2.length hl')
  · exact absurd h2 hn

theorem parseFragmentDefinition_panic (n : Nat) {ts : Toks} (h : Unnamed ts) : parseFragmentDefinition pf n ts = .panic := by
  obtain ⟨r, h1, h2⟩ := h
  rw [parseFragmentDefinition, bind_eq (skip1_true h1), if_pos rfl, bind_eq (consume0_none h2)]
  rfl

theorem parseOperationTypeDefinitions_safe (n : Nat) : Safe n (parseOperationTypeDefinitions n) :=
  safe_bind safe_skip1 (fun _ => safe_ite (safe_bind (safe_doWhile
    (safe_bind parseOperationType_safe (fun _ => safe_bind safe_skip1 (fun _ => safe_ite
      (safe_bind (parseType_safe n) (fun t => safe_bind (mustBeNamed_safe t) (fun _ => safe_pure _)))
      (safe_unexpectedCur _))))
    (safe_orP safe_peek1 safe_peek0)
    ((parseOperationTypeDefinition_sound n).progress (fun _ _ _ h => opTypeDefn_eats h)))
    (fun _ => safe_bind safe_mustConsume1 (fun _ => safe_pure _))) (safe_unexpectedCur _))

theorem parseSchemaDefinition_safe (n : Nat) : Safe n (parseSchemaDefinition pf n) :=
  safe_bind safe_skip1 (fun _ => safe_ite (safe_bind (parseDirectives_safe n _) (fun _ =>
    safe_bind (parseOperationTypeDefinitions_safe n) (fun _ => safe_pure _))) (safe_unexpectedCur _))

theorem parseSchemaExtension_safe (n : Nat) : Safe n (parseSchemaExtension pf n) :=
  safe_bind safe_skip1 (fun _ => safe_ite (safe_bind (parseDirectives_safe n _) (fun _ =>
    safe_bind (safe_bind safe_peek1 (fun _ => safe_ite (parseOperationTypeDefinitions_safe n) (safe_pure _))) (fun _ =>
      safe_ite (safe_unexpectedCur _) (safe_pure _)))) (safe_unexpectedCur _))

theorem parseInputValueDefinition_safe (n : Nat) (loc : DirLoc) : Safe n (parseInputValueDefinition pf n loc) :=
  safe_bind safe_consume0 (fun _ => safe_bind safe_mustConsume0 (fun _ => safe_bind safe_skip1 (fun _ => safe_ite
    (safe_bind (parseType_safe n) (fun _ => safe_bind (parseDefaultValue_safe n) (fun _ =>
      safe_bind (parseDirectives_safe n _) (fun _ => safe_pure _)))) (safe_unexpectedCur _))))

theorem parseArgumentsDefinition_safe (n : Nat) : Safe n (parseArgumentsDefinition pf n) :=
  safe_bind safe_skip1 (fun _ => safe_ite (safe_bind (safe_doWhile (parseInputValueDefinition_safe n _)
    (safe_orP safe_peek1 safe_peek0) ((parseInputValueDefinition_sound n _).progress (fun _ _ _ h => inputValue_eats h)))
    (fun _ => safe_bind safe_mustConsume1 (fun _ => safe_pure _))) (safe_pure _))

theorem mustConsumen_progress {k : TokenKind} {ls : List Bytes} (hl : ls ≠ []) (hk : k ≠ .eof := by decide) :
    Progress (mustConsumen k ls) := by
  intro ts a r h
  obtain ⟨rfl, -⟩ := (mustConsumen_ok hk hl).1 h
  simp

theorem parseDirectiveLocations_safe {n : Nat} : Safe n parseDirectiveLocations :=
  safe_bind safe_skip1 (fun _ => safe_bind (safe_doWhile (safe_mustConsumen directiveLocations_ne) (safe_notP safe_skip1)
    (mustConsumen_progress directiveLocations_ne)) (fun _ => safe_pure _))

theorem parseDirectiveDefinition_safe (n : Nat) (desc : Bytes) {ts r : Toks} (ht : HasEnd ts) (hl : ts.length < n)
    (h : Nm b!"directive" ts r) : SafeAt (parseDirectiveDefinition pf n desc) ts := by
  rw [parseDirectiveDefinition]
  refine safeAt_bind ((safe_skip1 : Safe n _) ts ht hl) (fun b r' e he => ?_)
  rw [skip1_true h] at e
  cases e
  rw [if_pos rfl]
  exact (safe_bind safe_skip1 (fun _ => safe_ite (safe_bind safe_mustConsume0 (fun _ =>
    safe_bind (parseArgumentsDefinition_safe n) (fun _ => safe_bind safe_skip1 (fun _ => safe_ite
      (safe_bind parseDirectiveLocations_safe (fun _ => safe_pure _)) (safe_unexpectedCur _))))) (safe_unexpectedCur _)) : Safe n _)
    r (ht.of_eats he) (Nat.lt_of_le_of_lt he.length hl)

theorem parseImplementsInterfaces_safe (n : Nat) : Safe n (parseImplementsInterfaces n) :=
  safe_bind safe_skip1 (fun _ => safe_ite (safe_bind safe_skip1 (fun _ => safe_doWhile (parseType_safe n)
    (safe_notP safe_skip1) (parseType_progress n))) (safe_pure _))

theorem parseUnionMemberTypes_safe (n : Nat) : Safe n (parseUnionMemberTypes n) :=
  safe_bind safe_skip1 (fun _ => safe_ite (safe_bind safe_skip1 (fun _ => safe_doWhile (parseType_safe n)
    (safe_notP safe_skip1) (parseType_progress n))) (safe_pure _))

theorem parseFieldsDefinition_safe (n : Nat) : Safe n (parseFieldsDefinition pf n) :=
  safe_bind safe_skip1 (fun _ => safe_ite (safe_doWhile
    (safe_bind safe_consume0 (fun _ => safe_bind safe_mustConsume0 (fun _ => safe_bind (parseArgumentsDefinition_safe n) (fun _ =>
      safe_bind safe_skip1 (fun _ => safe_ite (safe_bind (parseType_safe n) (fun _ =>
        safe_bind (parseDirectives_safe n _) (fun _ => safe_pure _))) (safe_unexpectedCur _))))))
    safe_skip1 ((parseFieldDefinition_sound n).progress (fun _ _ _ h => fieldDefn_eats h))) (safe_pure _))

theorem parseEnumValuesDefinition_safe (n : Nat) : Safe n (parseEnumValuesDefinition pf n) := by
  refine safe_bind safe_skip1 (fun _ => safe_ite (safe_doWhile ?_
    safe_skip1 ((parseEnumValueDefinition_sound n).progress (fun _ _ _ h => enumValDefn_eats h))) (safe_pure _))
  refine safe_bind safe_consume0 (fun _ => ?_)
  intro ts ht hl
  refine safeAt_bind' ((safe_mustConsume0 : Safe n _) ts ht hl) (fun t r e he => ?_)
  obtain ⟨rfl, -⟩ := (mustConsume0_ok (by decide)).1 e
  by_cases hb : t.lit = b!"false" ∨ t.lit = b!"true" ∨ t.lit = b!"null"
  · rw [if_pos hb]; exact safeFrom_err rfl (show t ∈ t :: r by simp)
  · rw [if_neg hb]
    exact ((safe_bind (parseDirectives_safe n _) (fun _ => safe_pure _) : Safe n _) r (ht.of_eats he)
      (Nat.lt_of_le_of_lt he.length hl)).from he

theorem parseInputFieldsDefinition_safe (n : Nat) : Safe n (parseInputFieldsDefinition pf n) :=
  safe_bind safe_skip1 (fun _ => safe_ite (safe_doWhile (parseInputValueDefinition_safe n _)
    safe_skip1 ((parseInputValueDefinition_sound n _).progress (fun _ _ _ h => inputValue_eats h))) (safe_pure _))

theorem parseTypeBody_safe (n : Nat) (desc : Bytes) (k : TypeKind) : Safe n (parseTypeBody pf n desc k) := by
  refine safe_bind safe_mustConsume0 (fun t => ?_)
  cases k with
  | scalar => exact safe_bind (parseDirectives_safe n _) (fun _ => safe_pure _)
  | object => exact safe_bind (parseImplementsInterfaces_safe n) (fun _ => safe_bind (parseDirectives_safe n _) (fun _ =>
      safe_bind (parseFieldsDefinition_safe n) (fun _ => safe_pure _)))
  | interface => exact safe_bind (parseDirectives_safe n _) (fun _ =>
      safe_bind (parseFieldsDefinition_safe n) (fun _ => safe_pure _))
  | union => exact safe_bind (parseDirectives_safe n _) (fun _ =>
      safe_bind (parseUnionMemberTypes_safe n) (fun _ => safe_pure _))
  | enum => exact safe_bind (parseDirectives_safe n _) (fun _ =>
      safe_bind (parseEnumValuesDefinition_safe n) (fun _ => safe_pure _))
  | inputObject => exact safe_bind (parseDirectives_safe n _) (fun _ =>
      safe_bind (parseInputFieldsDefinition_safe n) (fun _ => safe_pure _))

theorem kindOf_of_mem {l : Bytes} (h : l ∈ typeKeywords) : ∃ k, kindOf l = some k := by
  simp only [typeKeywords, List.mem_map] at h
  obtain ⟨k, -, rfl⟩ := h
  exact ⟨k, kindOf_kw k⟩

theorem parseTypeDefinition_safe (n : Nat) (desc : Bytes) {ts r : Toks} {l : Bytes} (ht : HasEnd ts) (hl : ts.length < n)
    (h : Nm l ts r) (hm : l ∈ typeKeywords) : SafeAt (parseTypeDefinition pf n desc) ts := by
  rw [parseTypeDefinition]
  refine safeAt_bind ((safe_mustConsume0 : Safe n _) ts ht hl) (fun t r' e he => ?_)
  obtain ⟨t', e2, h2⟩ := mustConsume0_tok h
  rw [h2] at e; cases e
  obtain ⟨k, hk⟩ := kindOf_of_mem hm
  rw [e2, hk]
  exact parseTypeBody_safe n desc k _ (ht.of_eats he) (Nat.lt_of_le_of_lt he.length hl)

theorem parseTypeExtension_safe (n : Nat) {ts r : Toks} {l : Bytes} (ht : HasEnd ts) (hl : ts.length < n)
    (h : Nm l ts r) (hm : l ∈ typeKeywords) : SafeAt (parseTypeExtension pf n) ts := by
  rw [parseTypeExtension]
  refine safeAt_bind ((safe_mustConsume0 : Safe n _) ts ht hl) (fun t r' e he => ?_)
  obtain ⟨t', e2, h2⟩ := mustConsume0_tok h
  rw [h2] at e; cases e
  obtain ⟨k, hk⟩ := kindOf_of_mem hm
  rw [e2, hk]
  refine (safe_bind safe_mustConsume0 (fun _ => safe_bind (safe_ite (safe_bind safe_peek1 (fun _ =>
    safe_ite (parseImplementsInterfaces_safe n) (safe_pure _))) (safe_pure _)) (fun _ => ?_)) : Safe n _) r
      (ht.of_eats he) (Nat.lt_of_le_of_lt he.length hl)
  cases k with
  | scalar => exact safe_bind (parseDirectives_safe n _) (fun _ => safe_pure _)
  | object => exact safe_bind (parseDirectives_safe n _) (fun _ =>
      safe_bind (parseFieldsDefinition_safe n) (fun _ => safe_pure _))
  | interface => exact safe_bind (parseDirectives_safe n _) (fun _ =>
      safe_bind (parseFieldsDefinition_safe n) (fun _ => safe_pure _))
  | union => exact safe_bind (parseDirectives_safe n _) (fun _ =>
      safe_bind (parseUnionMemberTypes_safe n) (fun _ => safe_pure _))
  | enum => exact safe_bind (parseDirectives_safe n _) (fun _ =>
      safe_bind (parseEnumValuesDefinition_safe n) (fun _ => safe_pure _))
  | inputObject => exact safe_bind (parseDirectives_safe n _) (fun _ =>
      safe_bind (parseInputFieldsDefinition_safe n) (fun _ => safe_pure _))

/-- A successful `peekn`. -/
theorem peekn_tok {k : TokenKind} {ls : List Bytes} (hl : ls ≠ []) {ts r : Toks} {b : Bool} (h : peekn k ls ts = .ok b r)
    (hk : k ≠ .eof := by decide) : r = ts ∧ (b = true → ∃ l ∈ ls, Tok1 k l ts ts.tail) := by
  rw [peekn_eq hl] at h
  obtain ⟨hb, rfl⟩ := Res.ok.inj h
  refine ⟨rfl, fun e => ?_⟩
  rw [e] at hb
  simp only [Bool.and_eq_true, decide_eq_true_eq, List.contains_iff_mem] at hb
  exact ⟨_, hb.2, (tok1_iff hk).2 ⟨hb.1, rfl, rfl⟩⟩

theorem typeKeywords_ne : typeKeywords ≠ [] := by decide

theorem parseTypeSystemExtension_safe (n : Nat) : Safe n (parseTypeSystemExtension pf n) := by
  refine safe_bind safe_skip1 (fun _ => safe_ite (safe_bind safe_peek1 (fun _ => safe_ite
    (safe_bind (parseSchemaExtension_safe n) (fun _ => safe_pure _)) ?_)) (safe_unexpectedCur _))
  intro ts ht hl
  refine safeAt_bind (safe_peekn (n := n) ts ht hl) (fun b r e he => ?_)
  obtain ⟨rfl, h⟩ := peekn_tok typeKeywords_ne e
  cases b with
  | true =>
    obtain ⟨l, hm, h⟩ := h rfl
    rw [if_pos rfl]
    exact safeAt_bind (parseTypeExtension_safe n ht hl h hm) (fun _ _ _ _ => safeAt_ok rfl (.refl _))
  | false => rw [if_neg (by decide)]; exact safe_unexpectedCur (n := n) _ r ht hl

theorem parseTypeSystemDefinition_safe (n : Nat) (desc : Bytes) {ts r : Toks} {l : Bytes} (ht : HasEnd ts) (hl : ts.length < n)
    (h : Nm l ts r) (hm : l ∈ typeKeywords ++ [b!"directive"] ++ [b!"schema"]) :
    SafeAt (parseTypeSystemDefinition pf n desc) ts := by
  rw [parseTypeSystemDefinition]
  refine safeAt_bind (safe_peek1 (n := n) ts ht hl) (fun b r e he => ?_)
  obtain ⟨rfl, ⟨rfl, r', h'⟩ | ⟨rfl, h'⟩⟩ := (peek1_ok (by decide)).1 e
  · rw [if_pos rfl]
    exact (safe_bind (parseSchemaDefinition_safe n) (fun _ => safe_pure _) : Safe n _) r ht hl
  rw [if_neg (by decide)]
  refine safeAt_bind (safe_peek1 (n := n) r ht hl) (fun b r e he => ?_)
  obtain ⟨rfl, ⟨rfl, r', h2⟩ | ⟨rfl, h2⟩⟩ := (peek1_ok (by decide)).1 e
  · rw [if_pos rfl]
    exact safeAt_bind (parseDirectiveDefinition_safe n desc ht hl h2) (fun _ _ _ _ => safeAt_ok rfl (.refl _))
  rw [if_neg (by decide)]
  have hm' : l ∈ typeKeywords := by
    rcases List.mem_append.1 hm with hm | hm
    · rcases List.mem_append.1 hm with hm | hm
      · exact hm
      · simp only [List.mem_singleton] at hm; subst hm; exact absurd h (h2 _)
    · simp only [List.mem_singleton] at hm; subst hm; exact absurd h (h' _)
  refine safeAt_bind (safe_peekn (n := n) r ht hl) (fun b r e he => ?_)
  rw [peekn_true h hm'] at e
  cases e
  rw [if_pos rfl]
  exact safeAt_bind (parseTypeDefinition_safe n desc ht hl h hm') (fun _ _ _ _ => safeAt_ok rfl (.refl _))

theorem parseDefinitionBody_safe (n : Nat) {ts : Toks} (ht : HasEnd ts) (hl : ts.length < n) (hu : ¬ Unnamed ts) :
    SafeAt (parseDefinitionBody pf n) ts := by
  rw [parseDefinitionBody]
  refine safeAt_bind (safe_cur (n := n) ts ht hl) (fun t r0 e he => ?_)
  obtain ⟨rfl, rfl⟩ := cur_ok.1 e
  refine safeAt_bind (safe_orP safe_peekn safe_peek1 (n := n) r0 ht hl) (fun b r e he => ?_)
  have hr := ht.of_eats he
  have hlr := Nat.lt_of_le_of_lt he.length hl
  have er : r = r0 := by
    rcases orP_ok.1 e with ⟨-, h1⟩ | ⟨r', h1, h2⟩
    · exact (peekn_tok (by simp) h1).1
    · obtain ⟨rfl, -⟩ := peekn_tok (by simp) h1
      exact ((peek1_ok (by decide)).1 h2).1
  subst er
  cases b with
  | true =>
    rw [if_pos rfl]
    exact (safe_bind (parseOperationDefinition_safe n _) (fun _ => safe_pure _) : Safe n _) _ hr hlr
  | false =>
    rw [if_neg (by decide)]
    refine safeAt_bind (safe_peek1 (n := n) r ht hl) (fun b r2 e he => ?_)
    obtain ⟨rfl, ⟨rfl, r', h'⟩ | ⟨rfl, h'⟩⟩ := (peek1_ok (by decide)).1 e
    · rw [if_pos rfl]
      exact safeAt_bind (parseFragmentDefinition_safe n hr hlr h' (fun h => hu ⟨r', h', h⟩))
        (fun _ _ _ _ => safeAt_ok rfl (.refl _))
    rw [if_neg (by decide)]
    refine (safe_bind safe_peek1 (fun _ => safe_ite (parseTypeSystemExtension_safe n) (safe_bind safe_consume0 (fun o => ?_))) :
      Safe n _) r2 ht hl
    intro ts ht hl
    refine safeAt_bind (safe_peekn (n := n) ts ht hl) (fun b r e he => ?_)
    obtain ⟨rfl, h⟩ := peekn_tok (by simp) e
    cases b with
    | true =>
      obtain ⟨l, hm, h⟩ := h rfl
      rw [if_pos rfl]
      refine parseTypeSystemDefinition_safe n _ ht hl h ?_
      rcases List.mem_append.1 hm with hm | hm
      · exact List.mem_append_left _ hm
      · split at hm
        · exact List.mem_append_right _ hm
        · cases hm
    | false => rw [if_neg (by decide)]; exact safe_unexpectedCur (n := n) _ r ht hl

theorem parseDefinitionBody_panic (n : Nat) {ts : Toks} (h : Unnamed ts) : parseDefinitionBody pf n ts = .panic := by
  have h' := h
  obtain ⟨r, h1, h2⟩ := h
  rw [parseDefinitionBody, bind_eq (cur_eq ts), bind_eq (notOp h1 (.inr ⟨rfl, by decide⟩)), if_neg (by decide),
    bind_eq (peek1_true h1), if_pos rfl]
  show P.bind _ _ _ = _
  unfold P.bind
  rw [parseFragmentDefinition_panic n h']

end

end GQL
