/-
The parser looks at nothing but the current token: what it does depends only on the tokens up to it.  And the tokens that an error asks for would be
consumed.
-/
import Verif.Proofs.ParseSafe
import Verif.Spec.SyntaxError

namespace GQL
open Spec Spec.Syntax

/-- Any token but the last. -/
def Tn (t : Token) : Prop := t.kind ≠ .eof ∧ t.kind ≠ .illegal

/-- Tokens that the parser consumes. -/
def Eaten (c : Toks) : Prop := ∀ t ∈ c, t.kind ≠ .eof ∧ t.kind ≠ .illegal

theorem Eaten.append {c d : Toks} (h : Eaten c) (h2 : Eaten d) : Eaten (c ++ d) := fun t ht => by
  rcases List.mem_append.1 ht with ht | ht
  · exact h t ht
  · exact h2 t ht

theorem eaten_nil : Eaten [] := fun t ht => by cases ht

theorem hasEnd_append {c r : Toks} (h : HasEnd r) : HasEnd (c ++ r) := by
  obtain ⟨t, ht, hk⟩ := h
  exact ⟨t, List.mem_append_right _ ht, hk⟩

theorem HasEnd.drop_eaten {c r : Toks} (h : HasEnd (c ++ r)) (hc : Eaten c) : HasEnd r := by
  obtain ⟨t, ht, hk⟩ := h
  rcases List.mem_append.1 ht with ht | ht
  · have := hc t ht
    rcases hk with hk | hk
    · exact absurd hk this.1
    · exact absurd hk this.2
  · exact ⟨t, ht, hk⟩

theorem HasEnd.ne_nil {ts : Toks} (h : HasEnd ts) : ts ≠ [] := by
  obtain ⟨t, ht, -⟩ := h; intro e; subst e; cases ht

/-- The run from `y` consumes something of `z`, the rest of `y`. -/
def Went {α : Type} (q : P α) (y z : Toks) : Prop :=
  match q y with
  | .ok _ r => r.length < z.length
  | .err _ r => r.length < z.length
  | .panic => True
  | .oof => True

/-- Runs do not put tokens back. -/
def Shr {α : Type} (q : P α) : Prop := ∀ ts, match q ts with
  | .ok _ r => r.length ≤ ts.length
  | .err _ r => r.length ≤ ts.length
  | .panic => True
  | .oof => True

/-- The error for a reserved word is the one that comes after the token has been consumed. -/
def enumWant : List Bytes := [expected .name [b!"valid enum value"]]

/-- The error is about the current token. -/
def AtCur (t : Token) : PErr → Prop
  | .unexpected t0 w => t0 = t ∧ w ≠ enumWant
  | .todo => ¬ BeginsValue t
  | _ => False

/-- The error is about the token just consumed. -/
def AtLast (t : Token) : PErr → Prop
  | .unexpected t0 w => t0 = t ∧ t.kind = .name ∧ (t.lit = b!"false" ∨ t.lit = b!"true" ∨ t.lit = b!"null") ∧
      w = enumWant
  | .atoi l => t.kind = .intValue ∧ t.lit = l
  | .parseFloat l => t.kind = .floatValue ∧ t.lit = l
  | .todo => False

/-- `s`: what has been looked at when the error `e` arises after `c` has been consumed and before `r`. -/
def Seen (c r s : Toks) (e : PErr) : Prop :=
  (s = c ++ [hd r] ∧ r ≠ [] ∧ AtCur (hd r) e) ∨ (s = c ∧ ∃ c0 t, c = c0 ++ [t] ∧ AtLast t e)

/-- After a description, the error at something that is no type system definition asks for an operation or a fragment. -/
def Described (s : Toks) (t : Token) : Prop :=
  (∃ s0 d, s = s0 ++ [d] ∧ d.kind = .stringValue) ∧
    (t.lit = b!"query" ∨ t.lit = b!"mutation" ∨ t.lit = b!"fragment" ∨ t.lit = b!"{")

theorem Described.append {c s : Toks} {t : Token} (h : Described s t) : Described (c ++ s) t := by
  obtain ⟨⟨s0, d, rfl, h⟩, h2⟩ := h
  exact ⟨⟨c ++ s0, d, by simp, h⟩, h2⟩

theorem Described.nil {t : Token} : ¬ Described [] t := by
  rintro ⟨⟨s0, d, h, -⟩, -⟩
  simp at h

/-- What `q` (the same with other fuel) does from what has the same tokens up to the one that the error of `p` from `ts` is about.  At the
beginning the tokens in `φ` do not count as wanted. -/
def ErrAtX {α : Type} (φ : Token → Prop) (m : Nat) (p q : P α) (ts : Toks) : Prop :=
  ∀ e r, p ts = .err e r → ∃ c s, ts = c ++ r ∧ Eaten c ∧ Seen c r s e ∧
    (∀ ts', HasEnd ts' → ts'.length < m → s <+: ts' → ∃ r', q ts' = .err e r') ∧
    (∀ s0 t, s = s0 ++ [t] → ∀ t', Asked e t' → ¬ Described s0 t' →
      (s0 = [] → ¬ φ t') → ∀ y, HasEnd (t' :: y) → (s0 ++ t' :: y).length < m → Went q (s0 ++ t' :: y) (t' :: y))

/-- The outcome of `p` from `ts`, and of `q` from what has the same tokens up to the current one. -/
structure LocAtX {α : Type} (φ : Token → Prop) (m : Nat) (p q : P α) (ts : Toks) : Prop where
  ok : ∀ a r, p ts = .ok a r → ∃ c, ts = c ++ r ∧ Eaten c ∧
    (∀ r', HasEnd r' → (c ++ r').length < m → hd r' = hd r → q (c ++ r') = .ok a r') ∧
    (∀ t' y, Tn t' → HasEnd (t' :: y) → (c ++ t' :: y).length < m →
      Went q (c ++ t' :: y) (t' :: y) ∨ q (c ++ t' :: y) = .ok a (t' :: y))
  err : ErrAtX φ m p q ts

/-- Nothing is excepted. -/
def never : Token → Prop := fun _ => False

abbrev LocAt {α : Type} (m : Nat) (p q : P α) (ts : Toks) : Prop := LocAtX never m p q ts

def Loc {α : Type} (m : Nat) (p q : P α) : Prop := ∀ ts, HasEnd ts → LocAt m p q ts

theorem asked_tn {e : PErr} {t : Token} (h : Asked e t) : Tn t := by
  unfold Tn
  cases e with
  | unexpected t0 w =>
    obtain ⟨x, -, ⟨_, _, h, _⟩ | ⟨_, _, h, _⟩⟩ := h <;> rw [h] <;> decide
  | atoi l => cases h
  | parseFloat l => cases h
  | todo => rcases h with h | h | h | h | ⟨h, -⟩ <;> rw [h] <;> decide

theorem Seen.ne_nil {c r s : Toks} {e : PErr} (h : Seen c r s e) : s ≠ [] := by
  rcases h with ⟨rfl, -, -⟩ | ⟨rfl, c0, t, rfl, -⟩ <;> simp

theorem Seen.append {c0 c r s : Toks} {e : PErr} (h : Seen c r s e) : Seen (c0 ++ c) r (c0 ++ s) e := by
  rcases h with ⟨rfl, h1, h2⟩ | ⟨rfl, c1, t, rfl, h⟩
  · exact .inl ⟨by simp, h1, h2⟩
  · exact .inr ⟨by simp, c0 ++ c1, t, by simp, h⟩

theorem Seen.prefix {c r s : Toks} {e : PErr} (h : Seen c r s e) : s <+: c ++ r := by
  rcases h with ⟨rfl, h1, -⟩ | ⟨rfl, -⟩
  · cases r with
    | nil => exact absurd rfl h1
    | cons t r => exact ⟨r, by simp [hd]⟩
  · exact ⟨r, rfl⟩

theorem hd_of_prefix {s ts ts' : Toks} (hs : s ≠ []) (h : s <+: ts) (h' : s <+: ts') : hd ts' = hd ts := by
  cases s with
  | nil => exact absurd rfl hs
  | cons t s => obtain ⟨_, rfl⟩ := h; obtain ⟨_, rfl⟩ := h'; rfl

theorem went_bind {α β : Type} {q : P α} {g : α → P β} {y z : Toks} (h : Went q y z) (hs : ∀ a, Shr (g a)) : Went (q >>= g) y z := by
  unfold Went at h ⊢
  show match P.bind q g y with | .ok _ r => _ | .err _ r => _ | .panic => _ | .oof => _
  unfold P.bind
  cases e : q y with
  | ok a r =>
    rw [e] at h
    have := hs a r
    simp only
    cases e2 : g a r with
    | ok b r2 => rw [e2] at this; simp only at *; omega
    | err er r2 => rw [e2] at this; simp only at *; omega
    | panic => trivial
    | oof => trivial
  | err er r => rw [e] at h; exact h
  | panic => trivial
  | oof => trivial

theorem went_ok {α : Type} {q : P α} {y z r : Toks} {a : α} (h : q y = .ok a r) (hl : r.length < z.length) : Went q y z := by
  unfold Went; rw [h]; exact hl

theorem went_step {α β : Type} {q : P α} {g : α → P β} {y z r : Toks} {a : α} (h : q y = .ok a r) (hg : Went (g a) r z) : Went (q >>= g) y z := by
  unfold Went at hg ⊢; rw [bind_eq h]; exact hg

theorem errAt_bind {α β : Type} {φ : Token → Prop} {m : Nat} {p q : P α} {f g : α → P β} {ts : Toks} (h : LocAtX φ m p q ts) (hs : ∀ a, Shr (g a))
    (hf : ∀ a r, p ts = .ok a r → ∃ m', m ≤ m' + (ts.length - r.length) ∧ ∀ c, ts = c ++ r →
      ErrAtX (fun t => Described c t ∨ (c = [] ∧ φ t)) m' (f a) (g a) r) : ErrAtX φ m (p >>= f) (q >>= g) ts := by
  intro er r2 hb
  rcases bind_err.1 hb with h1 | ⟨a, r1, h1, h2⟩
  · obtain ⟨c, s, e1, hc, hs1, l, w⟩ := h.err er r2 h1
    refine ⟨c, s, e1, hc, hs1, ?_, ?_⟩
    · intro ts' ht hl hp
      obtain ⟨r', e⟩ := l ts' ht hl hp
      exact ⟨r', bind_err_eq e⟩
    · intro s0 t es t' hw hd hn y hy hl
      exact went_bind (w s0 t es t' hw hd hn y hy hl) hs
  · obtain ⟨c1, e1, hc1, l1, x1⟩ := h.ok a r1 h1
    obtain ⟨m', hm, hL⟩ := hf a r1 h1
    obtain ⟨c2, s, e2, hc2, hs2, l2, w2⟩ := hL c1 e1 er r2 h2
    have hlen : ts.length - r1.length = c1.length := by rw [e1]; simp
    refine ⟨c1 ++ c2, c1 ++ s, by rw [e1, e2, List.append_assoc], hc1.append hc2, hs2.append, ?_, ?_⟩
    · rintro ts' ht hl ⟨z, rfl⟩
      rw [List.append_assoc] at ht hl ⊢
      have hz := ht.drop_eaten hc1
      have e : q (c1 ++ (s ++ z)) = .ok a (s ++ z) :=
        l1 _ hz hl (hd_of_prefix hs2.ne_nil (e2 ▸ hs2.prefix) ⟨z, rfl⟩)
      obtain ⟨r', e'⟩ := l2 (s ++ z) hz (by simp only [List.length_append] at hl ⊢; omega) ⟨z, rfl⟩
      exact ⟨r', (bind_eq e).trans e'⟩
    · intro s0 t es t' hw hD hφ y hy hl
      have hs0 : ∃ s02, s0 = c1 ++ s02 ∧ s = s02 ++ [t] := by
        rcases List.eq_nil_or_concat s with hn | ⟨s02, u, rfl⟩
        · exact absurd hn hs2.ne_nil
        · rw [List.concat_eq_append] at es
          rw [← List.append_assoc] at es
          obtain ⟨h1, h2⟩ := List.append_inj' es rfl
          cases h2
          exact ⟨s02, h1.symm, by simp⟩
      obtain ⟨s02, rfl, rfl⟩ := hs0
      rw [List.append_assoc] at hl ⊢
      have hl' : (s02 ++ t' :: y).length < m' := by simp only [List.length_append] at hl ⊢; omega
      have key := w2 s02 t rfl t' hw (fun h => hD h.append) (fun h => by
        rintro (h2 | ⟨h2, h3⟩)
        · subst h; rw [List.append_nil] at hD; exact hD h2
        · subst h; subst h2; exact hφ rfl h3) y hy hl'
      cases s02 with
      | nil =>
        rcases x1 t' y (asked_tn hw) hy hl with h3 | h3
        · exact went_bind h3 hs
        · exact went_step h3 key
      | cons u s02 =>
        have e : q (c1 ++ (u :: s02 ++ t' :: y)) = .ok a (u :: s02 ++ t' :: y) := by
          refine l1 _ (hasEnd_append hy) hl ?_
          have := hs2.prefix
          rw [← e2] at this
          obtain ⟨z, hz⟩ := this
          rw [← hz]; rfl
        exact went_step e key

theorem locAt_bindX {α β : Type} {φ : Token → Prop} {m : Nat} {p q : P α} {f g : α → P β} {ts : Toks} (h : LocAtX φ m p q ts) (hs : ∀ a, Shr (g a))
    (hf : ∀ a r, p ts = .ok a r → ∃ m', m ≤ m' + (ts.length - r.length) ∧ ∀ c, ts = c ++ r →
      LocAtX (fun t => Described c t ∨ (c = [] ∧ φ t)) m' (f a) (g a) r) :
    LocAtX φ m (p >>= f) (q >>= g) ts := by
  constructor
  · intro b r2 hb
    obtain ⟨a, r1, h1, h2⟩ := bind_ok.1 hb
    obtain ⟨c1, e1, hc1, l1, x1⟩ := h.ok a r1 h1
    obtain ⟨m', hm, hL⟩ := hf a r1 h1
    obtain ⟨c2, e2, hc2, l2, x2⟩ := (hL c1 e1).ok b r2 h2
    have hlen : ts.length - r1.length = c1.length := by rw [e1]; simp
    refine ⟨c1 ++ c2, by rw [e1, e2, List.append_assoc], hc1.append hc2, ?_, ?_⟩
    · intro r' hr hl hh
      rw [List.append_assoc] at hl ⊢
      have e : q (c1 ++ (c2 ++ r')) = .ok a (c2 ++ r') := by
        refine l1 _ (hasEnd_append hr) hl ?_
        rw [e2]
        cases c2 with
        | nil => exact hh
        | cons t c2 => rfl
      rw [bind_eq e]
      exact l2 r' hr (by simp only [List.length_append] at hl ⊢; omega) hh
    · intro t' y ht hy hl
      rw [List.append_assoc] at hl ⊢
      have hl' : (c2 ++ t' :: y).length < m' := by simp only [List.length_append] at hl ⊢; omega
      cases c2 with
      | nil =>
        rcases x1 t' y ht hy hl with h3 | h3
        · exact .inl (went_bind h3 hs)
        · rcases x2 t' y ht hy hl' with h4 | h4
          · exact .inl (went_step h3 h4)
          · exact .inr ((bind_eq h3).trans h4)
      | cons t c2 =>
        have e : q (c1 ++ (t :: c2 ++ t' :: y)) = .ok a (t :: c2 ++ t' :: y) :=
          l1 _ (hasEnd_append hy) hl (by rw [e2]; rfl)
        rcases x2 t' y ht hy hl' with h4 | h4
        · exact .inl (went_step e h4)
        · exact .inr ((bind_eq e).trans h4)
  · refine errAt_bind h hs (fun a r hp => ?_)
    obtain ⟨m', hm, hL⟩ := hf a r hp
    exact ⟨m', hm, fun c e => (hL c e).err⟩

theorem LocAtX.imp {α : Type} {m : Nat} {φ ψ : Token → Prop} {p q : P α} {ts : Toks} (h : LocAtX φ m p q ts) (hi : ∀ t, φ t → ψ t) :
    LocAtX ψ m p q ts := by
  constructor
  · exact h.ok
  · intro e r hp
    obtain ⟨c, s, h1, h2, h3, h4, h5⟩ := h.err e r hp
    exact ⟨c, s, h1, h2, h3, h4, fun s0 t es t' hw hd hn y hy hl => h5 s0 t es t' hw hd (fun h hh => hn h (hi _ hh)) y hy hl⟩

theorem LocAtX.weaken {α : Type} {m : Nat} {φ : Token → Prop} {p q : P α} {ts : Toks} (h : LocAt m p q ts) : LocAtX φ m p q ts :=
  h.imp (fun _ h => h.elim)

theorem locAt_bind {α β : Type} {m : Nat} {p q : P α} {f g : α → P β} {ts : Toks} (h : LocAt m p q ts) (hs : ∀ a, Shr (g a))
    (hf : ∀ a r, p ts = .ok a r → ∃ m', m ≤ m' + (ts.length - r.length) ∧ LocAt m' (f a) (g a) r) :
    LocAt m (p >>= f) (q >>= g) ts :=
  locAt_bindX h hs (fun a r hp => by
    obtain ⟨m', hm, hL⟩ := hf a r hp
    exact ⟨m', hm, fun _ _ => hL.weaken⟩)

theorem LocAtX.mono {α : Type} {φ : Token → Prop} {m m' : Nat} {p q : P α} {ts : Toks} (h : LocAtX φ m p q ts) (hm : m' ≤ m) : LocAtX φ m' p q ts := by
  constructor
  · intro a r hp
    obtain ⟨c, h1, h2, h3, h4⟩ := h.ok a r hp
    exact ⟨c, h1, h2, fun r' hr hl => h3 r' hr (by omega), fun t' y ht hy hl => h4 t' y ht hy (by omega)⟩
  · intro e r hp
    obtain ⟨c, s, h1, h2, h3, h4, h5⟩ := h.err e r hp
    exact ⟨c, s, h1, h2, h3, fun ts' ht hl => h4 ts' ht (by omega),
      fun s0 t es t' hw hd hn y hy hl => h5 s0 t es t' hw hd hn y hy (by omega)⟩

theorem Loc.mono {α : Type} {m m' : Nat} {p q : P α} (h : Loc m p q) (hm : m' ≤ m) : Loc m' p q := fun ts ht => (h ts ht).mono hm

theorem loc_hasEnd {α : Type} {m : Nat} {p q : P α} {ts r : Toks} {a : α} (h : LocAt m p q ts) (ht : HasEnd ts) (hp : p ts = .ok a r) : HasEnd r := by
  obtain ⟨c, rfl, hc, -⟩ := h.ok a r hp
  exact ht.drop_eaten hc

theorem loc_bind {α β : Type} {m : Nat} {p q : P α} {f g : α → P β} (h : Loc m p q) (hs : ∀ a, Shr (g a)) (hf : ∀ a, Loc m (f a) (g a)) :
    Loc m (p >>= f) (q >>= g) := fun ts ht =>
  locAt_bind (h ts ht) hs (fun a r hp => ⟨m, by omega, hf a r (loc_hasEnd (h ts ht) ht hp)⟩)

/-- Consuming something leaves room. -/
theorem loc_bindP {α β : Type} {m : Nat} {p q : P α} {f g : α → P β} (h : Loc (m + 1) p q) (hp : Progress p) (hs : ∀ a, Shr (g a))
    (hf : ∀ a, Loc m (f a) (g a)) : Loc (m + 1) (p >>= f) (q >>= g) := fun ts ht =>
  locAt_bind (h ts ht) hs (fun a r e => ⟨m, by have := hp ts a r e; omega, hf a r (loc_hasEnd (h ts ht) ht e)⟩)


/-- Without room nothing is said about `q`. -/
theorem Loc.zero {α : Type} {m : Nat} {p q q' : P α} (h : Loc m p q) : Loc 0 p q' := fun ts ht => by
  constructor
  · intro a r hp
    obtain ⟨c, h1, h2, -, -⟩ := (h ts ht).ok a r hp
    exact ⟨c, h1, h2, fun _ _ hl => absurd hl (by omega), fun _ _ _ _ hl => absurd hl (by omega)⟩
  · intro e r hp
    obtain ⟨c, s, h1, h2, h3, -, -⟩ := (h ts ht).err e r hp
    exact ⟨c, s, h1, h2, h3, fun _ _ hl => absurd hl (by omega), fun _ _ _ _ _ _ _ _ _ hl => absurd hl (by omega)⟩

/-! ### Not putting tokens back -/

theorem shr_pure {α : Type} (a : α) : Shr (pure a : P α) := fun ts => Nat.le_refl _

theorem shr_bind {α β : Type} {q : P α} {g : α → P β} (h : Shr q) (hg : ∀ a, Shr (g a)) : Shr (q >>= g) := by
  intro ts
  show match P.bind q g ts with | .ok _ r => _ | .err _ r => _ | .panic => _ | .oof => _
  unfold P.bind
  have := h ts
  cases e : q ts with
  | ok a r =>
    rw [e] at this
    have h2 := hg a r
    simp only
    cases e2 : g a r with
    | ok b r2 => rw [e2] at h2; simp only at *; omega
    | err er r2 => rw [e2] at h2; simp only at *; omega
    | panic => trivial
    | oof => trivial
  | err er r => rw [e] at this; exact this
  | panic => trivial
  | oof => trivial

theorem shr_cur : Shr cur := fun ts => Nat.le_refl _
theorem shr_advance : Shr advance := fun ts => by show ts.tail.length ≤ ts.length; simp
theorem shr_fail {α : Type} (e : PErr) : Shr (fail e : P α) := fun ts => Nat.le_refl _
theorem shr_crash {α : Type} : Shr (crash : P α) := fun ts => trivial
theorem shr_oof {α : Type} : Shr (outOfFuel : P α) := fun ts => trivial
theorem shr_ite {α : Type} {c : Prop} [Decidable c] {p q : P α} (h1 : Shr p) (h2 : Shr q) : Shr (if c then p else q) := by split <;> assumption
theorem shr_unexpectedCur {α : Type} (w : List Bytes) : Shr (unexpectedCur w : P α) := shr_bind shr_cur fun _ => shr_fail _
theorem shr_peek0 {k : TokenKind} : Shr (peek0 k) := shr_bind shr_cur fun _ => shr_pure _
theorem shr_peek1 {k : TokenKind} {l : Bytes} : Shr (peek1 k l) := shr_bind shr_cur fun _ => shr_pure _
theorem shr_peekn {k : TokenKind} {ls : List Bytes} : Shr (peekn k ls) :=
  shr_bind shr_cur fun _ => shr_ite (shr_pure _) (shr_ite (shr_pure _) (shr_pure _))
theorem shr_skip1 {k : TokenKind} {l : Bytes} : Shr (skip1 k l) :=
  shr_bind shr_cur fun _ => shr_ite (shr_pure _) (shr_bind shr_advance fun _ => shr_pure _)
theorem shr_consume0 {k : TokenKind} : Shr (consume0 k) :=
  shr_bind shr_cur fun _ => shr_ite (shr_bind shr_advance fun _ => shr_pure _) (shr_pure _)
theorem shr_consumen {k : TokenKind} {ls : List Bytes} : Shr (consumen k ls) :=
  shr_bind shr_cur fun _ => shr_ite (shr_pure _) (shr_ite (shr_bind shr_advance fun _ => shr_pure _)
    (shr_ite (shr_bind shr_advance fun _ => shr_pure _) (shr_pure _)))
theorem shr_mustConsume0 {k : TokenKind} : Shr (mustConsume0 k) :=
  shr_bind shr_cur fun _ => shr_ite (shr_fail _) (shr_bind shr_advance fun _ => shr_pure _)
theorem shr_mustConsume1 {k : TokenKind} {l : Bytes} : Shr (mustConsume1 k l) :=
  shr_bind shr_cur fun _ => shr_ite (shr_fail _) (shr_bind shr_advance fun _ => shr_pure _)
theorem shr_mustConsumen {k : TokenKind} {ls : List Bytes} : Shr (mustConsumen k ls) :=
  shr_bind shr_cur fun _ => shr_bind shr_consumen fun o => by
    cases o with
    | none => exact shr_fail _
    | some t => exact shr_pure _
theorem shr_notP {p : P Bool} (h : Shr p) : Shr (notP p) := shr_bind h fun _ => shr_pure _
theorem shr_orP {p q : P Bool} (h : Shr p) (h2 : Shr q) : Shr (orP p q) := shr_bind h fun _ => shr_ite (shr_pure _) h2
theorem shr_doWhileF {α : Type} {body : P α} {brk : P Bool} (h1 : Shr body) (h2 : Shr brk) (k : Nat) : Shr (doWhileF body brk k) := by
  induction k with
  | zero => exact shr_oof
  | succ k ih => exact shr_bind h1 fun _ => shr_bind h2 fun _ => shr_ite (shr_pure _) (shr_bind ih fun _ => shr_pure _)
theorem shr_doWhile {α : Type} {body : P α} {brk : P Bool} (h1 : Shr body) (h2 : Shr brk) : Shr (doWhile body brk) := fun ts =>
  shr_doWhileF h1 h2 (ts.length + 1) ts
theorem shr_untilDoF {α : Type} {body : P α} {brk : P Bool} (h1 : Shr body) (h2 : Shr brk) (k : Nat) : Shr (untilDoF brk body k) := by
  induction k with
  | zero => exact shr_oof
  | succ k ih => exact shr_bind h2 fun _ => shr_ite (shr_pure _) (shr_bind h1 fun _ => shr_bind ih fun _ => shr_pure _)
theorem shr_untilDo {α : Type} {body : P α} {brk : P Bool} (h1 : Shr body) (h2 : Shr brk) : Shr (untilDo brk body) := fun ts =>
  shr_untilDoF h1 h2 (ts.length + 1) ts

/-- Goes through the structure of a parser function. -/
macro "shr" : tactic => `(tactic| repeat (first
  | assumption
  | exact shr_pure _ | exact shr_skip1 | exact shr_consume0 | exact shr_consumen | exact shr_mustConsume0 | exact shr_mustConsume1
  | exact shr_mustConsumen | exact shr_unexpectedCur _ | exact shr_fail _ | exact shr_crash | exact shr_oof | exact shr_cur
  | exact shr_peek0 | exact shr_peek1 | exact shr_peekn | apply shr_notP | apply shr_orP | apply shr_doWhile | apply shr_untilDo
  | apply shr_ite | apply shr_bind | intro _))

section
variable (pf : Bytes → Option Nat)

theorem shr_parseValue (n : Nat) : Shr (parseValue pf n) := by
  induction n with
  | zero => exact shr_oof
  | succ n ih =>
    rw [parseValue]
    refine shr_bind shr_skip1 fun _ => shr_ite (by shr) (shr_bind shr_consume0 fun o => ?_)
    cases o with
    | some t => dsimp only; cases atoi t.lit <;> shr
    | none =>
      dsimp only
      refine shr_bind shr_consume0 fun o => ?_
      cases o with
      | some t => dsimp only; cases pf t.lit <;> shr
      | none =>
        dsimp only
        refine shr_bind shr_consume0 fun o => ?_
        cases o with
        | some t => shr
        | none =>
          dsimp only
          refine shr_bind shr_consumen fun o => ?_
          cases o with
          | some t => shr
          | none =>
            dsimp only
            refine shr_bind shr_skip1 fun _ => shr_ite (by shr) (shr_bind shr_consume0 fun o => ?_)
            cases o with
            | some t => shr
            | none => dsimp only; shr

theorem shr_parseDefaultValue (n : Nat) : Shr (parseDefaultValue pf n) := by
  have := shr_parseValue pf n
  unfold parseDefaultValue; shr
theorem shr_parseArguments (n : Nat) : Shr (parseArguments pf n) := by
  have := shr_parseValue pf n
  unfold parseArguments; shr
theorem shr_parseDirectives (n : Nat) (loc : DirLoc) : Shr (parseDirectives pf n loc) := by
  have := shr_parseArguments pf n
  unfold parseDirectives; shr
theorem shr_parseType (n : Nat) : Shr (parseType n) := by
  induction n with
  | zero => exact shr_oof
  | succ n ih =>
    rw [parseType]
    refine shr_bind shr_skip1 fun _ => shr_ite ?_ (by shr)
    intro ts
    have := ih ts
    cases e : parseType n ts with
    | ok t r =>
      rw [e] at this
      have h2 : Shr (do
            let _ ← mustConsume1 .punctuator b!"]"
            return Ty.list t (← skip1 .punctuator b!"!") : P Ty) := by shr
      have h2 := h2 r
      simp only [e]
      cases e2 : (do
            let _ ← mustConsume1 .punctuator b!"]"
            return Ty.list t (← skip1 .punctuator b!"!") : P Ty) r with
      | ok b r2 => rw [e2] at h2; simp only at *; omega
      | err er r2 => rw [e2] at h2; simp only at *; omega
      | panic => trivial
      | oof => trivial
    | err er r => rw [e] at this; simp only [e]; exact this
    | panic => simp only [e]
    | oof => simp only [e]
theorem shr_mustBeNamed (t : Ty) : Shr (mustBeNamed t) := by
  unfold mustBeNamed; cases t <;> shr
theorem shr_parseTypeCondition (n : Nat) : Shr (parseTypeCondition n) := by
  unfold parseTypeCondition
  exact shr_bind shr_mustConsume1 fun _ => shr_bind (shr_parseType n) fun t => shr_bind (shr_mustBeNamed t) fun _ => shr_pure _
theorem shr_parseVariableDefinitions (n : Nat) : Shr (parseVariableDefinitions pf n) := by
  have := shr_parseType n; have := shr_parseDefaultValue pf n
  unfold parseVariableDefinitions; shr
theorem shr_parseSelectionSet (n : Nat) : ∀ o, Shr (parseSelectionSet pf n o) := by
  induction n with
  | zero => intro _; exact shr_oof
  | succ n ih =>
    intro o
    have := shr_parseDirectives pf n .fragmentSpread
    have := shr_parseDirectives pf n .inlineFragment
    have := shr_parseDirectives pf n .field
    have := shr_parseArguments pf n
    have := shr_parseTypeCondition n
    have := ih true; have := ih false
    rw [parseSelectionSet]; unfold parseFragmentSpread parseInlineFragment parseField; shr
theorem shr_parseOperationType : Shr parseOperationType := by unfold parseOperationType; shr
theorem shr_parseOperationDefinition (n : Nat) (b : Bool) : Shr (parseOperationDefinition pf n b) := by
  unfold parseOperationDefinition
  refine shr_ite (shr_bind (shr_parseSelectionSet pf n _) fun _ => shr_pure _) (shr_bind shr_parseOperationType fun _ =>
    shr_bind shr_consume0 fun _ => shr_bind (shr_parseVariableDefinitions pf n) fun _ => shr_bind (shr_parseDirectives pf n _) fun _ =>
    shr_bind (shr_parseSelectionSet pf n _) fun _ => shr_pure _)
theorem shr_parseFragmentDefinition (n : Nat) : Shr (parseFragmentDefinition pf n) := by
  unfold parseFragmentDefinition
  refine shr_bind shr_skip1 fun _ => shr_ite (shr_bind shr_consume0 fun o => ?_) shr_crash
  cases o with
  | none => exact shr_crash
  | some t => exact shr_ite (shr_unexpectedCur _) (shr_bind (shr_parseTypeCondition n) fun _ => shr_bind (shr_parseDirectives pf n _) fun _ =>
      shr_bind (shr_parseSelectionSet pf n _) fun _ => shr_pure _)
theorem shr_parseOperationTypeDefinitions (n : Nat) : Shr (parseOperationTypeDefinitions n) := by
  have := shr_parseOperationType; have := shr_parseType n
  unfold parseOperationTypeDefinitions parseOperationTypeDefinition
  refine shr_bind shr_skip1 fun _ => shr_ite (shr_bind (shr_doWhile ?_ (by shr)) fun _ => by shr) (by shr)
  exact shr_bind shr_parseOperationType fun _ => shr_bind shr_skip1 fun _ => shr_ite (shr_bind (shr_parseType n) fun t => shr_bind (shr_mustBeNamed t) fun _ => shr_pure _) (by shr)
theorem shr_parseSchemaDefinition (n : Nat) : Shr (parseSchemaDefinition pf n) := by
  have := shr_parseDirectives pf n .schema; have := shr_parseOperationTypeDefinitions n
  unfold parseSchemaDefinition; shr
theorem shr_parseSchemaExtension (n : Nat) : Shr (parseSchemaExtension pf n) := by
  have := shr_parseDirectives pf n .schema; have := shr_parseOperationTypeDefinitions n
  unfold parseSchemaExtension; shr
theorem shr_parseInputValueDefinition (n : Nat) (loc : DirLoc) : Shr (parseInputValueDefinition pf n loc) := by
  have := shr_parseDirectives pf n loc; have := shr_parseType n; have := shr_parseDefaultValue pf n
  unfold parseInputValueDefinition; shr
theorem shr_parseArgumentsDefinition (n : Nat) : Shr (parseArgumentsDefinition pf n) := by
  have := shr_parseInputValueDefinition pf n .argumentDefinition
  unfold parseArgumentsDefinition; shr
theorem shr_parseDirectiveLocations : Shr parseDirectiveLocations := by unfold parseDirectiveLocations; shr
theorem shr_parseDirectiveDefinition (n : Nat) (desc : Bytes) : Shr (parseDirectiveDefinition pf n desc) := by
  have := shr_parseArgumentsDefinition pf n; have := shr_parseDirectiveLocations
  unfold parseDirectiveDefinition; shr
theorem shr_parseImplementsInterfaces (n : Nat) : Shr (parseImplementsInterfaces n) := by
  have := shr_parseType n
  unfold parseImplementsInterfaces; shr
theorem shr_parseUnionMemberTypes (n : Nat) : Shr (parseUnionMemberTypes n) := by
  have := shr_parseType n
  unfold parseUnionMemberTypes; shr
theorem shr_parseFieldsDefinition (n : Nat) : Shr (parseFieldsDefinition pf n) := by
  have := shr_parseType n; have := shr_parseDirectives pf n .fieldDefinition; have := shr_parseArgumentsDefinition pf n
  unfold parseFieldsDefinition; shr
theorem shr_parseEnumValuesDefinition (n : Nat) : Shr (parseEnumValuesDefinition pf n) := by
  have := shr_parseDirectives pf n .enumValue
  unfold parseEnumValuesDefinition; shr
theorem shr_parseInputFieldsDefinition (n : Nat) : Shr (parseInputFieldsDefinition pf n) := by
  have := shr_parseInputValueDefinition pf n .inputFieldDefinition
  unfold parseInputFieldsDefinition; shr
theorem shr_parseTypeBody (n : Nat) (desc : Bytes) (k : TypeKind) : Shr (parseTypeBody pf n desc k) := by
  have := fun loc => shr_parseDirectives pf n loc
  have := shr_parseImplementsInterfaces n; have := shr_parseFieldsDefinition pf n; have := shr_parseUnionMemberTypes n
  have := shr_parseEnumValuesDefinition pf n; have := shr_parseInputFieldsDefinition pf n
  unfold parseTypeBody
  refine shr_bind shr_mustConsume0 fun _ => ?_
  cases k <;> dsimp only <;> repeat (first | assumption | exact shr_pure _ | apply shr_bind | exact shr_parseDirectives pf n _ | intro _)
theorem shr_parseTypeDefinition (n : Nat) (desc : Bytes) : Shr (parseTypeDefinition pf n desc) := by
  unfold parseTypeDefinition
  refine shr_bind shr_mustConsume0 fun t => ?_
  cases kindOf t.lit with
  | none => exact shr_crash
  | some k => exact shr_parseTypeBody pf n desc k
theorem shr_parseTypeExtension (n : Nat) : Shr (parseTypeExtension pf n) := by
  have := shr_parseImplementsInterfaces n; have := shr_parseFieldsDefinition pf n; have := shr_parseUnionMemberTypes n
  have := shr_parseEnumValuesDefinition pf n; have := shr_parseInputFieldsDefinition pf n
  unfold parseTypeExtension
  refine shr_bind shr_mustConsume0 fun kt => shr_bind shr_mustConsume0 fun t => shr_bind (by shr) fun _ => ?_
  cases kindOf kt.lit with
  | none => exact shr_crash
  | some k => cases k <;> dsimp only <;> repeat (first | assumption | exact shr_pure _ | apply shr_bind | exact shr_parseDirectives pf n _ | intro _)
theorem shr_parseTypeSystemDefinition (n : Nat) (desc : Bytes) : Shr (parseTypeSystemDefinition pf n desc) := by
  have := shr_parseSchemaDefinition pf n; have := shr_parseDirectiveDefinition pf n desc; have := shr_parseTypeDefinition pf n desc
  unfold parseTypeSystemDefinition; shr
theorem shr_parseTypeSystemExtension (n : Nat) : Shr (parseTypeSystemExtension pf n) := by
  have := shr_parseSchemaExtension pf n; have := shr_parseTypeExtension pf n
  unfold parseTypeSystemExtension; shr
theorem shr_parseDefinition (n : Nat) : Shr (parseDefinition pf n) := by
  have := shr_parseFragmentDefinition pf n; have := shr_parseTypeSystemExtension pf n
  unfold parseDefinition parseDefinitionBody
  refine shr_bind shr_cur fun _ => shr_bind (shr_bind shr_cur fun t => ?_) fun _ => shr_pure _
  have := shr_parseOperationDefinition pf n (t.lit == b!"{")
  dsimp only
  refine shr_bind (by shr) fun _ => shr_ite (by shr) (shr_bind (by shr) fun _ => shr_ite (by shr) (shr_bind (by shr) fun _ => shr_ite (by shr)
    (shr_bind shr_consume0 fun o => shr_bind (by shr) fun _ => shr_ite (shr_parseTypeSystemDefinition pf n _) (by shr))))

end

end GQL
