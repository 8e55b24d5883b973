/-
The parser that calls the lexer when it needs a token (Model/Steps) returns what the parser over the list of tokens (Model/Parser) returns, and
makes at most 24 steps for each token.
-/
import Verif.Model.Steps
import Verif.Proofs.Reads

namespace GQL

section
variable (inp : Bytes) (N : Nat)

/-- The tokens from the current one on are `ts`; the lexer has not read more than `N` times for them, and will not read more than `N + 28` times. -/
inductive Feed : PSt → List Token → Prop
  | last {s : PSt} : s.lx.l.input = inp → (s.tok.kind = .eof ∨ s.tok.kind = .illegal) → s.lx.n ≤ N + 28 → Feed s [s.tok]
  | more {s : PSt} {ts : List Token} {k : Nat} : s.lx.l.input = inp → s.lx.l.pos ≤ s.lx.l.input.length →
      (s.tok.kind ≠ .eof ∧ s.tok.kind ≠ .illegal) → tokensF k s.lx.l = .ret ts → ts.length ≤ inp.length →
      s.lx.n + 56 * (s.lx.l.input.length - s.lx.l.pos) ≤ N → Feed s (s.tok :: ts)

/-- The same result, with at most so many steps: 24 for each token passed and `o` more, or `e` more if it fails. -/
inductive Fits {α : Type} (o : α → Int) (e : Int) (s0 : PSt) (ts0 : List Token) : ResS α → Res α → Prop
  | ok {a : α} {s : PSt} {r : List Token} : Feed inp N s r → s0.steps ≤ s.steps → r.length ≤ ts0.length →
      (s.steps : Int) + 24 * (r.length : Int) ≤ (s0.steps : Int) + 24 * (ts0.length : Int) + o a → Fits o e s0 ts0 (.ok a s) (.ok a r)
  | err {x : PErr} {s : PSt} {r : List Token} : Feed inp N s r → s0.steps ≤ s.steps → r.length ≤ ts0.length →
      (s.steps : Int) + 24 * (r.length : Int) ≤ (s0.steps : Int) + 24 * (ts0.length : Int) + e → Fits o e s0 ts0 (.err x s) (.err x r)
  | panic {s : PSt} {r : List Token} : Feed inp N s r → s0.steps ≤ s.steps → r.length ≤ ts0.length →
      (s.steps : Int) + 24 * (r.length : Int) ≤ (s0.steps : Int) + 24 * (ts0.length : Int) + e → Fits o e s0 ts0 (.panic s) .panic
  | oof : Fits o e s0 ts0 .oof .oof

/-- The bound on the steps depends on what is returned. -/
def SimV {α : Type} (o : α → Int) (e : Int) (p : PS α) (q : P α) : Prop := ∀ s ts, Feed inp N s ts → Fits inp N o e s ts (p s) (q ts)

/-- The bound does not depend on it. -/
abbrev Sim1 {α : Type} (o e : Int) (p : PS α) (q : P α) : Prop := SimV inp N (fun _ => o) e p q

end

section
variable {inp : Bytes} {N : Nat}

theorem Feed.hd {s : PSt} {ts : List Token} (h : Feed inp N s ts) : GQL.hd ts = s.tok := by
  cases h <;> rfl

theorem Feed.fuel {s : PSt} {ts : List Token} (h : Feed inp N s ts) : ts.length < s.lx.l.input.length + 2 := by
  cases h with
  | last h1 h2 h3 => simp
  | more h1 h2 h3 h4 h5 h6 => rw [h1]; simp; omega

theorem Feed.tick {s : PSt} {ts : List Token} (h : Feed inp N s ts) (k : Nat) : Feed inp N { s with steps := k } ts := by
  obtain ⟨t, lx, st⟩ := s
  cases h with
  | last h1 h2 h3 => exact .last (s := ⟨t, lx, k⟩) h1 h2 h3
  | more h1 h2 h3 h4 h5 h6 => exact .more (s := ⟨t, lx, k⟩) h1 h2 h3 h4 h5 h6

/-- The next token. -/
theorem feed_scan {c : CLexer} {ts : List Token} {k : Nat} (h1 : c.l.input = inp) (h2 : c.l.pos ≤ c.l.input.length) (h4 : tokensF k c.l = .ret ts)
    (h5 : ts.length ≤ inp.length + 1) (h6 : c.n + 56 * (c.l.input.length - c.l.pos) ≤ N) : ∃ t c', scanC c = .ret (t, c') ∧ ∀ st, Feed inp N ⟨t, c', st⟩ ts := by
  cases k with
  | zero => cases h4
  | succ k =>
    obtain ⟨t, c', f1, f2, a, hp, hb, hr⟩ := scanFC_run c.l.fuel c h2 (by unfold Lexer.fuel; omega)
    have hbd := a.bound
    have hin := a.input
    unfold tokensF scan at h4
    rw [f2] at h4
    dsimp only at h4
    refine ⟨t, c', f1, fun st => ?_⟩
    by_cases he : t.kind = .eof ∨ t.kind = .illegal
    · rw [if_pos he] at h4
      cases h4
      exact .last (s := ⟨t, c', st⟩) (a.input.trans h1) he (by dsimp only; omega)
    · rw [if_neg he] at h4
      have hp := hp fun h => he (.inl h)
      have hr := (hr fun h => he (.inr h)).cost
      rcases e2 : tokensF k c'.l with us | _ | _
      · rw [e2] at h4
        cases h4
        exact .more (s := ⟨t, c', st⟩) (a.input.trans h1) a.inv ⟨fun h => he (.inl h), fun h => he (.inr h)⟩ e2 (by simp at h5; omega)
          (by dsimp only; rw [hin]; omega)
      · rw [e2] at h4; cases h4
      · rw [e2] at h4; cases h4

theorem Feed.advance {s : PSt} {ts : List Token} (h : Feed inp N s ts) (hk : s.tok.kind ≠ .eof ∧ s.tok.kind ≠ .illegal) :
    ∃ s', advanceS s = .ok () s' ∧ s'.steps = s.steps + 1 ∧ Feed inp N s' ts.tail ∧ ts.tail.length + 1 = ts.length := by
  obtain ⟨tok, lx, st⟩ := s
  cases h with
  | last h1 h2 h3 => rcases h2 with h | h; exact absurd h hk.1; exact absurd h hk.2
  | @more ts k h1 h2 h3 h4 h5 h6 =>
    obtain ⟨t, c', f1, f2⟩ := feed_scan h1 h2 h4 (by omega) h6
    refine ⟨⟨t, c', st + 1⟩, ?_, rfl, f2 _, rfl⟩
    unfold advanceS
    dsimp only
    dsimp only at f1
    rw [f1]

theorem Feed.reads {s : PSt} {ts : List Token} (h : Feed inp N s ts) : s.lx.n ≤ N + 28 := by
  cases h with
  | last h1 h2 h3 => exact h3
  | more h1 h2 h3 h4 h5 h6 => omega

variable {α β : Type}

theorem SimV.mono {o o' : α → Int} {e e' : Int} {p : PS α} {q : P α} (h : SimV inp N o e p q) (ho : ∀ a, o a ≤ o' a) (he : e ≤ e') : SimV inp N o' e' p q := by
  intro s ts hf
  have h := h s ts hf
  generalize p s = x at h
  generalize q ts = y at h
  cases h with
  | @ok a s r h1 h2 h3 h4 => exact .ok h1 h2 h3 (by have := ho a; omega)
  | err h1 h2 h3 h4 => exact .err h1 h2 h3 (by omega)
  | panic h1 h2 h3 h4 => exact .panic h1 h2 h3 (by omega)
  | oof => exact .oof

/-- What follows after some steps. -/
theorem Fits.after {o o' : α → Int} {e e' c : Int} {s s1 : PSt} {ts r : List Token} {x : ResS α} {y : Res α} (h : Fits inp N o e s1 r x y) (h2 : s.steps ≤ s1.steps)
    (h3 : r.length ≤ ts.length) (h4 : (s1.steps : Int) + 24 * (r.length : Int) ≤ (s.steps : Int) + 24 * (ts.length : Int) + c) (ho : ∀ a, o a + c ≤ o' a)
    (he : e + c ≤ e') : Fits inp N o' e' s ts x y := by
  cases h with
  | @ok a _ _ l1 l2 l3 l4 => exact .ok l1 (by omega) (by omega) (by have := ho a; omega)
  | err l1 l2 l3 l4 => exact .err l1 (by omega) (by omega) (by omega)
  | panic l1 l2 l3 l4 => exact .panic l1 (by omega) (by omega) (by omega)
  | oof => exact .oof

theorem simV_bind {o : α → Int} {o' : β → Int} {e E : Int} {p : PS α} {q : P α} {f : α → PS β} {g : α → P β} (h1 : SimV inp N o e p q) (he : e ≤ E)
    (h2 : ∀ a, SimV inp N (fun b => o' b - o a) (E - o a) (f a) (g a)) : SimV inp N o' E (p >>= f) (q >>= g) := by
  intro s ts hf
  have h := h1 s ts hf
  show Fits inp N o' E s ts (PS.bind p f s) (P.bind q g ts)
  unfold PS.bind P.bind
  generalize p s = x at h
  generalize q ts = y at h
  cases h with
  | err h1 h2 h3 h4 => exact .err h1 h2 h3 (by omega)
  | panic h1 h2 h3 h4 => exact .panic h1 h2 h3 (by omega)
  | oof => exact .oof
  | @ok a s1 r k1 k2 k3 k4 =>
    have h := h2 a s1 r k1
    dsimp only
    generalize f a s1 = x at h
    generalize g a r = y at h
    cases h with
    | ok h1 h2 h3 h4 => exact .ok h1 (by omega) (by omega) (by omega)
    | err h1 h2 h3 h4 => exact .err h1 (by omega) (by omega) (by omega)
    | panic h1 h2 h3 h4 => exact .panic h1 (by omega) (by omega) (by omega)
    | oof => exact .oof

theorem sim_bind {o e O E : Int} {p : PS α} {q : P α} {f : α → PS β} {g : α → P β} (h1 : Sim1 inp N o e p q) (he : e ≤ E)
    (h2 : ∀ a, Sim1 inp N (O - o) (E - o) (f a) (g a)) : Sim1 inp N O E (p >>= f) (q >>= g) := simV_bind h1 he h2

theorem sim_pure {o : α → Int} {e : Int} {a : α} (h : 0 ≤ o a) : SimV inp N o e (pure a) (pure a) :=
  fun _ _ hf => .ok hf (Nat.le_refl _) (Nat.le_refl _) (by omega)
theorem sim_fail {o : α → Int} {e : Int} {x : PErr} (h : 0 ≤ e) : SimV inp N o e (failS x) (fail x) :=
  fun _ _ hf => .err hf (Nat.le_refl _) (Nat.le_refl _) (by omega)
theorem sim_crash {o : α → Int} {e : Int} (h : 0 ≤ e) : SimV inp N o e (crashS) (crash) :=
  fun _ _ hf => .panic hf (Nat.le_refl _) (Nat.le_refl _) (by omega)
theorem sim_oof {o : α → Int} {e : Int} : SimV inp N o e (outOfFuelS) (outOfFuel) := fun _ _ _ => .oof

theorem sim_ite {o : α → Int} {e : Int} {c : Prop} [Decidable c] {p1 p2 : PS α} {q1 q2 : P α} (h1 : c → SimV inp N o e p1 q1) (h2 : ¬ c → SimV inp N o e p2 q2) :
    SimV inp N o e (if c then p1 else p2) (if c then q1 else q2) := by
  by_cases h : c
  · rw [if_pos h, if_pos h]; exact h1 h
  · rw [if_neg h, if_neg h]; exact h2 h

/-- Looking at the token. -/
theorem sim_cur {o : α → Int} {e : Int} {f : Token → PS α} {g : Token → P α}
    (h : ∀ t, ∀ s ts, Feed inp N s ts → s.tok = t → Fits inp N (fun a => o a - 1) (e - 1) s ts (f t s) (g t ts)) :
    SimV inp N o e (curS >>= f) (cur >>= g) := by
  intro s ts hf
  have h := h s.tok _ _ (hf.tick (s.steps + 1)) rfl
  show Fits inp N o e s ts (f s.tok { s with steps := s.steps + 1 }) (g (hd ts) ts)
  rw [hf.hd]
  generalize f s.tok { s with steps := s.steps + 1 } = x at h
  generalize g s.tok ts = y at h
  cases h with
  | ok h1 h2 h3 h4 => dsimp only at *; exact .ok h1 (by omega) (by omega) (by omega)
  | err h1 h2 h3 h4 => dsimp only at *; exact .err h1 (by omega) (by omega) (by omega)
  | panic h1 h2 h3 h4 => dsimp only at *; exact .panic h1 (by omega) (by omega) (by omega)
  | oof => exact .oof

/-- Looking at the token, whatever it is. -/
theorem sim_look {o : α → Int} {e : Int} {f : Token → PS α} {g : Token → P α} (h : ∀ t, SimV inp N (fun a => o a - 1) (e - 1) (f t) (g t)) :
    SimV inp N o e (curS >>= f) (cur >>= g) := sim_cur fun t s ts hf _ => h t s ts hf

/-- Taking the token. -/
theorem fits_advance {o : α → Int} {e : Int} {a : α} {s : PSt} {ts : List Token} (hf : Feed inp N s ts) (hk : s.tok.kind ≠ .eof ∧ s.tok.kind ≠ .illegal)
    (ho : -23 ≤ o a) : Fits inp N o e s ts ((advanceS >>= fun _ => pure a : PS α) s) ((advance >>= fun _ => pure a : P α) ts) := by
  obtain ⟨s', h1, h2, h3, h4⟩ := hf.advance hk
  show Fits inp N o e s ts (PS.bind advanceS (fun _ => pure a) s) (.ok a ts.tail)
  unfold PS.bind
  rw [h1]
  exact .ok h3 (by omega) (by omega) (by omega)

/-- A condition on the token. -/
theorem fits_ite {o : α → Int} {e : Int} {s : PSt} {ts : List Token} {c : Prop} [Decidable c] {p1 p2 : PS α} {q1 q2 : P α}
    (h1 : c → Fits inp N o e s ts (p1 s) (q1 ts)) (h2 : ¬ c → Fits inp N o e s ts (p2 s) (q2 ts)) :
    Fits inp N o e s ts ((if c then p1 else p2) s) ((if c then q1 else q2) ts) := by
  by_cases h : c
  · rw [if_pos h, if_pos h]; exact h1 h
  · rw [if_neg h, if_neg h]; exact h2 h

theorem sim_peek0 {e : Int} (k : TokenKind) : Sim1 inp N 1 e (peek0S k) (peek0 k) := sim_look fun _ => sim_pure (by omega)
theorem sim_peek1 {e : Int} (k : TokenKind) (l : Bytes) : Sim1 inp N 1 e (peek1S k l) (peek1 k l) := sim_look fun _ => sim_pure (by omega)
theorem sim_peekn {e : Int} (k : TokenKind) (ls : List Bytes) : Sim1 inp N 1 e (peeknS k ls) (peekn k ls) :=
  sim_look fun _ => sim_ite (fun _ => sim_pure (by omega)) fun _ => sim_ite (fun _ => sim_pure (by omega)) fun _ => sim_pure (by omega)

theorem sim_unexpected {o : α → Int} {e : Int} (ws : List Bytes) (h : 1 ≤ e) : SimV inp N o e (unexpectedCurS ws) (unexpectedCur ws) :=
  sim_look fun _ => sim_fail (by omega)

/-- Steps of `skip1`. -/
def skipCost (b : Bool) : Int := if b then -22 else 1
/-- Steps of `consume0` and `consumen`. -/
def optCost : Option Token → Int
  | some _ => -22
  | none => 1

theorem sim_skip1 {e : Int} {k : TokenKind} (l : Bytes) (hk : k ≠ .eof) (hk2 : k ≠ .illegal) : SimV inp N skipCost e (skip1S k l) (skip1 k l) := by
  refine sim_cur fun t s ts hf ht => ?_
  refine fits_ite (fun h => ?_) fun h => ?_
  · exact .ok hf (Nat.le_refl _) (Nat.le_refl _) (by simp [skipCost])
  · have hkk : s.tok.kind = k := by rw [ht]; exact Decidable.of_not_not fun h' => h (.inl h')
    exact fits_advance hf (by rw [hkk]; exact ⟨hk, hk2⟩) (by simp [skipCost])

theorem sim_consume0 {e : Int} {k : TokenKind} (hk : k ≠ .eof) (hk2 : k ≠ .illegal) : SimV inp N optCost e (consume0S k) (consume0 k) := by
  refine sim_cur fun t s ts hf ht => ?_
  refine fits_ite (fun h => ?_) fun h => ?_
  · exact fits_advance hf (by rw [ht, h]; exact ⟨hk, hk2⟩) (by simp [optCost])
  · exact .ok hf (Nat.le_refl _) (Nat.le_refl _) (by simp [optCost])

theorem sim_consumen {e : Int} {k : TokenKind} (ls : List Bytes) (hk : k ≠ .eof) (hk2 : k ≠ .illegal) : SimV inp N optCost e (consumenS k ls) (consumen k ls) := by
  refine sim_cur fun t s ts hf ht => ?_
  refine fits_ite (fun h => ?_) fun h => ?_
  · exact .ok hf (Nat.le_refl _) (Nat.le_refl _) (by simp [optCost])
  · have hkk : s.tok.kind = k := by rw [ht]; exact Decidable.of_not_not h
    refine fits_ite (fun h => ?_) fun h => ?_
    · exact fits_advance hf (by rw [hkk]; exact ⟨hk, hk2⟩) (by simp [optCost])
    · refine fits_ite (fun h => ?_) fun h => ?_
      · exact fits_advance hf (by rw [hkk]; exact ⟨hk, hk2⟩) (by simp [optCost])
      · exact .ok hf (Nat.le_refl _) (Nat.le_refl _) (by simp [optCost])

theorem sim_mustConsume0 {k : TokenKind} (hk : k ≠ .eof) (hk2 : k ≠ .illegal) : Sim1 inp N (-22) 1 (mustConsume0S k) (mustConsume0 k) := by
  refine sim_cur fun t s ts hf ht => ?_
  refine fits_ite (fun h => ?_) fun h => ?_
  · exact .err hf (Nat.le_refl _) (Nat.le_refl _) (by omega)
  · have hkk : s.tok.kind = k := by rw [ht]; exact Decidable.of_not_not h
    exact fits_advance hf (by rw [hkk]; exact ⟨hk, hk2⟩) (by omega)

theorem sim_mustConsume1 {k : TokenKind} (l : Bytes) (hk : k ≠ .eof) (hk2 : k ≠ .illegal) : Sim1 inp N (-22) 1 (mustConsume1S k l) (mustConsume1 k l) := by
  refine sim_cur fun t s ts hf ht => ?_
  refine fits_ite (fun h => ?_) fun h => ?_
  · exact .err hf (Nat.le_refl _) (Nat.le_refl _) (by omega)
  · have hkk : s.tok.kind = k := by rw [ht]; exact Decidable.of_not_not fun h' => h (.inl h')
    exact fits_advance hf (by rw [hkk]; exact ⟨hk, hk2⟩) (by omega)

theorem sim_mustConsumen {k : TokenKind} (ls : List Bytes) (hk : k ≠ .eof) (hk2 : k ≠ .illegal) : Sim1 inp N (-21) 2 (mustConsumenS k ls) (mustConsumen k ls) := by
  refine sim_look fun t => simV_bind (sim_consumen (e := 0) ls hk hk2) (by omega) ?_
  intro o
  cases o with
  | none => exact sim_fail (by simp [optCost])
  | some t => exact sim_pure (by simp [optCost])

theorem sim_skip_bind {o : α → Int} {e : Int} {k : TokenKind} {l : Bytes} {f : Bool → PS α} {g : Bool → P α} (hk : k ≠ .eof) (hk2 : k ≠ .illegal)
    (h1 : SimV inp N (fun a => o a + 22) (e + 22) (f true) (g true)) (h2 : SimV inp N (fun a => o a - 1) (e - 1) (f false) (g false)) :
    SimV inp N o e (skip1S k l >>= f) (skip1 k l >>= g) := by
  refine simV_bind (sim_skip1 (e := e) l hk hk2) (Int.le_refl _) ?_
  intro b
  cases b with
  | true => exact h1.mono (fun a => by simp [skipCost]) (by simp [skipCost])
  | false => exact h2.mono (fun a => by simp [skipCost]) (by simp [skipCost])

theorem sim_opt_bind {o : α → Int} {e : Int} {p : PS (Option Token)} {q : P (Option Token)} {f : Option Token → PS α} {g : Option Token → P α} (h : SimV inp N optCost e p q)
    (h1 : ∀ t, SimV inp N (fun a => o a + 22) (e + 22) (f (some t)) (g (some t))) (h2 : SimV inp N (fun a => o a - 1) (e - 1) (f none) (g none)) :
    SimV inp N o e (p >>= f) (q >>= g) := by
  refine simV_bind h (Int.le_refl _) ?_
  intro b
  cases b with
  | some t => exact (h1 t).mono (fun a => by simp [optCost]) (by simp [optCost])
  | none => exact h2.mono (fun a => by simp [optCost]) (by simp [optCost])

theorem sim_not {o : Bool → Int} {e : Int} {p : PS Bool} {q : P Bool} (h : SimV inp N o e p q) : SimV inp N (fun b => o (!b)) e (notPS p) (notP q) := by
  refine simV_bind h (Int.le_refl _) ?_
  intro b
  exact sim_pure (by cases b <;> simp <;> omega)

theorem sim_or {o1 o2 e : Int} {p p2 : PS Bool} {q q2 : P Bool} (h : Sim1 inp N o1 e p q) (h2 : Sim1 inp N o2 (e - o1) p2 q2) (ho : 0 ≤ o2) :
    Sim1 inp N (o1 + o2) e (orPS p p2) (orP q q2) := by
  refine simV_bind h (Int.le_refl _) ?_
  intro b
  exact sim_ite (fun _ => sim_pure (by omega)) fun _ => h2.mono (fun _ => by omega) (Int.le_refl _)

/-- The loop that tests at the end. -/
theorem sim_doWhile {o e E : Int} {ob : Bool → Int} {p : PS α} {q : P α} {c : PS Bool} {d : P Bool} (h1 : Sim1 inp N o e p q) (h2 : SimV inp N ob (E - o) c d)
    (hp : o < 0) (hb : o + ob false ≤ 0) (he : e ≤ E) : Sim1 inp N (o + ob true) E (doWhileS p c) (doWhile q d) := by
  have main : ∀ m m' s ts, Feed inp N s ts → ts.length < m → ts.length < m' →
      Fits inp N (fun _ : List α => o + ob true) E s ts (doWhileFS p c m' s) (doWhileF q d m ts) := by
    intro m
    induction m with
    | zero => intros; omega
    | succ m ih =>
      intro m' s ts hf hm hm'
      cases m' with
      | zero => omega
      | succ m' =>
        have h := h1 s ts hf
        rw [doWhileFS, doWhileF]
        show Fits inp N _ E s ts (PS.bind p _ s) (P.bind q _ ts)
        unfold PS.bind P.bind
        generalize p s = x at h
        generalize q ts = y at h
        cases h with
        | err h1 h2 h3 h4 => exact .err h1 h2 h3 (by omega)
        | panic h1 h2 h3 h4 => exact .panic h1 h2 h3 (by omega)
        | oof => exact .oof
        | @ok a s1 r k1 k2 k3 k4 =>
          have h := h2 s1 r k1
          dsimp only
          show Fits inp N _ E s ts (PS.bind c _ s1) (P.bind d _ r)
          unfold PS.bind P.bind
          generalize c s1 = x at h
          generalize d r = y at h
          cases h with
          | err h1 h2 h3 h4 => exact .err h1 (by omega) (by omega) (by omega)
          | panic h1 h2 h3 h4 => exact .panic h1 (by omega) (by omega) (by omega)
          | oof => exact .oof
          | @ok b s2 r2 l1 l2 l3 l4 =>
            cases b with
            | true => exact .ok l1 (by omega) (by omega) (by omega)
            | false =>
              have h := ih m' s2 r2 l1 (by omega) (by omega)
              dsimp only
              simp only [Bool.false_eq_true, if_false]
              show Fits inp N _ E s ts (PS.bind (doWhileFS p c m') _ s2) (P.bind (doWhileF q d m) _ r2)
              unfold PS.bind P.bind
              generalize doWhileFS p c m' s2 = x at h
              generalize doWhileF q d m r2 = y at h
              cases h with
              | err h1 h2 h3 h4 => exact .err h1 (by omega) (by omega) (by omega)
              | panic h1 h2 h3 h4 => exact .panic h1 (by omega) (by omega) (by omega)
              | oof => exact .oof
              | ok h1 h2 h3 h4 => exact .ok h1 (by omega) (by omega) (by omega)
  exact fun s ts hf => main _ _ s ts hf (by omega) hf.fuel

/-- The loop that tests at the beginning. -/
theorem sim_untilDo {o e E : Int} {ob : Bool → Int} {p : PS α} {q : P α} {c : PS Bool} {d : P Bool} (h2 : SimV inp N ob E c d) (h1 : Sim1 inp N o e p q)
    (hp : o < 0) (hb : o + ob false ≤ 0) (he : e + ob false ≤ E) : Sim1 inp N (ob true) E (untilDoS c p) (untilDo d q) := by
  have main : ∀ m m' s ts, Feed inp N s ts → ts.length < m → ts.length < m' →
      Fits inp N (fun _ : List α => ob true) E s ts (untilDoFS c p m' s) (untilDoF d q m ts) := by
    intro m
    induction m with
    | zero => intros; omega
    | succ m ih =>
      intro m' s ts hf hm hm'
      cases m' with
      | zero => omega
      | succ m' =>
        have h := h2 s ts hf
        rw [untilDoFS, untilDoF]
        show Fits inp N _ E s ts (PS.bind c _ s) (P.bind d _ ts)
        unfold PS.bind P.bind
        generalize c s = x at h
        generalize d ts = y at h
        cases h with
        | err h1 h2 h3 h4 => exact .err h1 h2 h3 (by omega)
        | panic h1 h2 h3 h4 => exact .panic h1 h2 h3 (by omega)
        | oof => exact .oof
        | @ok b s1 r k1 k2 k3 k4 =>
          cases b with
          | true => exact .ok k1 (by omega) (by omega) (by omega)
          | false =>
            have h := h1 s1 r k1
            dsimp only
            simp only [Bool.false_eq_true, if_false]
            show Fits inp N _ E s ts (PS.bind p _ s1) (P.bind q _ r)
            unfold PS.bind P.bind
            generalize p s1 = x at h
            generalize q r = y at h
            cases h with
            | err h1 h2 h3 h4 => exact .err h1 (by omega) (by omega) (by omega)
            | panic h1 h2 h3 h4 => exact .panic h1 (by omega) (by omega) (by omega)
            | oof => exact .oof
            | @ok a s2 r2 l1 l2 l3 l4 =>
              have h := ih m' s2 r2 l1 (by omega) (by omega)
              dsimp only
              show Fits inp N _ E s ts (PS.bind (untilDoFS c p m') _ s2) (P.bind (untilDoF d q m) _ r2)
              unfold PS.bind P.bind
              generalize untilDoFS c p m' s2 = x at h
              generalize untilDoF d q m r2 = y at h
              cases h with
              | err h1 h2 h3 h4 => exact .err h1 (by omega) (by omega) (by omega)
              | panic h1 h2 h3 h4 => exact .panic h1 (by omega) (by omega) (by omega)
              | oof => exact .oof
              | ok h1 h2 h3 h4 => exact .ok h1 (by omega) (by omega) (by omega)
  exact fun s ts hf => main _ _ s ts hf (by omega) hf.fuel

/-! ### The same, with bounds that do not depend on the result -/

theorem sim_skip {o e : Int} {k : TokenKind} {l : Bytes} {p1 p2 : PS α} {q1 q2 : P α} (hk : k ≠ .eof) (hk2 : k ≠ .illegal)
    (h1 : Sim1 inp N (o + 22) (e + 22) p1 q1) (h2 : Sim1 inp N (o - 1) (e - 1) p2 q2) :
    Sim1 inp N o e (skip1S k l >>= fun b => if b = true then p1 else p2) (skip1 k l >>= fun b => if b = true then q1 else q2) :=
  sim_skip_bind hk hk2 (sim_ite (fun _ => h1) (fun h => absurd rfl h)) (sim_ite (fun h => nomatch h) (fun _ => h2))

theorem sim_skipe {e : Int} {k : TokenKind} (l : Bytes) (hk : k ≠ .eof) (hk2 : k ≠ .illegal) : Sim1 inp N 1 e (skip1S k l) (skip1 k l) :=
  (sim_skip1 l hk hk2).mono (fun b => by cases b <;> simp [skipCost]) (Int.le_refl _)

theorem sim_opt {o e : Int} {p : PS (Option Token)} {q : P (Option Token)} {f : Option Token → PS α} {g : Option Token → P α} (h : SimV inp N optCost e p q)
    (h1 : ∀ t, Sim1 inp N (o + 22) (e + 22) (f (some t)) (g (some t))) (h2 : Sim1 inp N (o - 1) (e - 1) (f none) (g none)) :
    Sim1 inp N o e (p >>= f) (q >>= g) := sim_opt_bind h h1 h2

theorem sim_opte {e : Int} {p : PS (Option Token)} {q : P (Option Token)} (h : SimV inp N optCost e p q) : Sim1 inp N 1 e p q :=
  h.mono (fun b => by cases b <;> simp [optCost]) (Int.le_refl _)

theorem sim_curc {o e : Int} {f : Token → PS α} {g : Token → P α} (h : ∀ t, Sim1 inp N (o - 1) (e - 1) (f t) (g t)) :
    Sim1 inp N o e (curS >>= f) (cur >>= g) := sim_look h

theorem sim_until {o e E : Int} {k : TokenKind} (l : Bytes) {p : PS α} {q : P α} (hk : k ≠ .eof) (hk2 : k ≠ .illegal) (h : Sim1 inp N o e p q) (ho : o < 0)
    (he : e + 1 ≤ E) : Sim1 inp N (-22) E (untilDoS (skip1S k l) p) (untilDo (skip1 k l) q) :=
  sim_untilDo (sim_skip1 l hk hk2) h ho (by simp [skipCost]; omega) (by simp [skipCost]; omega)

theorem sim_do_skip {o e E : Int} {k : TokenKind} (l : Bytes) {p : PS α} {q : P α} (hk : k ≠ .eof) (hk2 : k ≠ .illegal) (h : Sim1 inp N o e p q) (ho : o < 0)
    (he : e ≤ E) : Sim1 inp N (o - 22) E (doWhileS p (skip1S k l)) (doWhile q (skip1 k l)) :=
  (sim_doWhile h (sim_skip1 l hk hk2) ho (by simp [skipCost]; omega) he).mono (fun _ => by simp [skipCost]; omega) (Int.le_refl _)

theorem sim_do_not {o e E : Int} {k : TokenKind} (l : Bytes) {p : PS α} {q : P α} (hk : k ≠ .eof) (hk2 : k ≠ .illegal) (h : Sim1 inp N o e p q) (ho : o < 0)
    (he : e ≤ E) : Sim1 inp N (o + 1) E (doWhileS p (notPS (skip1S k l))) (doWhile q (notP (skip1 k l))) :=
  (sim_doWhile h (sim_not (sim_skip1 l hk hk2)) ho (by simp [skipCost]; omega) he).mono (fun _ => by simp [skipCost]) (Int.le_refl _)

theorem sim_do {o e E c : Int} {p : PS α} {q : P α} {b : PS Bool} {d : P Bool} (h : Sim1 inp N o e p q) (hb : Sim1 inp N c (E - o) b d) (ho : o < 0) (hc : o + c ≤ 0)
    (he : e ≤ E) : Sim1 inp N (o + c) E (doWhileS p b) (doWhile q d) := sim_doWhile h hb ho hc he

theorem sim_two {e : Int} (k1 : TokenKind) (l1 : Bytes) (k2 : TokenKind) : Sim1 inp N 2 e (orPS (peek1S k1 l1) (peek0S k2)) (orP (peek1 k1 l1) (peek0 k2)) :=
  sim_or (sim_peek1 k1 l1) (sim_peek0 k2) (by omega)

theorem sim_three {e : Int} (k1 : TokenKind) (ls : List Bytes) (k2 : TokenKind) (l2 : Bytes) :
    Sim1 inp N 2 e (orPS (peeknS k1 ls) (peek1S k2 l2)) (orP (peekn k1 ls) (peek1 k2 l2)) :=
  sim_or (sim_peekn k1 ls) (sim_peek1 k2 l2) (by omega)

end

end GQL
