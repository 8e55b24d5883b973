/-
Completing what has been read: where a run fails, what it has accepted before the token it fails at can be completed.
-/
import Verif.Proofs.ParseLocalAll

namespace GQL
open Spec Spec.Syntax

/-- Errors about the token just consumed. -/
def late : PErr → Bool
  | .unexpected _ w => w == enumWant
  | .atoi _ => true
  | .parseFloat _ => true
  | .todo => false

/-- What comes before the token that the error is about, if `c` has been consumed. -/
def beforeE (e : PErr) (c : Toks) : Toks := if late e then c.dropLast else c

/-- Tokens that may follow, by kind and literal. -/
abbrev Fol := List (TokenKind × Bytes)

def In (F : Fol) (r : Toks) : Prop := ((hd r).kind, (hd r).lit) ∈ F

theorem In.mono {F G : Fol} {r : Toks} (h : In F r) (hs : F ⊆ G) : In G r := hs h

/-- A token with a literal. -/
def tkn (k : TokenKind) (l : Bytes) : Token := ⟨k, l, 0, 0⟩

/-- A name of letters, or a punctuator. -/
def plainTok (t : Token) : Bool :=
  match t.kind with
  | .name => !t.lit.isEmpty && t.lit.all (fun b => (97 ≤ b && b ≤ 122) || (65 ≤ b && b ≤ 90))
  | .punctuator => t.lit == b!"..." || [33, 36, 38, 40, 41, 58, 61, 64, 91, 93, 123, 124, 125].any (fun b => t.lit == [b])
  | _ => false

/-- Tokens that can be written as they are. -/
def Pl (w : Toks) : Prop := ∀ t ∈ w, plainTok t = true

theorem Pl.nil : Pl [] := fun _ h => by cases h

theorem Pl.cons {t : Token} {w : Toks} (h : plainTok t = true) (hw : Pl w) : Pl (t :: w) := by
  intro u hu
  cases hu with
  | head => exact h
  | tail _ hu => exact hw u hu

theorem Pl.append {w v : Toks} (h : Pl w) (hv : Pl v) : Pl (w ++ v) := fun t ht => (List.mem_append.1 ht).elim (h t) (hv t)

macro "plain" : tactic => `(tactic| repeat' (first | assumption | exact Pl.nil | with_reducible apply Pl.cons | with_reducible apply Pl.append | decide))

/-- Adding something in front does not matter. -/
def Closed (D : PErr → Toks → Prop) : Prop := ∀ e c s, D e s → D e (c ++ s)

/-- The runs of `p` are in `R`, also with something else after them (`ok`); when a run fails, what has been read before the token
it fails at can be completed to something in `R`, but for `D` (`err`); something in `R` beginning with one of `H` exists (`start`). -/
structure Via {α : Type} (D : PErr → Toks → Prop) (F H : Fol) (R : Toks → α → Toks → Prop) (p : P α) : Prop where
  ok : ∀ ts a r, p ts = .ok a r → ∃ c, ts = c ++ r ∧ ∀ r', (hd r' = hd r ∨ In F r') → R (c ++ r') a r'
  err : ∀ ts e r, p ts = .err e r → ∃ c, ts = c ++ r ∧ (late e = true → c ≠ []) ∧
    (beforeE e c = [] ∨ D e (beforeE e c) ∨ ∃ w a, Pl w ∧ ∀ r', In F r' → R (beforeE e c ++ (w ++ r')) a r')
  start : ∃ w a, Pl w ∧ ∀ r', In F r' → R (w ++ r') a r' ∧ In H (w ++ r')

/-- First `R1`, then `R2`. -/
def SeqD {α β : Type} (R1 : Toks → α → Toks → Prop) (R2 : α → Toks → β → Toks → Prop) (ts : Toks) (b : β) (r : Toks) : Prop :=
  ∃ a m, R1 ts a m ∧ R2 a m b r

theorem beforeE_append {e : PErr} {c1 c2 : Toks} (h : late e = true → c2 ≠ []) : beforeE e (c1 ++ c2) = c1 ++ beforeE e c2 := by
  unfold beforeE
  by_cases hl : late e = true
  · rw [if_pos hl, if_pos hl, List.dropLast_append_of_ne_nil (h hl)]
  · rw [if_neg hl, if_neg hl]

theorem beforeE_prefix (e : PErr) (c : Toks) : beforeE e c <+: c := by
  unfold beforeE
  split
  · exact List.dropLast_prefix c
  · exact List.prefix_refl c

theorem hd_append {s r : Toks} (h : s ≠ []) (r' : Toks) : hd (s ++ r') = hd (s ++ r) := by
  cases s with
  | nil => exact absurd rfl h
  | cons t s => rfl

/-- What the rest begins with, if something of it has been consumed before the error. -/
theorem hd_before {e : PErr} {c r : Toks} (h : beforeE e c ≠ []) (x : Toks) : hd (beforeE e c ++ x) = hd (c ++ r) := by
  obtain ⟨y, hy⟩ := beforeE_prefix e c
  rw [← hy, List.append_assoc]
  rw [hy]
  exact hd_append h _

section
variable {D : PErr → Toks → Prop} {F F1 F' H H1 H2 H' : Fol} {α β : Type}

theorem Via.imp {R R' : Toks → α → Toks → Prop} {p : P α} (h : Via D F H R p) (hR : ∀ ts a r, R ts a r → R' ts a r) : Via D F H R' p := by
  constructor
  · intro ts a r hp
    obtain ⟨c, h1, h2⟩ := h.ok ts a r hp
    exact ⟨c, h1, fun r' hr => hR _ _ _ (h2 r' hr)⟩
  · intro ts e r hp
    obtain ⟨c, h1, h2, h3⟩ := h.err ts e r hp
    refine ⟨c, h1, h2, ?_⟩
    rcases h3 with h3 | h3 | ⟨w, a, hw, h3⟩
    · exact .inl h3
    · exact .inr (.inl h3)
    · exact .inr (.inr ⟨w, a, hw, fun r' hr => hR _ _ _ (h3 r' hr)⟩)
  · obtain ⟨w, a, hw, h1⟩ := h.start
    exact ⟨w, a, hw, fun r' hr => ⟨hR _ _ _ (h1 r' hr).1, (h1 r' hr).2⟩⟩

theorem Via.mono {R : Toks → α → Toks → Prop} {p : P α} (h : Via D F H R p) (hF : F' ⊆ F) (hH : H ⊆ H') : Via D F' H' R p := by
  constructor
  · intro ts a r hp
    obtain ⟨c, h1, h2⟩ := h.ok ts a r hp
    exact ⟨c, h1, fun r' hr => h2 r' (hr.imp id (fun h => h.mono hF))⟩
  · intro ts e r hp
    obtain ⟨c, h1, h2, h3⟩ := h.err ts e r hp
    refine ⟨c, h1, h2, h3.imp id (fun h3 => h3.imp id ?_)⟩
    rintro ⟨w, a, hw, h3⟩
    exact ⟨w, a, hw, fun r' hr => h3 r' (hr.mono hF)⟩
  · obtain ⟨w, a, hw, h1⟩ := h.start
    exact ⟨w, a, hw, fun r' hr => ⟨(h1 r' (hr.mono hF)).1, (h1 r' (hr.mono hF)).2.mono hH⟩⟩

theorem via_bindD {D2 : PErr → Toks → Prop} {R1 : Toks → α → Toks → Prop} {R2 : α → Toks → β → Toks → Prop} {p : P α} {f : α → P β}
    (hD : ∀ e c s a r, p (c ++ r) = .ok a r → D2 e s → D e (c ++ s))
    (h1 : Via D F1 H1 R1 p) (h2 : ∀ a, Via D2 F H2 (R2 a) (f a)) (hF : F ⊆ F1 := by decide) (hH : H2 ⊆ F1 := by decide) :
    Via D F H1 (SeqD R1 R2) (p >>= f) := by
  constructor
  · intro ts b r hp
    obtain ⟨a, m, e1, e2⟩ := bind_ok.1 hp
    obtain ⟨c1, rfl, k1⟩ := h1.ok _ _ _ e1
    obtain ⟨c2, rfl, k2⟩ := (h2 a).ok _ _ _ e2
    refine ⟨c1 ++ c2, by simp, fun r' hr => ?_⟩
    rw [List.append_assoc]
    refine ⟨a, c2 ++ r', k1 _ ?_, k2 _ hr⟩
    cases c2 with
    | nil => exact hr.imp id (fun h => h.mono hF)
    | cons t c2 => exact .inl rfl
  · intro ts e r hp
    rcases bind_err.1 hp with e1 | ⟨a, m, e1, e2⟩
    · obtain ⟨c, rfl, k1, k2⟩ := h1.err _ _ _ e1
      refine ⟨c, rfl, k1, k2.imp id (fun k2 => k2.imp id ?_)⟩
      rintro ⟨w, a, hw, k3⟩
      obtain ⟨w2, b, hw2, k4⟩ := (h2 a).start
      refine ⟨w ++ w2, b, (by plain), fun r' hr => ?_⟩
      obtain ⟨k5, k6⟩ := k4 r' hr
      rw [List.append_assoc w]
      exact ⟨a, w2 ++ r', k3 _ (k6.mono hH), k5⟩
    · obtain ⟨c1, rfl, k1⟩ := h1.ok _ _ _ e1
      obtain ⟨c2, rfl, k2, k3⟩ := (h2 a).err _ _ _ e2
      refine ⟨c1 ++ c2, by simp, fun hl hc => k2 hl (List.append_eq_nil_iff.1 hc).2, ?_⟩
      rw [beforeE_append k2]
      rcases k3 with k3 | k3 | ⟨w, b, hw, k3⟩
      · obtain ⟨w, b, hw, k4⟩ := (h2 a).start
        refine .inr (.inr ⟨w, b, hw, fun r' hr => ?_⟩)
        obtain ⟨k5, k6⟩ := k4 r' hr
        rw [k3, List.append_nil]
        exact ⟨a, w ++ r', k1 _ (.inr (k6.mono hH)), k5⟩
      · exact .inr (.inl (hD _ _ _ _ _ e1 k3))
      · by_cases hs : beforeE e c2 = []
        · obtain ⟨w, b, hw, k4⟩ := (h2 a).start
          refine .inr (.inr ⟨w, b, hw, fun r' hr => ?_⟩)
          obtain ⟨k5, k6⟩ := k4 r' hr
          rw [hs, List.append_nil]
          exact ⟨a, w ++ r', k1 _ (.inr (k6.mono hH)), k5⟩
        · refine .inr (.inr ⟨w, b, hw, fun r' hr => ?_⟩)
          rw [List.append_assoc]
          exact ⟨a, _, k1 _ (.inl (hd_before hs _)), k3 r' hr⟩
  · obtain ⟨w, a, hw, k1⟩ := h1.start
    obtain ⟨w2, b, hw2, k2⟩ := (h2 a).start
    refine ⟨w ++ w2, b, (by plain), fun r' hr => ?_⟩
    obtain ⟨k3, k4⟩ := k2 r' hr
    rw [List.append_assoc]
    obtain ⟨k5, k6⟩ := k1 (w2 ++ r') (k4.mono hH)
    exact ⟨⟨a, w2 ++ r', k5, k3⟩, k6⟩

theorem via_bind {R1 : Toks → α → Toks → Prop} {R2 : α → Toks → β → Toks → Prop} {p : P α} {f : α → P β} (hD : Closed D)
    (h1 : Via D F1 H1 R1 p) (h2 : ∀ a, Via D F H2 (R2 a) (f a)) (hF : F ⊆ F1 := by decide) (hH : H2 ⊆ F1 := by decide) :
    Via D F H1 (SeqD R1 R2) (p >>= f) :=
  via_bindD (fun e c s _ _ _ h => hD e c s h) h1 h2 hF hH

theorem Via.weaken {D' : PErr → Toks → Prop} {R : Toks → α → Toks → Prop} {p : P α} (h : Via D F H R p) (hD : ∀ e s, D e s → D' e s) : Via D' F H R p := by
  refine ⟨h.ok, ?_, h.start⟩
  intro ts e r hp
  obtain ⟨c, h1, h2, h3⟩ := h.err ts e r hp
  exact ⟨c, h1, h2, h3.imp id (fun h3 => h3.imp (hD _ _) id)⟩

/-- Returning. -/
def Ret (a : α) (ts : Toks) (b : α) (r : Toks) : Prop := b = a ∧ r = ts

theorem via_pure (a : α) : Via D F F (Ret a) (pure a) := by
  constructor
  · intro ts b r h
    obtain ⟨rfl, rfl⟩ := pure_ok.1 h
    exact ⟨[], rfl, fun r' _ => ⟨rfl, rfl⟩⟩
  · intro ts e r h; cases h
  · exact ⟨[], a, (by plain), fun r' hr => ⟨⟨rfl, rfl⟩, hr⟩⟩

/-- A token of the kind. -/
def TokK (k : TokenKind) (ts : Toks) (t : Token) (r : Toks) : Prop := ts = t :: r ∧ t.kind = k
/-- A token of the kind with one of the literals. -/
def TokL (k : TokenKind) (ls : List Bytes) (ts : Toks) (t : Token) (r : Toks) : Prop := ts = t :: r ∧ t.kind = k ∧ t.lit ∈ ls

theorem mustConsume0_err {k : TokenKind} {ts r : Toks} {e : PErr} (h : mustConsume0 k ts = .err e r) :
    r = ts ∧ e = .unexpected (hd ts) [expected k []] := by
  unfold mustConsume0 at h
  rw [bind_eq (cur_eq ts)] at h
  by_cases hh : (hd ts).kind = k
  · rw [if_neg (by simpa using hh), bind_eq (show advance ts = .ok () ts.tail from rfl)] at h
    cases h
  · rw [if_pos hh] at h
    cases h; exact ⟨rfl, rfl⟩

theorem mustConsume1_err' {k : TokenKind} {l : Bytes} {ts r : Toks} {e : PErr} (h : mustConsume1 k l ts = .err e r) :
    r = ts ∧ e = .unexpected (hd ts) [expected k [l]] := by
  unfold mustConsume1 at h
  rw [bind_eq (cur_eq ts)] at h
  by_cases hh : (hd ts).kind = k ∧ (hd ts).lit = l
  · rw [if_neg (by simpa using hh), bind_eq (show advance ts = .ok () ts.tail from rfl)] at h
    cases h
  · rw [if_pos (by simpa [Classical.or_iff_not_imp_left] using hh)] at h
    cases h; exact ⟨rfl, rfl⟩

/-- A failure at the current token. -/
theorem via_err0 {Q : Toks → Prop} {ts r : Toks} {e : PErr} (hr : r = ts) (hl : late e = false) :
    ∃ c, ts = c ++ r ∧ (late e = true → c ≠ []) ∧ (beforeE e c = [] ∨ Q c) :=
  ⟨[], by rw [hr]; rfl, fun h => by (rw [hl] at h; cases h), .inl (by unfold beforeE; rw [hl]; rfl)⟩

theorem via_tok0 {k : TokenKind} (l : Bytes) (hk : k ≠ .eof := by decide) (hl : [expected k []] ≠ enumWant := by decide)
    (hp : plainTok (tkn k l) = true := by decide) : Via D F [(k, l)] (TokK k) (mustConsume0 k) := by
  constructor
  · intro ts t r h
    obtain ⟨rfl, h2⟩ := (mustConsume0_ok hk).1 h
    exact ⟨[t], rfl, fun r' _ => ⟨rfl, h2⟩⟩
  · intro ts e r h
    obtain ⟨h1, h2⟩ := mustConsume0_err h
    exact via_err0 h1 (show late e = false by rw [h2]; simpa [late] using hl)
  · exact ⟨[tkn k l], tkn k l, (by plain), fun r' _ => ⟨⟨rfl, rfl⟩, List.mem_singleton.2 rfl⟩⟩

theorem via_tok1 {k : TokenKind} {l : Bytes} (hk : k ≠ .eof := by decide) (hl : [expected k [l]] ≠ enumWant := by decide)
    (hp : plainTok (tkn k l) = true := by decide) : Via D F [(k, l)] (fun ts _ r => Tok1 k l ts r) (mustConsume1 k l) := by
  constructor
  · intro ts t r h
    obtain ⟨rfl, h2, h3⟩ := (mustConsume1_ok hk).1 h
    exact ⟨[t], rfl, fun r' _ => ⟨t, rfl, h2, h3⟩⟩
  · intro ts e r h
    obtain ⟨h1, h2⟩ := mustConsume1_err' h
    exact via_err0 h1 (show late e = false by rw [h2]; simpa [late] using hl)
  · exact ⟨[tkn k l], tkn k l, (by plain), fun r' _ => ⟨⟨_, rfl, rfl, rfl⟩, List.mem_singleton.2 rfl⟩⟩

theorem mustConsumen_err {k : TokenKind} (hk : k ≠ .eof) {ls : List Bytes} (hn : ls ≠ []) {ts r : Toks} {e : PErr} (h : mustConsumen k ls ts = .err e r) :
    r = ts ∧ e = .unexpected (hd ts) [expected k ls] := by
  unfold mustConsumen at h
  rw [bind_eq (cur_eq ts)] at h
  rcases bind_err.1 h with h | ⟨o, m, h1, h2⟩
  · exfalso
    unfold consumen at h
    rw [bind_eq (cur_eq ts)] at h
    split at h
    · cases h
    · split at h
      · cases h
      · split at h <;> cases h
  · rcases (consumen_ok hk hn).1 h1 with ⟨t, rfl, -⟩ | ⟨rfl, -, rfl⟩
    · cases h2
    · cases h2; exact ⟨rfl, rfl⟩

theorem via_tokn {k : TokenKind} {ls : List Bytes} (l : Bytes) (hm : l ∈ ls := by decide) (hk : k ≠ .eof := by decide)
    (hl : [expected k ls] ≠ enumWant := by decide) (hp : plainTok (tkn k l) = true := by decide) :
    Via D F [(k, l)] (TokL k ls) (mustConsumen k ls) := by
  have hn : ls ≠ [] := fun h => by rw [h] at hm; cases hm
  constructor
  · intro ts t r h
    obtain ⟨rfl, h2⟩ := (mustConsumen_ok hk hn).1 h
    exact ⟨[t], rfl, fun r' _ => ⟨rfl, h2⟩⟩
  · intro ts e r h
    obtain ⟨h1, h2⟩ := mustConsumen_err hk hn h
    exact via_err0 h1 (show late e = false by rw [h2]; simpa [late] using hl)
  · exact ⟨[tkn k l], tkn k l, (by plain), fun r' _ => ⟨⟨rfl, rfl, hm⟩, List.mem_singleton.2 rfl⟩⟩

/-- None of the tokens is of the kind. -/
def NoKind (k : TokenKind) (F : Fol) : Prop := ∀ x ∈ F, x.1 ≠ k
instance {k F} : Decidable (NoKind k F) := inferInstanceAs (Decidable (∀ x ∈ F, x.1 ≠ k))

theorem In.notKind {k : TokenKind} (hk : k ≠ .eof) {F : Fol} (hF : NoKind k F) {r : Toks} (h : In F r) : NotKind k r :=
  (notKind_iff hk).2 (hF _ h)

theorem In.notNext {k : TokenKind} {l : Bytes} (hk : k ≠ .eof) {F : Fol} (hF : (k, l) ∉ F) {r : Toks} (h : In F r) : NotNext1 k l r := by
  refine (notNext1_iff hk).2 ?_
  rintro ⟨h1, h2⟩
  unfold In at h
  rw [h1, h2] at h
  exact hF h

theorem notKind_congr {k : TokenKind} (hk : k ≠ .eof) {r r' : Toks} (h : hd r' = hd r) (hn : NotKind k r) : NotKind k r' :=
  (notKind_iff hk).2 (h ▸ (notKind_iff hk).1 hn)

theorem notNext_congr {k : TokenKind} {l : Bytes} (hk : k ≠ .eof) {r r' : Toks} (h : hd r' = hd r) (hn : NotNext1 k l r) : NotNext1 k l r' :=
  (notNext1_iff hk).2 (h ▸ (notNext1_iff hk).1 hn)

/-- A token of the kind or nothing. -/
def OptK (k : TokenKind) (ts : Toks) (o : Option Token) (r : Toks) : Prop :=
  (∃ t, o = some t ∧ ts = t :: r ∧ t.kind = k) ∨ (o = none ∧ NotKind k ts ∧ r = ts)

theorem consume0_not_err {k : TokenKind} {ts r : Toks} {e : PErr} : consume0 k ts ≠ .err e r := by
  unfold consume0
  rw [bind_eq (cur_eq ts)]
  intro h
  split at h <;> cases h

theorem via_opt {k : TokenKind} (hk : k ≠ .eof := by decide) (hF : NoKind k F := by decide) : Via D F F (OptK k) (consume0 k) := by
  constructor
  · intro ts o r h
    rcases (consume0_ok hk).1 h with ⟨t, rfl, rfl, h2⟩ | ⟨rfl, h2, rfl⟩
    · exact ⟨[t], rfl, fun r' _ => .inl ⟨t, rfl, rfl, h2⟩⟩
    · refine ⟨[], rfl, fun r' hr => .inr ⟨rfl, ?_, rfl⟩⟩
      exact hr.elim (fun h => notKind_congr hk h h2) (fun h => h.notKind hk hF)
  · intro ts e r h; exact absurd h consume0_not_err
  · exact ⟨[], none, (by plain), fun r' hr => ⟨.inr ⟨rfl, hr.notKind hk hF, rfl⟩, hr⟩⟩

/-- The token and `R1`, or not the token and `R2`. -/
def Alt (k : TokenKind) (l : Bytes) (R1 R2 : Toks → α → Toks → Prop) (ts : Toks) (a : α) (r : Toks) : Prop :=
  (∃ m, Tok1 k l ts m ∧ R1 m a r) ∨ (NotNext1 k l ts ∧ R2 ts a r)

/-- Both branches; something in the relation is given. -/
theorem via_ite {D1 : PErr → Toks → Prop} {R1 R2 : Toks → α → Toks → Prop} {k : TokenKind} {l : Bytes} {p q : P α}
    (hD : ∀ e t s, t.kind = k → t.lit = l → D1 e s → D e (t :: s)) (hk : k ≠ .eof)
    (h1 : Via D1 F H1 R1 p) (ok2 : ∀ ts a r, NotNext1 k l ts → q ts = .ok a r →
      ∃ c, ts = c ++ r ∧ (c = [] → (k, l) ∉ F) ∧ ∀ r', (hd r' = hd r ∨ In F r') → R2 (c ++ r') a r')
    (err2 : ∀ ts e r, q ts = .err e r → ∃ c, ts = c ++ r ∧ (late e = true → c ≠ []) ∧
      (beforeE e c = [] ∨ D e (beforeE e c) ∨ ∃ w a, Pl w ∧ ∀ r', In F r' → R2 (beforeE e c ++ (w ++ r')) a r'))
    (st : ∃ w a, Pl w ∧ ∀ r', In F r' → Alt k l R1 R2 (w ++ r') a r' ∧ In H (w ++ r')) :
    Via D F H (Alt k l R1 R2) (skip1 k l >>= fun b => if b = true then p else q) := by
  constructor
  · intro ts a r h
    rcases (skip1_bind hk).1 h with ⟨m, e1, e2⟩ | ⟨e1, e2⟩
    · obtain ⟨t, rfl, k1, k2⟩ := e1
      obtain ⟨c, rfl, k3⟩ := h1.ok _ _ _ (by simpa using e2)
      exact ⟨t :: c, rfl, fun r' hr => .inl ⟨c ++ r', ⟨t, rfl, k1, k2⟩, k3 r' hr⟩⟩
    · obtain ⟨c, rfl, k1, k2⟩ := ok2 _ _ _ e1 (by simpa using e2)
      refine ⟨c, rfl, fun r' hr => .inr ⟨?_, k2 r' hr⟩⟩
      cases c with
      | nil => exact hr.elim (fun h => notNext_congr hk h e1) (fun h => h.notNext hk (k1 rfl))
      | cons t c => exact notNext_congr (r := t :: c ++ r) hk rfl e1
  · intro ts e r h
    rcases bind_err.1 h with h | ⟨b, m, e1, e2⟩
    · exact absurd h skip1_not_err
    rcases (skip1_ok hk).1 e1 with ⟨rfl, t, rfl, k1, k2⟩ | ⟨rfl, k1, rfl⟩
    · obtain ⟨c, rfl, k3, k4⟩ := h1.err _ _ _ (by simpa using e2)
      refine ⟨t :: c, rfl, by simp, ?_⟩
      have := beforeE_append (e := e) (c1 := [t]) k3
      rw [List.singleton_append] at this
      rw [this]
      rcases k4 with k4 | k4 | ⟨w, a, hw, k4⟩
      · obtain ⟨w, a, hw, k5⟩ := h1.start
        refine .inr (.inr ⟨w, a, hw, fun r' hr => .inl ⟨w ++ r', ⟨t, ?_, k1, k2⟩, (k5 r' hr).1⟩⟩)
        rw [k4]; rfl
      · exact .inr (.inl (hD _ _ _ k1 k2 k4))
      · exact .inr (.inr ⟨w, a, hw, fun r' hr => .inl ⟨_, ⟨t, rfl, k1, k2⟩, k4 r' hr⟩⟩)
    · obtain ⟨c, rfl, k2, k3⟩ := err2 _ _ _ (by simpa using e2)
      refine ⟨c, rfl, k2, ?_⟩
      by_cases hs : beforeE e c = []
      · exact .inl hs
      rcases k3 with k3 | k3 | ⟨w, a, hw, k3⟩
      · exact .inl k3
      · exact .inr (.inl k3)
      · exact .inr (.inr ⟨w, a, hw, fun r' hr => .inr ⟨notNext_congr hk (hd_before hs _) k1, k3 r' hr⟩⟩)
  · exact st

theorem unexpectedCur_err {w : List Bytes} {ts r : Toks} {e : PErr} (h : (unexpectedCur w : P α) ts = .err e r) :
    r = ts ∧ e = .unexpected (hd ts) w := by
  unfold unexpectedCur at h
  rw [bind_eq (cur_eq ts)] at h
  cases h; exact ⟨rfl, rfl⟩

/-- The token must come. -/
theorem via_mustD {D1 : PErr → Toks → Prop} {R1 : Toks → α → Toks → Prop} {k : TokenKind} {l : Bytes} {p : P α} {w : List Bytes}
    (hD : ∀ e t s, t.kind = k → t.lit = l → D1 e s → D e (t :: s))
    (h1 : Via D1 F H1 R1 p) (hk : k ≠ .eof := by decide) (hw : w ≠ enumWant := by decide) (hp : plainTok (tkn k l) = true := by decide) :
    Via D F [(k, l)] (fun ts a r => ∃ m, Tok1 k l ts m ∧ R1 m a r)
      (skip1 k l >>= fun b => if b = true then p else unexpectedCur w) := by
  refine (via_ite (R2 := fun _ _ _ => False) hD hk h1 (fun ts a r _ h => (unexpectedCur_ok.1 h).elim) ?_ ?_).imp ?_
  · intro ts e r h
    obtain ⟨h1, h2⟩ := unexpectedCur_err h
    exact via_err0 h1 (show late e = false by rw [h2]; simpa [late] using hw)
  · obtain ⟨w, a, hw, k⟩ := h1.start
    exact ⟨tkn _ l :: w, a, (by plain), fun r' hr => ⟨.inl ⟨w ++ r', ⟨_, rfl, rfl, rfl⟩, (k r' hr).1⟩, List.mem_singleton.2 rfl⟩⟩
  · rintro ts a r (h | ⟨-, h⟩)
    · exact h
    · exact h.elim

theorem via_must {R1 : Toks → α → Toks → Prop} {k : TokenKind} {l : Bytes} {p : P α} {w : List Bytes} (hD : Closed D)
    (h1 : Via D F H1 R1 p) (hk : k ≠ .eof := by decide) (hw : w ≠ enumWant := by decide) (hp : plainTok (tkn k l) = true := by decide) :
    Via D F [(k, l)] (fun ts a r => ∃ m, Tok1 k l ts m ∧ R1 m a r)
      (skip1 k l >>= fun b => if b = true then p else unexpectedCur w) :=
  via_mustD (fun e t s _ _ h => hD e [t] s h) h1 hk hw hp

/-- The token, or nothing. -/
theorem via_may {R1 : Toks → α → Toks → Prop} {k : TokenKind} {l : Bytes} {p : P α} {a0 : α} (hD : Closed D)
    (h1 : Via D F H1 R1 p) (hF : (k, l) ∉ F := by decide) (hk : k ≠ .eof := by decide) :
    Via D F F (Alt k l R1 (Ret a0)) (skip1 k l >>= fun b => if b = true then p else pure a0) := by
  refine via_ite (fun e t s _ _ h => hD e [t] s h) hk h1 ?_ ?_ ?_
  · intro ts a r _ h
    obtain ⟨rfl, rfl⟩ := pure_ok.1 h
    exact ⟨[], rfl, fun _ => hF, fun r' _ => ⟨rfl, rfl⟩⟩
  · intro ts e r h; cases h
  · exact ⟨[], a0, (by plain), fun r' hr => ⟨.inr ⟨hr.notNext hk hF, rfl, rfl⟩, hr⟩⟩

/-- A token that says nothing, or nothing. -/
theorem via_skip {k : TokenKind} {l : Bytes} (hF : (k, l) ∉ F := by decide) (hk : k ≠ .eof := by decide) :
    Via D F F (BSkip k l) (skip1 k l) := by
  constructor
  · intro ts b r h
    rcases (skip1_ok hk).1 h with ⟨rfl, t, rfl, h1, h2⟩ | ⟨rfl, h1, rfl⟩
    · exact ⟨[t], rfl, fun r' _ => .inl ⟨rfl, t, rfl, h1, h2⟩⟩
    · refine ⟨[], rfl, fun r' hr => .inr ⟨rfl, ?_, rfl⟩⟩
      exact hr.elim (fun h => notNext_congr hk h h1) (fun h => h.notNext hk hF)
  · intro ts e r h; exact absurd h skip1_not_err
  · exact ⟨[], false, (by plain), fun r' hr => ⟨.inr ⟨rfl, hr.notNext hk hF, rfl⟩, hr⟩⟩

end

end GQL
