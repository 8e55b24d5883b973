/-
Completing what has been read: loops.
-/
import Verif.Proofs.ParseVia

namespace GQL
open Spec Spec.Syntax

/-- Runs of `p`. -/
def Run {α : Type} (p : P α) (ts : Toks) (a : α) (r : Toks) : Prop := p ts = .ok a r

theorem run_sound {α : Type} {p : P α} : Sound p (Run p) := fun _ _ _ h => h

section
variable {α : Type} {body : P α} {brk : P Bool}

theorem untilDo_err (hb : ∀ ts e r, brk ts ≠ .err e r) (hs : ∀ ts r, brk ts = .ok false r → r = ts) {ts r : Toks} {e : PErr}
    (h : untilDo brk body ts = .err e r) : ∃ as m, Many (Run body) ts as m ∧ body m = .err e r := by
  unfold untilDo at h
  revert h
  generalize ts.length + 1 = n
  intro h
  induction n generalizing ts with
  | zero => cases h
  | succ n ih =>
    rw [untilDoF] at h
    rcases bind_err.1 h with h | ⟨b, m, e1, h⟩
    · exact absurd h (hb _ _ _)
    cases b with
    | true => cases h
    | false =>
      cases hs _ _ e1
      rcases bind_err.1 h with h | ⟨a, m2, e2, h⟩
      · exact ⟨[], ts, .nil _, h⟩
      · rcases bind_err.1 h with h | ⟨as, m3, e3, h⟩
        · obtain ⟨as, m, h1, h2⟩ := ih h
          exact ⟨a :: as, m, .cons e2 h1, h2⟩
        · cases h

theorem doWhile_err (hb : ∀ ts e r, brk ts ≠ .err e r) (hs : ∀ ts r, brk ts = .ok false r → r = ts) {ts r : Toks} {e : PErr}
    (h : doWhile body brk ts = .err e r) : ∃ as m, Many (Run body) ts as m ∧ body m = .err e r := by
  unfold doWhile at h
  revert h
  generalize ts.length + 1 = n
  intro h
  induction n generalizing ts with
  | zero => cases h
  | succ n ih =>
    rw [doWhileF] at h
    rcases bind_err.1 h with h | ⟨a, m, e1, h⟩
    · exact ⟨[], ts, .nil _, h⟩
    rcases bind_err.1 h with h | ⟨b, m2, e2, h⟩
    · exact absurd h (hb _ _ _)
    cases b with
    | true => cases h
    | false =>
      cases hs _ _ e2
      rcases bind_err.1 h with h | ⟨as, m3, e3, h⟩
      · obtain ⟨as, m, h1, h2⟩ := ih h
        exact ⟨a :: as, m, .cons e1 h1, h2⟩
      · cases h

theorem skip1_keeps {k : TokenKind} {l : Bytes} (hk : k ≠ .eof) (ts r : Toks) (h : skip1 k l ts = .ok false r) : r = ts := by
  rcases (skip1_ok hk).1 h with ⟨h, -⟩ | ⟨-, -, h⟩
  · cases h
  · exact h

theorem peek1_keeps {k : TokenKind} {l : Bytes} (hk : k ≠ .eof) {b : Bool} (ts r : Toks) (h : peek1 k l ts = .ok b r) : r = ts :=
  ((peek1_ok hk).1 h).1

theorem peek1_not_err {k : TokenKind} {l : Bytes} {ts r : Toks} {e : PErr} : peek1 k l ts ≠ .err e r := by
  unfold peek1
  rw [bind_eq (cur_eq ts)]
  intro h; cases h

theorem notP_not_err {p : P Bool} (hp : ∀ ts e r, p ts ≠ .err e r) (ts : Toks) (e : PErr) (r : Toks) : notP p ts ≠ .err e r := by
  unfold notP
  intro h
  rcases bind_err.1 h with h | ⟨a, m, -, h⟩
  · exact hp _ _ _ h
  · cases h

theorem orP_peek_not_err {k : TokenKind} {l : Bytes} (ts : Toks) (e : PErr) (r : Toks) : orP (peek1 k l) (peek0 .eof) ts ≠ .err e r := by
  unfold orP
  intro h
  rcases bind_err.1 h with h | ⟨a, m, -, h⟩
  · exact peek1_not_err h
  · cases a <;> cases h

theorem notPeek_keeps {k : TokenKind} {l : Bytes} (hk : k ≠ .eof) (ts r : Toks) (h : notP (peek1 k l) ts = .ok false r) : r = ts :=
  peek1_keeps hk _ _ (notP_ok.1 h)

theorem orP_keeps {k : TokenKind} {l : Bytes} (hk : k ≠ .eof) {b : Bool} (ts r : Toks) (h : orP (peek1 k l) (peek0 .eof) ts = .ok b r) : r = ts :=
  ((bpeekEof_iff hk).1 h).1

end

section
variable {D : PErr → Toks → Prop} {F Fb Hb : Fol} {α : Type} {body : P α} {Rb : Toks → α → Toks → Prop} {l : Bytes}

theorem many_swap (hb : Via D Fb Hb Rb body) {ts m : Toks} {as : List α} (h : Many (Run body) ts as m) :
    ∃ c, ts = c ++ m ∧ ∀ r', (hd r' = hd m ∨ In Fb r') → Many Rb (c ++ r') as r' := by
  induction h with
  | nil ts => exact ⟨[], rfl, fun r' _ => .nil _⟩
  | @cons ts a r as rest h1 _ ih =>
    obtain ⟨c2, rfl, k2⟩ := ih
    obtain ⟨c1, rfl, k1⟩ := hb.ok _ _ _ h1
    refine ⟨c1 ++ c2, by simp, fun r' hr => ?_⟩
    rw [List.append_assoc]
    refine .cons (k1 _ ?_) (k2 _ hr)
    cases c2 with
    | nil => exact hr
    | cons t c2 => exact .inl rfl

theorem many_append {R : Toks → α → Toks → Prop} {ts m r : Toks} {as bs : List α} (h : Many R ts as m) (h2 : Many R m bs r) : Many R ts (as ++ bs) r := by
  induction h with
  | nil => exact h2
  | cons h1 _ ih => exact .cons h1 (ih h2)

theorem many_nil {R : Toks → α → Toks → Prop} {ts m : Toks} (h : Many R ts [] m) : ts = m := by cases h; rfl

/-- After some items the next one fails: what has been read can be completed to some items. -/
theorem many_err (hb : Via D Fb Hb Rb body) (hD : Closed D) {ts m r : Toks} {as : List α} {e : PErr} (h : Many (Run body) ts as m)
    (he : body m = .err e r) : ∃ c, ts = c ++ r ∧ (late e = true → c ≠ []) ∧ (D e (beforeE e c) ∨
      ∃ w bs, Pl w ∧ (bs = [] → beforeE e c = []) ∧ ∀ r', In Fb r' → Many Rb (beforeE e c ++ (w ++ r')) bs r') := by
  obtain ⟨c1, rfl, k1⟩ := many_swap hb h
  obtain ⟨c2, rfl, k2, k3⟩ := hb.err _ _ _ he
  refine ⟨c1 ++ c2, by simp, fun hl hc => k2 hl (List.append_eq_nil_iff.1 hc).2, ?_⟩
  rw [beforeE_append k2]
  have hnil : beforeE e c2 = [] → ∃ w bs, Pl w ∧ (bs = [] → c1 ++ beforeE e c2 = []) ∧ ∀ r', In Fb r' → Many Rb (c1 ++ beforeE e c2 ++ (w ++ r')) bs r' := by
    intro hs
    rw [hs, List.append_nil]
    refine ⟨[], as, .nil, ?_, fun r' hr => k1 _ (.inr hr)⟩
    rintro rfl
    exact List.append_left_eq_self.1 (many_nil h)
  rcases k3 with k3 | k3 | ⟨w, b, hw, k3⟩
  · exact .inr (hnil k3)
  · exact .inl (hD _ _ _ k3)
  · by_cases hs : beforeE e c2 = []
    · exact .inr (hnil hs)
    · refine .inr ⟨w, as ++ [b], hw, by simp, fun r' hr => ?_⟩
      rw [List.append_assoc]
      exact many_append (k1 _ (.inl (hd_before hs _))) (.cons (k3 r' hr) (.nil _))

/-- `for !closer { body }`. -/
theorem via_until (hb : Via D Fb Hb Rb body) (hD : Closed D) (hl : (.punctuator, l) ∈ Fb := by decide)
    (hp : plainTok (tkn .punctuator l) = true := by decide) : Via D F [(.punctuator, l)] (fun ts as r => ∃ m, Many Rb ts as m ∧ Pu l m r) (untilDo (skip1 .punctuator l) body) := by
  have hin : ∀ r', In Fb (tkn .punctuator l :: r') := fun r' => hl
  constructor
  · intro ts as r h
    obtain ⟨m, h1, t, rfl, h2, h3⟩ := uloop_skip_many (untilDo_sound run_sound skip1_sound _ _ _ h)
    obtain ⟨c, rfl, k⟩ := many_swap hb h1
    refine ⟨c ++ [t], by simp, fun r' _ => ⟨t :: r', ?_, t, rfl, h2, h3⟩⟩
    rw [List.append_assoc]
    exact k _ (.inl rfl)
  · intro ts e r h
    obtain ⟨as, m, h1, h2⟩ := untilDo_err (fun _ _ _ => skip1_not_err) (skip1_keeps (by decide)) h
    obtain ⟨c, rfl, k1, k2⟩ := many_err hb hD h1 h2
    refine ⟨c, rfl, k1, .inr (k2.imp id ?_)⟩
    rintro ⟨w, bs, hw, -, k⟩
    refine ⟨w ++ [tkn .punctuator l], bs, (by plain), fun r' _ => ⟨tkn .punctuator l :: r', ?_, _, rfl, rfl, rfl⟩⟩
    rw [List.append_assoc]
    exact k _ (hin r')
  · exact ⟨[tkn .punctuator l], [], (by plain), fun r' _ => ⟨⟨_, .nil _, _, rfl, rfl, rfl⟩, List.mem_singleton.2 rfl⟩⟩

/-- `for peek { body }`. -/
theorem via_while (hb : Via D Fb Hb Rb body) (hD : Closed D) (hF : F ⊆ Fb := by decide) (hl : (.punctuator, l) ∉ F := by decide) :
    Via D F F (fun ts as r => Many Rb ts as r ∧ NotNext1 .punctuator l r) (untilDo (notP (peek1 .punctuator l)) body) := by
  constructor
  · intro ts as r h
    obtain ⟨h1, h2⟩ := uloop_peek_many (untilDo_sound run_sound bnotPeek_sound _ _ _ h)
    obtain ⟨c, rfl, k⟩ := many_swap hb h1
    refine ⟨c, rfl, fun r' hr => ⟨k _ (hr.imp id (fun h => h.mono hF)), ?_⟩⟩
    exact hr.elim (fun h => notNext_congr (by decide) h h2) (fun h => h.notNext (by decide) hl)
  · intro ts e r h
    obtain ⟨as, m, h1, h2⟩ := untilDo_err (notP_not_err (fun _ _ _ => peek1_not_err)) (notPeek_keeps (by decide)) h
    obtain ⟨c, rfl, k1, k2⟩ := many_err hb hD h1 h2
    refine ⟨c, rfl, k1, .inr (k2.imp id ?_)⟩
    rintro ⟨w, bs, hw, -, k⟩
    exact ⟨w, bs, hw, fun r' hr => ⟨k _ (hr.mono hF), hr.notNext (by decide) hl⟩⟩
  · exact ⟨[], [], (by plain), fun r' hr => ⟨⟨.nil _, hr.notNext (by decide) hl⟩, hr⟩⟩

/-- Items and a closer. -/
theorem via_closed {L : P (List α)} (hb : Via D Fb Hb Rb body) (hD : Closed D) (hl : (.punctuator, l) ∈ Fb) (hp : plainTok (tkn .punctuator l) = true)
    (ok : ∀ ts as r, L ts = .ok as r → ∃ m, Many (Run body) ts as m ∧ as ≠ [] ∧ Pu l m r)
    (err : ∀ ts e r, L ts = .err e r → (∃ as m, Many (Run body) ts as m ∧ body m = .err e r) ∨
      (∃ as, Many (Run body) ts as r ∧ as ≠ [] ∧ late e = false)) :
    Via D F Hb (fun ts as r => ∃ m, Many Rb ts as m ∧ as ≠ [] ∧ Pu l m r) L := by
  have hin : ∀ r', In Fb (tkn .punctuator l :: r') := fun r' => hl
  constructor
  · intro ts as r h
    obtain ⟨m, h1, h0, t, rfl, h2, h3⟩ := ok _ _ _ h
    obtain ⟨c, rfl, k⟩ := many_swap hb h1
    refine ⟨c ++ [t], by simp, fun r' _ => ⟨t :: r', ?_, h0, t, rfl, h2, h3⟩⟩
    rw [List.append_assoc]
    exact k _ (.inl rfl)
  · intro ts e r h
    rcases err _ _ _ h with ⟨as, m, h1, h2⟩ | ⟨as, h1, h0, h2⟩
    · obtain ⟨c, rfl, k1, k2⟩ := many_err hb hD h1 h2
      refine ⟨c, rfl, k1, ?_⟩
      rcases k2 with k2 | ⟨w, bs, hw, k0, k⟩
      · exact .inr (.inl k2)
      · by_cases hbs : bs = []
        · exact .inl (k0 hbs)
        · refine .inr (.inr ⟨w ++ [tkn .punctuator l], bs, (by plain), fun r' _ => ⟨tkn .punctuator l :: r', ?_, hbs, _, rfl, rfl, rfl⟩⟩)
          rw [List.append_assoc]
          exact k _ (hin r')
    · obtain ⟨c, rfl, k⟩ := many_swap hb h1
      refine ⟨c, rfl, fun hh => by (rw [h2] at hh; cases hh), .inr (.inr ⟨[tkn .punctuator l], as, (by plain), fun r' _ => ⟨tkn .punctuator l :: r', ?_, h0, _, rfl, rfl, rfl⟩⟩)⟩
      unfold beforeE
      rw [h2]
      exact k _ (.inr (hin r'))
  · obtain ⟨w, a, hw, k⟩ := hb.start
    refine ⟨w ++ [tkn .punctuator l], [a], (by plain), fun r' _ => ?_⟩
    obtain ⟨k1, k2⟩ := k _ (hin r')
    rw [List.append_assoc]
    exact ⟨⟨tkn .punctuator l :: r', .cons k1 (.nil _), by simp, _, rfl, rfl, rfl⟩, k2⟩

/-- `for { body; if closer { break } }`. -/
theorem via_doSkip (hb : Via D Fb Hb Rb body) (hD : Closed D) (hl : (.punctuator, l) ∈ Fb := by decide)
    (hp : plainTok (tkn .punctuator l) = true := by decide) : Via D F Hb (fun ts as r => ∃ m, Many Rb ts as m ∧ as ≠ [] ∧ Pu l m r) (doWhile body (skip1 .punctuator l)) :=
  via_closed hb hD hl hp (fun _ _ _ h => rloop_skip_many (doWhile_sound run_sound skip1_sound _ _ _ h))
    (fun _ _ _ h => .inl (doWhile_err (fun _ _ _ => skip1_not_err) (skip1_keeps (by decide)) h))

/-- `for { body; if at the closer { break } }; closer`. -/
theorem via_doPeek (hb : Via D Fb Hb Rb body) (hD : Closed D) (hl : (.punctuator, l) ∈ Fb := by decide)
    (hw : [expected .punctuator [l]] ≠ enumWant := by decide) (hp : plainTok (tkn .punctuator l) = true := by decide) :
    Via D F Hb (fun ts as r => ∃ m, Many Rb ts as m ∧ as ≠ [] ∧ Pu l m r)
      (doWhile body (peek1 .punctuator l) >>= fun as => mustConsume1 .punctuator l >>= fun _ => pure as) := by
  refine via_closed hb hD hl hp ?_ ?_
  · intro ts as r h
    obtain ⟨as', m, e1, e2⟩ := bind_ok.1 h
    obtain ⟨m2, e3, e4⟩ := (mustConsume1_bind (by decide)).1 e2
    obtain ⟨rfl, rfl⟩ := pure_ok.1 e4
    obtain ⟨k1, k2⟩ := rloop_peek_many (doWhile_sound run_sound bpeek_sound _ _ _ e1)
    exact ⟨m, k1, k2, e3⟩
  · intro ts e r h
    rcases bind_err.1 h with h | ⟨as, m, e1, h⟩
    · exact .inl (doWhile_err (fun _ _ _ => peek1_not_err) (peek1_keeps (by decide)) h)
    · rcases bind_err.1 h with h | ⟨_, m2, -, h⟩
      · obtain ⟨rfl, rfl⟩ := mustConsume1_err' h
        obtain ⟨k1, k2⟩ := rloop_peek_many (doWhile_sound run_sound bpeek_sound _ _ _ e1)
        exact .inr ⟨as, k1, k2, by simpa [late] using hw⟩
      · cases h

/-- `for { body; if at the closer or the end { break } }; closer`. -/
theorem via_doPeekEof (hb : Via D Fb Hb Rb body) (hD : Closed D) (hl : (.punctuator, l) ∈ Fb := by decide)
    (hw : [expected .punctuator [l]] ≠ enumWant := by decide) (hp : plainTok (tkn .punctuator l) = true := by decide) :
    Via D F Hb (fun ts as r => ∃ m, Many Rb ts as m ∧ as ≠ [] ∧ Pu l m r)
      (doWhile body (orP (peek1 .punctuator l) (peek0 .eof)) >>= fun as => mustConsume1 .punctuator l >>= fun _ => pure as) := by
  refine via_closed hb hD hl hp ?_ ?_
  · intro ts as r h
    obtain ⟨as', m, e1, e2⟩ := bind_ok.1 h
    obtain ⟨m2, e3, e4⟩ := (mustConsume1_bind (by decide)).1 e2
    obtain ⟨rfl, rfl⟩ := pure_ok.1 e4
    obtain ⟨k1, k2⟩ := rloop_peekEof_many (doWhile_sound run_sound bpeekEof_sound _ _ _ e1)
    exact ⟨m, k1, k2, e3⟩
  · intro ts e r h
    rcases bind_err.1 h with h | ⟨as, m, e1, h⟩
    · exact .inl (doWhile_err orP_peek_not_err (orP_keeps (by decide)) h)
    · rcases bind_err.1 h with h | ⟨_, m2, -, h⟩
      · obtain ⟨rfl, rfl⟩ := mustConsume1_err' h
        obtain ⟨k1, k2⟩ := rloop_peekEof_many (doWhile_sound run_sound bpeekEof_sound _ _ _ e1)
        exact .inr ⟨as, k1, k2, by simpa [late] using hw⟩
      · cases h

theorem sep_swap (hb : Via D Fb Hb Rb body) (hF : F ⊆ Fb) (hl : (.punctuator, l) ∉ F) {ts r : Toks} {as : List α} (h : SepBy (Run body) l ts as r) :
    ∃ c, ts = c ++ r ∧ ∀ r', (hd r' = hd r ∨ In F r') → SepBy Rb l (c ++ r') as r' := by
  induction h with
  | one h1 h2 =>
    obtain ⟨c, rfl, k⟩ := hb.ok _ _ _ h1
    refine ⟨c, rfl, fun r' hr => .one (k _ (hr.imp id (fun h => h.mono hF))) ?_⟩
    exact hr.elim (fun h => notNext_congr (by decide) h h2) (fun h => h.notNext (by decide) hl)
  | cons h1 h2 _ ih =>
    obtain ⟨c2, rfl, k2⟩ := ih
    obtain ⟨t, rfl, h3, h4⟩ := h2
    obtain ⟨c1, rfl, k1⟩ := hb.ok _ _ _ h1
    refine ⟨c1 ++ t :: c2, by simp, fun r' hr => ?_⟩
    rw [List.append_assoc]
    exact .cons (k1 _ (.inl rfl)) ⟨t, rfl, h3, h4⟩ (k2 _ hr)

theorem sep_not_err {k : TokenKind} {l : Bytes} (ts : Toks) (e : PErr) (r : Toks) : notP (skip1 k l) ts ≠ .err e r :=
  notP_not_err (fun _ _ _ => skip1_not_err) ts e r

/-- `for { body; if no separator { break } }`. -/
theorem via_sep (hb : Via D Fb Hb Rb body) (hD : Closed D) (hF : F ⊆ Fb := by decide) (hl : (.punctuator, l) ∉ F := by decide) :
    Via D F Hb (SepBy Rb l) (doWhile body (notP (skip1 .punctuator l))) := by
  have st : ∃ w a, Pl w ∧ ∀ r', In F r' → SepBy Rb l (w ++ r') [a] r' ∧ In Hb (w ++ r') := by
    obtain ⟨w, a, hw, k⟩ := hb.start
    exact ⟨w, a, hw, fun r' hr => ⟨.one (k r' (hr.mono hF)).1 (hr.notNext (by decide) hl), (k r' (hr.mono hF)).2⟩⟩
  constructor
  · intro ts as r h
    exact sep_swap hb hF hl (rloop_sep (doWhile_sound run_sound bsep_sound _ _ _ h))
  · intro ts e r h
    unfold doWhile at h
    revert h
    generalize ts.length + 1 = n
    intro h
    induction n generalizing ts with
    | zero => cases h
    | succ n ih =>
      rw [doWhileF] at h
      rcases bind_err.1 h with h | ⟨a, m, e1, h⟩
      · obtain ⟨c, rfl, k1, k2⟩ := hb.err _ _ _ h
        refine ⟨c, rfl, k1, k2.imp id (fun k2 => k2.imp id ?_)⟩
        rintro ⟨w, a, hw, k⟩
        exact ⟨w, [a], hw, fun r' hr => .one (k _ (hr.mono hF)) (hr.notNext (by decide) hl)⟩
      · rcases bind_err.1 h with h | ⟨b, m2, e2, h⟩
        · exact absurd h (sep_not_err _ _ _)
        cases b with
        | true => cases h
        | false =>
          rcases bind_err.1 h with h | ⟨as, m3, -, h⟩
          · obtain ⟨c2, rfl, k2, k3⟩ := ih _ h
            rcases (bsep_iff (by decide)).1 e2 with ⟨-, t, rfl, h3, h4⟩ | ⟨h, -⟩
            · obtain ⟨c1, rfl, k1⟩ := hb.ok _ _ _ e1
              refine ⟨c1 ++ t :: c2, by simp, by simp, ?_⟩
              have hbe : beforeE e (c1 ++ t :: c2) = c1 ++ t :: beforeE e c2 := by
                have := beforeE_append (c1 := c1 ++ [t]) k2
                simpa using this
              rw [hbe]
              rcases k3 with k3 | k3 | ⟨w, bs, hw, k3⟩
              · obtain ⟨w, b, hw, k4⟩ := st
                refine .inr (.inr ⟨w, [a, b], hw, fun r' hr => ?_⟩)
                rw [k3, List.append_assoc]
                exact .cons (k1 _ (.inl rfl)) ⟨t, rfl, h3, h4⟩ (k4 _ hr).1
              · refine .inr (.inl ?_)
                have := hD e (c1 ++ [t]) _ k3
                simpa using this
              · refine .inr (.inr ⟨w, a :: bs, hw, fun r' hr => ?_⟩)
                rw [List.append_assoc]
                exact .cons (k1 _ (.inl rfl)) ⟨t, rfl, h3, h4⟩ (k3 _ hr)
            · cases h
          · cases h
  · obtain ⟨w, a, hw, k⟩ := st
    exact ⟨w, [a], hw, k⟩

end

end GQL
