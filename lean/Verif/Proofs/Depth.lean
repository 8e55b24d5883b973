/-
Parsing with different room on the stack.
-/
import Verif.Spec.Depth
import Verif.Model.Parser

namespace GQL
open Spec

/-- Short for `NestedAtMost`. -/
abbrev Sh := NestedAtMost

theorem Sh.mono {k j : Nat} {ts : List Token} (h : Sh k ts) (hj : k ≤ j) : Sh j ts :=
  fun r s e => Nat.le_trans (h r s e) (by omega)

theorem Sh.tail {k : Nat} {t : Token} {ts : List Token} (h : Sh k (t :: ts)) (hc : ¬ Closes t) : Sh k ts := by
  intro r s e
  have := h (t :: r) s (by rw [e]; rfl)
  simp only [List.countP_cons] at this
  rw [if_neg (c := decide (Closes t) = true) (by simpa using hc)] at this
  omega

theorem Sh.close {k : Nat} {t : Token} {ts : List Token} (h : Sh k (t :: ts)) : Sh (k+1) ts := by
  intro r s e
  have := h (t :: r) s (by rw [e]; rfl)
  simp only [List.countP_cons] at this
  have h2 : (if decide (Closes t) = true then 1 else 0) ≤ 1 := by split <;> omega
  omega

theorem not_closes_of_opens {t : Token} (h : Opens t) : ¬ Closes t := by
  rintro ⟨-, h2⟩
  rcases h.2 with h | h <;> rcases h2 with h2 | h2 <;> rw [h] at h2 <;> revert h2 <;> decide

theorem Sh.open {k : Nat} {t : Token} {ts : List Token} (h : Sh k (t :: ts)) (ho : Opens t) : ∃ j, k = j + 1 ∧ Sh j ts := by
  have hc := not_closes_of_opens ho
  have key : ∀ r s, ts = r ++ s → r.countP (fun t => decide (Opens t)) + 1 ≤ r.countP (fun t => decide (Closes t)) + k := by
    intro r s e
    have := h (t :: r) s (by rw [e]; rfl)
    simp only [List.countP_cons] at this
    rw [if_neg (c := decide (Closes t) = true) (by simpa using hc), if_pos (c := decide (Opens t) = true) (by simpa using ho)] at this
    omega
  obtain _ | k := k
  · have := key [] ts rfl
    simp at this
  · exact ⟨k, rfl, fun r s e => by have := key r s e; omega⟩

/-- A way to check `NestedAtMost`. -/
def nestCheck : Nat → List Token → Bool
  | _, [] => true
  | k, t :: ts =>
    if Opens t then (match k with | 0 => false | k+1 => nestCheck k ts)
    else if Closes t then nestCheck (k+1) ts
    else nestCheck k ts

theorem nest_of_check {k : Nat} {ts : List Token} (h : nestCheck k ts = true) : Sh k ts := by
  induction ts generalizing k with
  | nil =>
    intro r s e
    cases List.append_eq_nil_iff.1 e.symm |>.1
    simp
  | cons t ts ih =>
    intro r s e
    cases r with
    | nil => simp
    | cons t' r =>
      rw [List.cons_append] at e
      cases (List.cons.inj e).1
      have e := (List.cons.inj e).2
      simp only [List.countP_cons]
      unfold nestCheck at h
      by_cases ho : Opens t
      · have hc := not_closes_of_opens ho
        rw [if_pos ho] at h
        obtain _ | k := k
        · cases h
        · have := ih h r s e
          simp only [decide_eq_true ho, decide_eq_false hc]
          simp
          omega
      · rw [if_neg ho] at h
        by_cases hc : Closes t
        · rw [if_pos hc] at h
          have := ih h r s e
          simp only [decide_eq_true hc, decide_eq_false ho]
          simp
          omega
        · rw [if_neg hc] at h
          have := ih h r s e
          simp only [decide_eq_false hc, decide_eq_false ho]
          simp
          omega

/-- The nesting depends on kinds and literals only. -/
theorem nest_same {k : Nat} {ts us : List Token} (he : us.map (fun t => (t.kind, t.lit)) = ts.map (fun t => (t.kind, t.lit))) (h : Sh k ts) : Sh k us := by
  have count : ∀ (Q : TokenKind × Bytes → Bool) {r r' : List Token}, r'.map (fun t => (t.kind, t.lit)) = r.map (fun t => (t.kind, t.lit)) →
      r'.countP (fun t => Q (t.kind, t.lit)) = r.countP (fun t => Q (t.kind, t.lit)) := by
    intro Q r r' e
    have := congrArg (List.countP Q) e
    rw [List.countP_map, List.countP_map] at this
    exact this
  intro r s e
  have h2 := h (ts.take r.length) (ts.drop r.length) (List.take_append_drop _ _).symm
  have e2 : r.map (fun t => (t.kind, t.lit)) = (ts.take r.length).map (fun t => (t.kind, t.lit)) := by
    rw [List.map_take, ← he, e, List.map_append, ← List.length_map (as := r) (f := fun t => (t.kind, t.lit)), List.take_left]
  have c1 := count (fun p => decide (p.1 = .punctuator ∧ (p.2 = b!"{" ∨ p.2 = b!"["))) e2
  have c2 := count (fun p => decide (p.1 = .punctuator ∧ (p.2 = b!"}" ∨ p.2 = b!"]"))) e2
  have d1 : r.countP (fun t => decide (Opens t)) = (ts.take r.length).countP (fun t => decide (Opens t)) := c1
  have d2 : r.countP (fun t => decide (Closes t)) = (ts.take r.length).countP (fun t => decide (Closes t)) := c2
  omega

/-- Two programs that give the same from all states with `pre`, and leave a state with `post`. -/
def T {α : Type} (pre : List Token → Prop) (p q : P α) (post : α → List Token → Prop) : Prop :=
  ∀ ts, pre ts → p ts = q ts ∧ ∀ a r, p ts = .ok a r → post a r

/-- The usual case: the nesting does not change. -/
abbrev K {α : Type} (k : Nat) (p q : P α) : Prop := T (Sh k) p q (fun _ => Sh k)

theorem t_bind {α β : Type} {pre} {p q : P α} {mid post} {f g : α → P β} (h : T pre p q mid) (hf : ∀ a, T (mid a) (f a) (g a) post) :
    T pre (p >>= f) (q >>= g) post := by
  intro ts hp
  obtain ⟨e, h2⟩ := h ts hp
  show P.bind p f ts = P.bind q g ts ∧ ∀ a r, P.bind p f ts = .ok a r → _
  unfold P.bind
  rw [← e]
  cases ep : p ts with
  | ok a r => dsimp only; exact hf a r (h2 a r ep)
  | err er r => exact ⟨rfl, fun _ _ h => by cases h⟩
  | panic => exact ⟨rfl, fun _ _ h => by cases h⟩
  | oof => exact ⟨rfl, fun _ _ h => by cases h⟩

theorem t_weak {α : Type} {pre pre' : List Token → Prop} {p q : P α} {post post' : α → List Token → Prop} (h : T pre p q post)
    (h1 : ∀ ts, pre' ts → pre ts) (h2 : ∀ a ts, post a ts → post' a ts) : T pre' p q post' :=
  fun ts hp => ⟨(h ts (h1 ts hp)).1, fun a r e => h2 a r ((h ts (h1 ts hp)).2 a r e)⟩

theorem t_pure {α : Type} {pre : List Token → Prop} {post : α → List Token → Prop} {a : α} (h : ∀ ts, pre ts → post a ts) :
    T pre (pure a : P α) (pure a) post :=
  fun ts hp => ⟨rfl, fun b r e => by cases e; exact h _ hp⟩

theorem t_ite {α : Type} {c : Prop} [Decidable c] {pre} {p q p' q' : P α} {post} (h1 : c → T pre p p' post) (h2 : ¬ c → T pre q q' post) :
    T pre (if c then p else q) (if c then p' else q') post := by
  by_cases h : c
  · rw [if_pos h, if_pos h]; exact h1 h
  · rw [if_neg h, if_neg h]; exact h2 h

theorem t_fail {α : Type} {pre} {e : PErr} {post : α → List Token → Prop} : T pre (fail e : P α) (fail e) post :=
  fun ts _ => ⟨rfl, fun _ _ h => by cases h⟩

theorem t_crash {α : Type} {pre} {post : α → List Token → Prop} : T pre (crash : P α) crash post :=
  fun ts _ => ⟨rfl, fun _ _ h => by cases h⟩

theorem t_unexpectedCur {α : Type} {pre} {w} {post : α → List Token → Prop} : T pre (unexpectedCur w : P α) (unexpectedCur w) post :=
  fun ts _ => ⟨rfl, fun _ _ h => by cases h⟩

theorem t_cur {pre} : T pre cur cur (fun _ => pre) :=
  fun ts hp => ⟨rfl, fun a r h => by cases h; exact hp⟩

/-- A token that is consumed. -/
theorem sh_tail {k : Nat} {ts : List Token} (h : Sh k ts) (hc : ¬ Closes (hd ts)) : Sh k ts.tail := by
  cases ts with
  | nil => exact h
  | cons t ts => exact h.tail hc

theorem not_closes_kind {t : Token} {k : TokenKind} (h : t.kind = k) (hk : k ≠ .punctuator) : ¬ Closes t := by
  rintro ⟨h2, -⟩; exact hk (h ▸ h2)

/-- Neither an opening nor a closing literal. -/
def plainLit (l : Bytes) : Prop := l ≠ b!"}" ∧ l ≠ b!"]"

instance (l : Bytes) : Decidable (plainLit l) := inferInstanceAs (Decidable (_ ∧ _))

theorem not_closes_lit {t : Token} {l : Bytes} (h : t.lit = l) (hl : plainLit l) : ¬ Closes t := by
  rintro ⟨-, h2 | h2⟩
  · exact hl.1 (h ▸ h2)
  · exact hl.2 (h ▸ h2)

theorem t_skip1_gen {pre : List Token → Prop} {k l} {post : Bool → List Token → Prop}
    (h1 : ∀ ts, pre ts → (hd ts).kind = k → (hd ts).lit = l → post true ts.tail) (h2 : ∀ ts, pre ts → post false ts) :
    T pre (skip1 k l) (skip1 k l) post := by
  intro ts hp
  refine ⟨rfl, fun a r e => ?_⟩
  by_cases hc : (hd ts).kind ≠ k ∨ (hd ts).lit ≠ l
  · have : skip1 k l ts = .ok false ts := by
      show (if (hd ts).kind ≠ k ∨ (hd ts).lit ≠ l then (pure false : P Bool) else _) ts = _
      rw [if_pos hc]; rfl
    rw [this] at e; cases e; exact h2 _ hp
  · have : skip1 k l ts = .ok true ts.tail := by
      show (if (hd ts).kind ≠ k ∨ (hd ts).lit ≠ l then (pure false : P Bool) else _) ts = _
      rw [if_neg hc]; rfl
    rw [this] at e; cases e
    have : (hd ts).kind = k ∧ (hd ts).lit = l := by
      constructor <;> exact Decidable.byContradiction (fun h => hc (by simp [h]))
    exact h1 _ hp this.1 this.2

theorem k_skip1 {n k l} (hl : plainLit l := by decide) : K n (skip1 k l) (skip1 k l) :=
  t_skip1_gen (fun _ hp _ h2 => sh_tail hp (not_closes_lit h2 hl)) (fun _ hp => hp)

/-- After an opening token the nesting is one less. -/
theorem t_open {n l} (hl : l = b!"{" ∨ l = b!"[" := by decide) : T (Sh n) (skip1 .punctuator l) (skip1 .punctuator l)
    (fun b ts => if b then ∃ j, n = j + 1 ∧ Sh j ts else Sh n ts) := by
  refine t_skip1_gen (fun ts hp h1 h2 => ?_) (fun _ hp => by simpa using hp)
  rw [if_pos rfl]
  cases ts with
  | nil => cases h1
  | cons t ts => exact hp.open ⟨h1, by rw [show t.lit = l from h2]; exact hl⟩

/-- After a closing token the nesting is one more. -/
theorem t_close {n k l} : T (Sh n) (skip1 k l) (skip1 k l) (fun b ts => if b then Sh (n+1) ts else Sh n ts) := by
  refine t_skip1_gen (fun ts hp h1 h2 => ?_) (fun _ hp => by simpa using hp)
  rw [if_pos rfl]
  cases ts with
  | nil => exact hp.mono (by omega)
  | cons t ts => exact hp.close

theorem k_mustConsume0 {n k} (hk : k ≠ .punctuator := by decide) : K n (mustConsume0 k) (mustConsume0 k) := by
  intro ts hp
  refine ⟨rfl, fun a r e => ?_⟩
  have e' : (if (hd ts).kind ≠ k then (fail (.unexpected (hd ts) [expected k []]) : P Token) else (do advance; return hd ts)) ts = .ok a r := e
  by_cases hc : (hd ts).kind ≠ k
  · rw [if_pos hc] at e'; cases e'
  · rw [if_neg hc] at e'
    have := (Res.ok.inj e').2
    subst this
    exact sh_tail hp (not_closes_kind (Decidable.not_not.1 hc) hk)

theorem k_mustConsume1 {n k l} (hl : plainLit l := by decide) : K n (mustConsume1 k l) (mustConsume1 k l) := by
  intro ts hp
  refine ⟨rfl, fun a r e => ?_⟩
  have e' : (if (hd ts).kind ≠ k ∨ (hd ts).lit ≠ l then (fail (.unexpected (hd ts) [expected k [l]]) : P Token) else (do advance; return hd ts)) ts = .ok a r := e
  by_cases hc : (hd ts).kind ≠ k ∨ (hd ts).lit ≠ l
  · rw [if_pos hc] at e'; cases e'
  · rw [if_neg hc] at e'
    have := (Res.ok.inj e').2
    subst this
    refine sh_tail hp (not_closes_lit (l := l) ?_ hl)
    exact Decidable.byContradiction (fun h => hc (.inr h))

theorem t_mustClose {n k l} : T (Sh n) (mustConsume1 k l) (mustConsume1 k l) (fun _ => Sh (n+1)) := by
  intro ts hp
  refine ⟨rfl, fun a r e => ?_⟩
  have e' : (if (hd ts).kind ≠ k ∨ (hd ts).lit ≠ l then (fail (.unexpected (hd ts) [expected k [l]]) : P Token) else (do advance; return hd ts)) ts = .ok a r := e
  by_cases hc : (hd ts).kind ≠ k ∨ (hd ts).lit ≠ l
  · rw [if_pos hc] at e'; cases e'
  · rw [if_neg hc] at e'
    have := (Res.ok.inj e').2
    subst this
    cases ts with
    | nil => exact hp.mono (by omega)
    | cons t ts => exact hp.close

theorem k_consume0 {n k} (hk : k ≠ .punctuator := by decide) : K n (consume0 k) (consume0 k) := by
  intro ts hp
  refine ⟨rfl, fun a r e => ?_⟩
  have e' : (if (hd ts).kind = k then (do advance; return some (hd ts)) else (pure none : P (Option Token))) ts = .ok a r := e
  by_cases hc : (hd ts).kind = k
  · rw [if_pos hc] at e'
    have := (Res.ok.inj e').2
    subst this
    exact sh_tail hp (not_closes_kind hc hk)
  · rw [if_neg hc] at e'; cases e'; exact hp

theorem k_consumen {n k ls} (hk : k ≠ .punctuator := by decide) : K n (consumen k ls) (consumen k ls) := by
  intro ts hp
  refine ⟨rfl, fun a r e => ?_⟩
  have e' : (if (hd ts).kind ≠ k then (pure none : P (Option Token)) else if ls.isEmpty then (do advance; return some (hd ts))
    else if ls.contains (hd ts).lit then (do advance; return some (hd ts)) else pure none) ts = .ok a r := e
  by_cases hc : (hd ts).kind ≠ k
  · rw [if_pos hc] at e'; cases e'; exact hp
  · rw [if_neg hc] at e'
    have hk' := not_closes_kind (Decidable.not_not.1 hc) hk
    split at e'
    · have := (Res.ok.inj e').2
      subst this; exact sh_tail hp hk'
    · split at e'
      · have := (Res.ok.inj e').2
        subst this; exact sh_tail hp hk'
      · cases e'; exact hp

theorem k_mustConsumen {n k ls} (hk : k ≠ .punctuator := by decide) : K n (mustConsumen k ls) (mustConsumen k ls) := by
  unfold mustConsumen
  refine t_bind t_cur fun t => t_bind (k_consumen hk) fun o => ?_
  cases o with
  | none => exact t_fail
  | some t => exact t_pure (fun _ h => h)

theorem t_peek0 {pre k} : T pre (peek0 k) (peek0 k) (fun _ => pre) := fun ts hp => ⟨rfl, fun a r h => by cases h; exact hp⟩
theorem t_peek1 {pre k l} : T pre (peek1 k l) (peek1 k l) (fun _ => pre) := fun ts hp => ⟨rfl, fun a r h => by cases h; exact hp⟩
theorem t_peekn {pre k ls} : T pre (peekn k ls) (peekn k ls) (fun _ => pre) := by
  unfold peekn
  exact t_bind t_cur fun t => t_ite (fun _ => t_pure fun _ h => h) fun _ => t_ite (fun _ => t_pure fun _ h => h) fun _ => t_pure fun _ h => h

theorem t_orP {pre p q} (h1 : T pre p p (fun _ => pre)) (h2 : T pre q q (fun _ => pre)) : T pre (orP p q) (orP p q) (fun _ => pre) := by
  unfold orP
  exact t_bind h1 fun b => t_ite (fun _ => t_pure fun _ h => h) fun _ => h2

theorem t_notP {pre p} {post : Bool → List Token → Prop} (h1 : T pre p p post) : T pre (notP p) (notP p) (fun b => post (!b)) := by
  unfold notP
  exact t_bind h1 fun b => t_pure fun _ h => by rw [Bool.not_not]; exact h

theorem t_doWhileF {α : Type} {pre : List Token → Prop} {body body' : P α} {brk : P Bool} {post : List Token → Prop} {n : Nat}
    (h1 : T pre body body' (fun _ => pre)) (h2 : T pre brk brk (fun b ts => if b then post ts else pre ts)) :
    T pre (doWhileF body brk n) (doWhileF body' brk n) (fun _ => post) := by
  induction n with
  | zero => exact fun ts _ => ⟨rfl, fun _ _ h => by cases h⟩
  | succ n ih =>
    unfold doWhileF
    refine t_bind h1 fun a => t_bind h2 fun b => ?_
    cases b with
    | true => exact t_pure fun _ h => h
    | false => exact t_bind (t_weak ih (fun ts h => by simpa using h) (fun _ _ h => h)) fun as => t_pure fun _ h => h

theorem t_doWhile {α : Type} {pre : List Token → Prop} {body body' : P α} {brk : P Bool} {post : List Token → Prop}
    (h1 : T pre body body' (fun _ => pre)) (h2 : T pre brk brk (fun b ts => if b then post ts else pre ts)) :
    T pre (doWhile body brk) (doWhile body' brk) (fun _ => post) :=
  fun ts hp => t_doWhileF h1 h2 ts hp

theorem t_untilDoF {α : Type} {pre : List Token → Prop} {body body' : P α} {brk : P Bool} {post : List Token → Prop} {n : Nat}
    (h1 : T pre body body' (fun _ => pre)) (h2 : T pre brk brk (fun b ts => if b then post ts else pre ts)) :
    T pre (untilDoF brk body n) (untilDoF brk body' n) (fun _ => post) := by
  induction n with
  | zero => exact fun ts _ => ⟨rfl, fun _ _ h => by cases h⟩
  | succ n ih =>
    unfold untilDoF
    refine t_bind h2 fun b => ?_
    cases b with
    | true => exact t_pure fun _ h => h
    | false =>
      exact t_weak (t_bind h1 fun a => t_bind ih fun as => t_pure fun _ h => h) (fun ts h => by simpa using h) (fun _ _ h => h)

theorem t_untilDo {α : Type} {pre : List Token → Prop} {body body' : P α} {brk : P Bool} {post : List Token → Prop}
    (h1 : T pre body body' (fun _ => pre)) (h2 : T pre brk brk (fun b ts => if b then post ts else pre ts)) :
    T pre (untilDo brk body) (untilDo brk body') (fun _ => post) :=
  fun ts hp => t_untilDoF h1 h2 ts hp

/-- A break condition that does not change the nesting. -/
theorem brk_same {pre : List Token → Prop} {p : P Bool} (h : T pre p p (fun _ => pre)) : T pre p p (fun b ts => if b then pre ts else pre ts) :=
  t_weak h (fun _ h => h) (fun b ts h => by cases b <;> exact h)

end GQL
