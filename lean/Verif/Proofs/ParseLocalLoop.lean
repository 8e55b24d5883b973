/-
Locality of loops, and the parser functions as branches on the current token.
-/
import Verif.Proofs.ParseLocalHead

namespace GQL
open Spec Spec.Syntax

/-! ### Fuel -/

theorem LocAtX.congr {α : Type} {φ : Token → Prop} {m : Nat} {p p1 q q1 : P α} {ts : Toks} (h : LocAtX φ m p1 q1 ts) (hp : p ts = p1 ts)
    (hq : ∀ ts', HasEnd ts' → ts'.length < m → q ts' = q1 ts') : LocAtX φ m p q ts := by
  constructor
  · intro a r e
    rw [hp] at e
    obtain ⟨c, h1, h2, h3, h4⟩ := h.ok a r e
    refine ⟨c, h1, h2, ?_, ?_⟩
    · intro r' hr hl hh; rw [hq _ (hasEnd_append hr) hl]; exact h3 r' hr hl hh
    · intro t' y ht hy hl
      have e := hq _ (hasEnd_append hy) hl
      rcases h4 t' y ht hy hl with h | h
      · exact .inl (went_congr e h)
      · exact .inr (e.trans h)
  · intro er r e
    rw [hp] at e
    obtain ⟨c, s, h1, h2, h3, h4, h5⟩ := h.err er r e
    refine ⟨c, s, h1, h2, h3, ?_, ?_⟩
    · intro ts' ht hl hs; rw [hq _ ht hl]; exact h4 ts' ht hl hs
    · intro s0 t es t' hw hd hn y hy hl
      exact went_congr (hq _ (hasEnd_append hy) hl) (h5 s0 t es t' hw hd hn y hy hl)

theorem shr_ok {α : Type} {p : P α} (h : Shr p) {ts r : Toks} {a : α} (e : p ts = .ok a r) : r.length ≤ ts.length := by
  have := h ts; rw [e] at this; exact this

theorem bind_congr' {α β : Type} {p : P α} {f g : α → P β} {ts : Toks} (h : ∀ a r, p ts = .ok a r → f a r = g a r) : (p >>= f) ts = (p >>= g) ts := by
  show P.bind p f ts = P.bind p g ts
  unfold P.bind
  cases e : p ts with
  | ok a r => exact h a r e
  | err => rfl
  | panic => rfl
  | oof => rfl

theorem bind_congr_left {α β : Type} {p q : P α} {f : α → P β} {ts : Toks} (h : p ts = q ts) : (p >>= f) ts = (q >>= f) ts := by
  show P.bind p f ts = P.bind q f ts
  unfold P.bind; rw [h]

theorem doWhileF_fuel {α : Type} {body : P α} {brk : P Bool} (hp : Progress body) (hs : Shr brk) : ∀ (k k' : Nat) (ts : Toks), ts.length < k →
    ts.length < k' → doWhileF body brk k ts = doWhileF body brk k' ts := by
  intro k
  induction k with
  | zero => intro k' ts h; omega
  | succ k ih =>
    intro k' ts h h'
    cases k' with
    | zero => omega
    | succ k' =>
      refine bind_congr' (fun a r e => bind_congr' (fun b r2 e2 => ?_))
      have h1 := hp _ _ _ e
      have h2 := shr_ok hs e2
      cases b with
      | true => rfl
      | false => exact bind_congr_left (ih k' r2 (by omega) (by omega))

theorem untilDoF_fuel {α : Type} {body : P α} {brk : P Bool} (hp : Progress body) (hs : Shr brk) : ∀ (k k' : Nat) (ts : Toks), ts.length < k →
    ts.length < k' → untilDoF brk body k ts = untilDoF brk body k' ts := by
  intro k
  induction k with
  | zero => intro k' ts h; omega
  | succ k ih =>
    intro k' ts h h'
    cases k' with
    | zero => omega
    | succ k' =>
      refine bind_congr' (fun b r e => ?_)
      have h2 := shr_ok hs e
      cases b with
      | true => rfl
      | false =>
        refine bind_congr' (fun a r2 e2 => ?_)
        have h1 := hp _ _ _ e2
        exact bind_congr_left (ih k' r2 (by omega) (by omega))

theorem locX_doWhile {α β : Type} {φ : Token → Prop} {m : Nat} {body body' : P α} {brk brk' : P Bool} {F F' : List α → P β} (hp : Progress body')
    (s2 : Shr brk') {ts : Toks} (h : ∀ k, LocAtX φ m (doWhileF body brk k >>= F) (doWhileF body' brk' m >>= F') ts) :
    LocAtX φ m (doWhile body brk >>= F) (doWhile body' brk' >>= F') ts :=
  (h (ts.length + 1)).congr (bind_congr_left rfl) (fun ts' _ hl => bind_congr_left (doWhileF_fuel hp s2 _ _ ts' (Nat.lt_succ_self _) hl))

theorem locX_doWhile1 {α : Type} {φ : Token → Prop} {m : Nat} {body body' : P α} {brk brk' : P Bool} (hp : Progress body')
    (s2 : Shr brk') {ts : Toks} (h : ∀ k, LocAtX φ m (doWhileF body brk k) (doWhileF body' brk' m) ts) :
    LocAtX φ m (doWhile body brk) (doWhile body' brk') ts :=
  (h (ts.length + 1)).congr rfl (fun ts' _ hl => doWhileF_fuel hp s2 _ _ ts' (Nat.lt_succ_self _) hl)

theorem locX_untilDo1 {α : Type} {φ : Token → Prop} {m : Nat} {body body' : P α} {brk brk' : P Bool} (hp : Progress body')
    (s2 : Shr brk') {ts : Toks} (h : ∀ k, LocAtX φ m (untilDoF brk body k) (untilDoF brk' body' m) ts) :
    LocAtX φ m (untilDo brk body) (untilDo brk' body') ts :=
  (h (ts.length + 1)).congr rfl (fun ts' _ hl => untilDoF_fuel hp s2 _ _ ts' (Nat.lt_succ_self _) hl)

theorem loc_doWhile {α : Type} {m : Nat} {body body' : P α} {brk brk' : P Bool} (h1 : Loc m body body') (h2 : Loc m brk brk') (hp : Progress body)
    (hp' : Progress body') (s1 : Shr body') (s2 : Shr brk') : Loc m (doWhile body brk) (doWhile body' brk') := fun ts ht =>
  locX_doWhile1 hp' s2 (fun k => loc_doWhileF h1 h2 hp s1 s2 k m (Nat.le_refl _) ts ht)

theorem loc_untilDoF {α : Type} {m : Nat} {body body' : P α} {brk brk' : P Bool} (h1 : Loc m body body') (h2 : Loc m brk brk') (hp : Progress body)
    (s1 : Shr body') (s2 : Shr brk') (k : Nat) : ∀ k', k' ≤ m → Loc k' (untilDoF brk body k) (untilDoF brk' body' k') := by
  induction k with
  | zero => intro _ _; exact loc_oof
  | succ k ih =>
    have key : ∀ k', k' ≤ m → Loc k' (untilDoF brk body (k + 1)) (untilDoF brk' body' (k' + 1)) := by
      intro k' hk
      refine loc_bind (h2.mono hk) (fun _ => by have := shr_untilDoF s1 s2 k'; shr) (fun a => ?_)
      refine loc_ite (fun _ => loc_pure _) (fun _ => ?_)
      refine loc_bind (h1.mono hk) (fun _ => by have := shr_untilDoF s1 s2 k'; shr) (fun b => ?_)
      exact loc_bind (ih k' hk) (fun _ => shr_pure _) (fun _ => loc_pure _)
    intro k' hk
    cases k' with
    | zero => exact (key 0 hk).zero
    | succ k' =>
      refine loc_bind (h2.mono hk) (fun _ => by have := shr_untilDoF s1 s2 k'; shr) (fun a => ?_)
      refine loc_ite (fun _ => loc_pure _) (fun _ => ?_)
      refine loc_bindP (h1.mono hk) hp (fun _ => by have := shr_untilDoF s1 s2 k'; shr) (fun b => ?_)
      exact loc_bind (ih k' (by omega)) (fun _ => shr_pure _) (fun _ => loc_pure _)

theorem loc_untilDo {α : Type} {m : Nat} {body body' : P α} {brk brk' : P Bool} (h1 : Loc m body body') (h2 : Loc m brk brk') (hp : Progress body)
    (hp' : Progress body') (s1 : Shr body') (s2 : Shr brk') : Loc m (untilDo brk body) (untilDo brk' body') := fun ts ht =>
  locX_untilDo1 hp' s2 (fun k => loc_untilDoF h1 h2 hp s1 s2 k m (Nat.le_refl _) ts ht)

/-- The loop over what begins with a token in `φ`. -/
theorem untilPeek_branch {α : Type} {body : P α} {brk : P Bool} {φ : Token → Bool} (h : Peeks brk φ) (k : Nat) :
    untilDoF (notP brk) body (k + 1) = branch φ (body >>= fun a => untilDoF (notP brk) body k >>= fun as => pure (a :: as)) (pure []) := by
  funext ts
  show (notP brk >>= _) ts = _
  rw [bind_eq (h.notP ts)]
  unfold branch
  cases e : φ (hd ts) <;> simp only [e] <;> rfl

theorem loc_untilPeekF {α : Type} {m : Nat} {body body' : P α} {brk : P Bool} {φ : Token → Bool} (h : Peeks brk φ) (h1 : Loc m body body')
    (e1 : HeadEats φ body) (e2 : HeadEats φ body') (hp : Progress body)
    (s0 : Shr body) (s1 : Shr body') (s2 : Shr brk) (k : Nat) :
    ∀ k', k' ≤ m → Loc k' (untilDoF (notP brk) body k) (untilDoF (notP brk) body' k') := by
  induction k with
  | zero => intro _ _; exact loc_oof
  | succ k ih =>
    have sh : ∀ k' (a : α), Shr (untilDoF (notP brk) body' k' >>= fun as => pure (a :: as)) := fun k' a => by
      have := shr_untilDoF s1 (shr_notP s2) k'
      shr
    have sh0 : ∀ (a : α), Shr (untilDoF (notP brk) body k >>= fun as => pure (a :: as)) := fun a => by
      have := shr_untilDoF s0 (shr_notP s2) k
      shr
    have key : ∀ k', k' ≤ m → Loc k' (untilDoF (notP brk) body (k + 1)) (untilDoF (notP brk) body' (k' + 1)) := by
      intro k' hk
      rw [untilPeek_branch h, untilPeek_branch h]
      exact loc_branch (loc_bind (h1.mono hk) (fun a => sh k' a) (fun a => loc_bind (ih k' hk) (fun _ => shr_pure _) (fun _ => loc_pure _)))
        (loc_pure _) (headEats_bind e1 sh0) (headEats_bind e2 (sh k'))
    intro k' hk
    cases k' with
    | zero => exact (key 0 hk).zero
    | succ k' =>
      rw [untilPeek_branch h, untilPeek_branch h]
      exact loc_branch (loc_bindP (h1.mono hk) hp (fun a => sh k' a) (fun a => loc_bind (ih k' (by omega)) (fun _ => shr_pure _) (fun _ => loc_pure _)))
        (loc_pure _) (headEats_bind e1 sh0) (headEats_bind e2 (sh k'))

theorem loc_untilPeek {α : Type} {m : Nat} {body body' : P α} {brk : P Bool} {φ : Token → Bool} (h : Peeks brk φ) (h1 : Loc m body body')
    (e1 : HeadEats φ body) (e2 : HeadEats φ body') (hp : Progress body) (hp' : Progress body')
    (s0 : Shr body) (s1 : Shr body') (s2 : Shr brk) : Loc m (untilDo (notP brk) body) (untilDo (notP brk) body') := fun ts ht =>
  locX_untilDo1 hp' (shr_notP s2) (fun k => loc_untilPeekF h h1 e1 e2 hp s0 s1 s2 k m (Nat.le_refl _) ts ht)

/-! ### Loops that end before a token that must follow -/

theorem doWhilePeek_branch {α β : Type} {body : P α} {brk : P Bool} {φ : Token → Bool} (h : Peeks brk φ) (k : Nat) (F : List α → P β) :
    (doWhileF body brk (k + 1) >>= F) = body >>= fun a => branch φ (F [a]) (doWhileF body brk k >>= fun as => F (a :: as)) := by
  rw [doWhileF, bind_assoc']
  congr 1
  funext a ts
  rw [bind_assoc', bind_eq (h ts)]
  unfold branch
  by_cases hφ : φ (hd ts) = true
  · rw [if_pos hφ, hφ]; rfl
  · have : φ (hd ts) = false := by simpa using hφ
    rw [if_neg hφ, this]
    show ((doWhileF body brk k >>= fun as => pure (a :: as)) >>= F) ts = _
    rw [bind_assoc']; rfl

/-- The closing token. -/
def close {β : Type} (l : Bytes) (b : β) : P β := mustConsume1 .punctuator l >>= fun _ => pure b

theorem shr_close {β : Type} {l : Bytes} {b : β} : Shr (close l b) := shr_bind shr_mustConsume1 fun _ => shr_pure _
theorem loc_close {β : Type} {l : Bytes} {b : β} {m : Nat} : Loc m (close l b) (close l b) := loc_bind loc_mustPu (fun _ => shr_pure _) (fun _ => loc_pure _)
theorem headEats_close {β : Type} {l : Bytes} {b : β} : HeadEats (isTok .punctuator l) (close l b) := headEats_bind headEats_mustConsume1 (fun _ => shr_pure _)

/-- The end of the input. -/
def isEof (t : Token) : Bool := t.kind == .eof

/-- At the end of the input the closing token is missing. -/
theorem locX_eof {β : Type} {χ : Token → Prop} {m : Nat} {l : Bytes} {b : β} {Y Y' : P β} {ts : Toks} (ht : HasEnd ts)
    (hY : LocAtX (fun t => isTok .punctuator l t = true ∨ χ t) m Y Y' ts) :
    LocAtX (fun t => isTok .punctuator l t = true ∨ χ t) m (branch isEof (close l b) Y) (branch isEof (close l b) Y') ts := by
  obtain ⟨t, ts0, rfl⟩ : ∃ t ts0, ts = t :: ts0 := by
    cases ts with
    | nil => exact absurd rfl ht.ne_nil
    | cons t ts0 => exact ⟨t, ts0, rfl⟩
  by_cases he : isEof t = true
  · have hk : t.kind = .eof := by simpa [isEof] using he
    have e : ∀ z, branch isEof (close l b) Y (t :: z) = .err (.unexpected t [expected .punctuator [l]]) (t :: z) := fun z => by
      rw [branch_pos (show isEof (hd (t :: z)) = true from he)]
      refine bind_err_eq ?_
      rw [mustConsume1_must]
      exact if_neg (fun h => by have := h.1; rw [hd_cons, hk] at this; cases this)
    have e' : ∀ z, branch isEof (close l b) Y' (t :: z) = .err (.unexpected t [expected .punctuator [l]]) (t :: z) := fun z => by
      rw [branch_pos (show isEof (hd (t :: z)) = true from he)]
      refine bind_err_eq ?_
      rw [mustConsume1_must]
      exact if_neg (fun h => by have := h.1; rw [hd_cons, hk] at this; cases this)
    constructor
    · intro a r h; rw [e] at h; cases h
    · intro er r h
      rw [e] at h; cases h
      refine ⟨[], [t], rfl, eaten_nil, .inl ⟨rfl, by simp, rfl, punct_ne_enum l⟩, ?_, ?_⟩
      · rintro ts' _ _ ⟨z, rfl⟩; exact ⟨_, e' z⟩
      · rintro s0 t0 es t' ⟨x, hx, hw⟩ _ hn y _ _
        have : s0 = [] := by
          cases s0 with
          | nil => rfl
          | cons u us => simp at es
        rw [List.mem_singleton] at hx; subst hx
        exact absurd (.inl (isTok_iff.2 (wanted_one hw))) (hn this)
  · have tn : ∀ t', Tn t' → ¬ isEof t' = true := fun t' h => by simp [isEof, h.1]
    constructor
    · intro a r h
      rw [branch_neg (show ¬ isEof (hd (t :: ts0)) = true from he)] at h
      obtain ⟨c, e, hc, l1, x⟩ := hY.ok a r h
      refine ⟨c, e, hc, ?_, ?_⟩
      · intro r' hr hl hh
        refine (branch_neg ?_).trans (l1 r' hr hl hh)
        cases c with
        | nil =>
          simp only [List.nil_append] at e ⊢
          rw [hh, ← e]; exact he
        | cons u c => cases e; exact he
      · intro t' y htn hy hl
        have eq : branch isEof (close l b) Y' (c ++ t' :: y) = Y' (c ++ t' :: y) := by
          refine branch_neg ?_
          cases c with
          | nil => exact tn t' htn
          | cons u c => cases e; exact he
        rcases x t' y htn hy hl with h | h
        · exact .inl (went_congr eq h)
        · exact .inr (eq.trans h)
    · intro er r h
      rw [branch_neg (show ¬ isEof (hd (t :: ts0)) = true from he)] at h
      obtain ⟨c, s, e, hc, hs, l1, x⟩ := hY.err er r h
      have hp : s <+: t :: ts0 := e ▸ hs.prefix
      refine ⟨c, s, e, hc, hs, ?_, ?_⟩
      · intro ts' ht' hl hp'
        obtain ⟨r', h'⟩ := l1 ts' ht' hl hp'
        refine ⟨r', (branch_neg ?_).trans h'⟩
        rw [hd_of_prefix hs.ne_nil hp hp']; exact he
      · intro s0 t0 es t' hw hD hn y hy hl
        refine went_congr (branch_neg ?_) (x s0 t0 es t' hw hD hn y hy hl)
        cases s0 with
        | nil => exact tn t' (asked_tn hw)
        | cons u s0 =>
          obtain ⟨z, hz⟩ := hp
          rw [es] at hz; cases hz; exact he

theorem branch_or {α : Type} (φ ψ : Token → Bool) (A B : P α) : branch (fun t => φ t || ψ t) A B = branch φ A (branch ψ A B) := by
  funext ts
  unfold branch
  cases e : φ (hd ts) <;> cases e2 : ψ (hd ts) <;> simp [e, e2]

/-- Both kinds of conditions for leaving the loop. -/
def Leaves (l : Bytes) (brk : P Bool) : Prop := Peeks brk (isTok .punctuator l) ∨ Peeks brk (fun t => isTok .punctuator l t || isEof t)

theorem leaves_peek {l : Bytes} : Leaves l (peek1 .punctuator l) := .inl peeks_peek1
theorem leaves_or {l : Bytes} : Leaves l (orP (peek1 .punctuator l) (peek0 .eof)) := .inr (peeks_peek1.orP peeks_peek0)

theorem loc_doClose {α β : Type} {m : Nat} {l : Bytes} {brk : P Bool} (hb : Leaves l brk) (sb : Shr brk) {body body' : P α} (h1 : Loc m body body') (hp : Progress body)
    (s1 : Shr body') (k : Nat) : ∀ (h : List α → β) k', k' ≤ m →
      Loc k' (doWhileF body brk k >>= fun as => close l (h as)) (doWhileF body' brk k' >>= fun as => close l (h as)) := by
  induction k with
  | zero => intro h k' hk ts ht; exact loc_never (fun _ => .inr rfl) ts ht
  | succ k ih =>
    have tail : ∀ (h : List α → β) (a : α) k' j, k' ≤ j → j ≤ m →
        (∀ h : List α → β, Loc k' (doWhileF body brk k >>= fun as => close l (h as)) (doWhileF body' brk j >>= fun as => close l (h as))) → ∀ φ, Peeks brk φ →
        Loc k' (branch φ (close l (h [a])) (doWhileF body brk k >>= fun as => close l (h (a :: as))))
          (branch φ (close l (h [a])) (doWhileF body' brk j >>= fun as => close l (h (a :: as)))) := by
      intro h a k' j _ _ hL φ hφ
      rcases hb with hb | hb
      · have : φ = isTok .punctuator l := by
          funext t
          have h1 := hb [t]; rw [hφ [t]] at h1
          exact (Res.ok.inj h1).1
        subst this
        exact loc_branch loc_close (hL (fun as => h (a :: as))) headEats_close headEats_close
      · have : φ = fun t => isTok .punctuator l t || isEof t := by
          funext t
          have h1 := hb [t]; rw [hφ [t]] at h1
          exact (Res.ok.inj h1).1
        subst this
        rw [branch_or, branch_or]
        intro ts ht
        exact locX_branch (fun _ => loc_close ts ht) (fun _ => locX_eof ht ((hL (fun as => h (a :: as)) ts ht).weaken)) headEats_close headEats_close ht
    obtain ⟨φ, hφ⟩ : ∃ φ, Peeks brk φ := by rcases hb with h | h <;> exact ⟨_, h⟩
    have sh : ∀ (h : List α → β) j (a : α), Shr (branch φ (close l (h [a])) (doWhileF body' brk j >>= fun as => close l (h (a :: as)))) := fun h j a =>
      shr_branch shr_close (shr_bind (shr_doWhileF s1 sb j) (fun _ => shr_close))
    have key : ∀ (h : List α → β) k', k' ≤ m → Loc k' (doWhileF body brk (k + 1) >>= fun as => close l (h as))
        (doWhileF body' brk (k' + 1) >>= fun as => close l (h as)) := by
      intro h k' hk
      rw [doWhilePeek_branch hφ, doWhilePeek_branch hφ]
      exact loc_bind (h1.mono hk) (sh h k') (fun a => tail h a k' k' (Nat.le_refl _) hk (fun h => ih h k' hk) φ hφ)
    intro h k' hk
    cases k' with
    | zero => exact (key h 0 hk).zero
    | succ k' =>
      rw [doWhilePeek_branch hφ, doWhilePeek_branch hφ]
      exact loc_bindP (h1.mono hk) hp (sh h k') (fun a => tail h a k' k' (Nat.le_refl _) (by omega) (fun h => ih h k' (by omega)) φ hφ)

theorem loc_closed {α : Type} {m : Nat} {l : Bytes} {brk : P Bool} (hb : Leaves l brk) (sb : Shr brk) {body body' : P α} (h1 : Loc m body body')
    (hp : Progress body) (hp' : Progress body')
    (s1 : Shr body') : Loc m (doWhile body brk >>= fun as => mustConsume1 .punctuator l >>= fun _ => pure as)
      (doWhile body' brk >>= fun as => mustConsume1 .punctuator l >>= fun _ => pure as) := fun ts ht =>
  locX_doWhile hp' sb (fun k => loc_doClose hb sb h1 hp s1 k (fun as => as) m (Nat.le_refl _) ts ht)

/-! ### Taking the current token -/

/-- Takes the token. -/
def took : P Token := fun ts => .ok (hd ts) ts.tail

theorem shr_took : Shr took := fun ts => by show ts.tail.length ≤ ts.length; simp

theorem locAt_took {m : Nat} {ts : Toks} (ht : HasEnd ts) (h : Tn (hd ts)) : LocAt m took took ts := by
  cases ts with
  | nil => exact absurd rfl ht.ne_nil
  | cons t r0 =>
    constructor
    · intro a r e
      cases e
      refine ⟨[t], rfl, ?_, fun r' _ _ _ => rfl, fun t' y _ _ _ => .inr rfl⟩
      intro u hu; rw [List.mem_singleton] at hu; subst hu; exact h
    · intro er r e; cases e

theorem locAt_took_bind {β : Type} {m : Nat} {f g : Token → P β} {ts : Toks} (ht : HasEnd ts) (h : Tn (hd ts)) (hs : ∀ t, Shr (g t))
    (hL : Loc m (f (hd ts)) (g (hd ts))) : LocAt (m + 1) (took >>= f) (took >>= g) ts := by
  refine locAt_bind (locAt_took ht h) hs (fun a r e => ?_)
  cases ts with
  | nil => exact absurd rfl ht.ne_nil
  | cons t r0 =>
    cases e
    exact ⟨m, by simp, hL r0 (HasEnd.drop_eaten (c := [t]) ht (fun u hu => by rw [List.mem_singleton] at hu; subst hu; exact h))⟩

theorem headEats_took {β : Type} {φ : Token → Bool} {g : Token → P β} (hs : ∀ t, Shr (g t)) : HeadEats φ (took >>= g) := fun t r _ =>
  went_bind (went_ok (a := t) (r := r) rfl (by simp)) hs

/-- Takes the token and fails with it or not. -/
theorem locAt_took_fail {α : Type} {m : Nat} {F : Token → P α} {E : PErr} {ts : Toks} (ht : HasEnd ts) (h : Tn (hd ts)) (hF : F (hd ts) = fail E)
    (hE : AtLast (hd ts) E) : LocAt m (took >>= F) (took >>= F) ts := by
  cases ts with
  | nil => exact absurd rfl ht.ne_nil
  | cons t r0 =>
    have ev : ∀ z, (took >>= F) (t :: z) = .err E z := fun z => by
      rw [bind_eq (show took (t :: z) = .ok t z from rfl)]
      rw [hd_cons] at hF; rw [hF]; rfl
    constructor
    · intro a r e; rw [ev] at e; cases e
    · intro er r e
      rw [ev] at e; cases e
      refine ⟨[t], [t], rfl, ?_, .inr ⟨rfl, [], t, rfl, hE⟩, ?_, ?_⟩
      · intro u hu; rw [List.mem_singleton] at hu; subst hu; exact h
      · rintro ts' _ _ ⟨z, rfl⟩; exact ⟨z, ev z⟩
      · intro s0 t0 es t' hw _ _ y _ _
        exfalso
        rw [hd_cons] at hE
        cases E with
        | unexpected t1 w =>
          obtain ⟨x, hx, hw⟩ := hw
          rw [hE.2.2.2, enumWant, List.mem_singleton] at hx
          subst hx
          exact not_wanted_enum hw
        | atoi => exact hw
        | parseFloat => exact hw
        | todo => exact hE

theorem skip_took {α : Type} (k : TokenKind) (l : Bytes) (A B : P α) (hk : k ≠ .eof := by decide) :
    (skip1 k l >>= fun b => if b = true then A else B) = branch (isTok k l) (took >>= fun _ => A) B := by
  funext ts
  by_cases h : isTok k l (hd ts) = true
  · rw [branch_pos h]
    have h' := isTok_iff.1 h
    cases ts with
    | nil => exact absurd h'.1.symm hk
    | cons t r => rw [bind_eq (skip1_true ⟨t, rfl, h'.1, h'.2⟩ hk), if_pos rfl]; rfl
  · rw [branch_neg h]
    have h' := fun e => h (isTok_iff.2 e)
    rw [bind_eq (skip1_false ((notNext1_iff hk).2 h') hk), if_neg (by decide)]

/-- The kind of the token. -/
def isKind (k : TokenKind) (t : Token) : Bool := t.kind == k

theorem isKind_iff {k : TokenKind} {t : Token} : isKind k t = true ↔ t.kind = k := by simp [isKind]

theorem consume0_took {α : Type} (k : TokenKind) (G : Option Token → P α) (hk : k ≠ .eof := by decide) :
    (consume0 k >>= G) = branch (isKind k) (took >>= fun t => G (some t)) (G none) := by
  funext ts
  by_cases h : isKind k (hd ts) = true
  · rw [branch_pos h]
    have h' := isKind_iff.1 h
    cases ts with
    | nil => exact absurd h'.symm hk
    | cons t r => rw [bind_eq (consume0_some (t := t) (ts := r) h' hk)]; rfl
  · rw [branch_neg h]
    have h' := fun e => h (isKind_iff.2 e)
    rw [bind_eq (consume0_none ((notKind_iff hk).2 h') hk)]

end GQL
