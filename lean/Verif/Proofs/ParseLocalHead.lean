/-
Locality of the functions that look at the current token, and of loops.
-/
import Verif.Proofs.ParseLocal

namespace GQL
open Spec Spec.Syntax

/-! ### What is wanted -/

theorem expected_name (ls : List Bytes) : expected .name ls = b!"Name '" ++ (b!"|").intercalate ls ++ b!"'" := rfl
theorem expected_punct (ls : List Bytes) : expected .punctuator ls = b!"Punctuator '" ++ (b!"|").intercalate ls ++ b!"'" := rfl

theorem wanted_name {inner : Bytes} {t : Token} (h : Wanted (b!"Name '" ++ inner ++ b!"'") t) :
    t.kind = .name ∧ IsName t.lit ∧ (inner = [] ∨ t.lit ∈ bars inner) := by
  rcases h with ⟨i, e, h1, h2, h3⟩ | ⟨i, e, -⟩
  · rw [List.append_assoc, List.append_assoc] at e
    have e := List.append_cancel_left e
    have e := (List.append_inj' e rfl).1
    subst e
    exact ⟨h1, h2, h3⟩
  · rw [List.append_assoc, List.append_assoc] at e
    cases e

theorem wanted_punct {inner : Bytes} {t : Token} (h : Wanted (b!"Punctuator '" ++ inner ++ b!"'") t) :
    t.kind = .punctuator ∧ t.lit = inner := by
  rcases h with ⟨i, e, -⟩ | ⟨i, e, h1, h2⟩
  · rw [List.append_assoc, List.append_assoc] at e
    cases e
  · rw [List.append_assoc, List.append_assoc] at e
    have e := List.append_cancel_left e
    have e := (List.append_inj' e rfl).1
    subst e
    exact ⟨h1, h2⟩

theorem wanted_anyName {t : Token} (h : Wanted (expected .name []) t) : t.kind = .name := (wanted_name h).1

theorem wanted_names {ls : List Bytes} {t : Token} (h : Wanted (expected .name ls) t) (hb : bars ((b!"|").intercalate ls) = ls)
    (hn : (b!"|").intercalate ls ≠ []) : t.kind = .name ∧ t.lit ∈ ls := by
  obtain ⟨h1, -, h2 | h2⟩ := wanted_name h
  · exact absurd h2 hn
  · exact ⟨h1, hb ▸ h2⟩

theorem wanted_one {l : Bytes} {t : Token} (h : Wanted (expected .punctuator [l]) t) : t.kind = .punctuator ∧ t.lit = l := by
  have := wanted_punct h
  simpa [List.intercalate] using this

theorem not_wanted {l : Bytes} {t : Token} (h : Wanted (expected .name [l]) t) (hb : bars l = [l]) (hn : l ≠ []) (hi : ¬ IsName l) : False := by
  have e : (b!"|").intercalate [l] = l := by simp [List.intercalate]
  have := (wanted_name h).2
  rw [e] at this
  rcases this with ⟨h1, h2 | h2⟩
  · exact hn h2
  · rw [hb, List.mem_singleton] at h2
    exact hi (h2 ▸ h1)

theorem not_wanted_namedType {t : Token} (h : Wanted b!"NamedType" t) : False := by
  rcases h with ⟨i, e, -⟩ | ⟨i, e, -⟩
  · rw [List.append_assoc] at e; cases e
  · rw [List.append_assoc] at e; cases e

theorem not_wanted_on {t : Token} (h : Wanted (expected .name [b!"!on"]) t) : False :=
  not_wanted h (by decide) (by decide) (fun h => by have := h.1; omega)

theorem not_wanted_enum {t : Token} (h : Wanted (expected .name [b!"valid enum value"]) t) : False :=
  not_wanted h (by decide) (by decide) (by
    intro h
    have := h.2 32 (by decide)
    omega)

/-! ### Functions of the current token -/

/-- What to do with a token. -/
inductive Deed (α : Type) where
  | take (a : α)
  | keep (a : α)
  | refuse (e : PErr)

def Deed.run {α : Type} (d : Deed α) (t : Token) (r : Toks) : Res α :=
  match d with
  | .take a => .ok a r
  | .keep a => .ok a (t :: r)
  | .refuse e => .err e (t :: r)

theorem loc_head {α : Type} {m : Nat} {q : P α} (F : Token → Deed α) (hq : ∀ t r, q (t :: r) = (F t).run t r)
    (ht : ∀ t a, F t = .take a → t.kind ≠ .eof ∧ t.kind ≠ .illegal)
    (hk : ∀ t a, F t = .keep a → ∀ t', Tn t' → (∃ b, F t' = .take b) ∨ F t' = .keep a)
    (hr : ∀ t e, F t = .refuse e → AtCur t e ∧ ∀ t', Asked e t' → ∃ b, F t' = .take b) :
    Loc m q q := by
  intro ts hts
  cases ts with
  | nil => exact absurd rfl hts.ne_nil
  | cons t r0 =>
    cases hF : F t with
    | take a =>
      have e : q (t :: r0) = .ok a r0 := by rw [hq, hF]; rfl
      constructor
      · intro b r hb
        rw [e] at hb; cases hb
        refine ⟨[t], rfl, ?_, ?_, ?_⟩
        · intro u hu; rw [List.mem_singleton] at hu; subst hu; exact ht _ _ hF
        · intro r' _ _ _; show q (t :: r') = _; rw [hq, hF]; rfl
        · intro t' y _ _ _; right; show q (t :: t' :: y) = _; rw [hq, hF]; rfl
      · intro er r hb; rw [e] at hb; cases hb
    | keep a =>
      have e : q (t :: r0) = .ok a (t :: r0) := by rw [hq, hF]; rfl
      constructor
      · intro b r hb
        rw [e] at hb; cases hb
        refine ⟨[], rfl, eaten_nil, ?_, ?_⟩
        · intro r' hr' _ hh
          cases r' with
          | nil => exact absurd rfl hr'.ne_nil
          | cons u r' =>
            have : u = t := hh
            subst this
            show q (u :: r') = _; rw [hq, hF]; rfl
        · intro t' y htn _ _
          rcases hk t a hF t' htn with ⟨b, hb⟩ | hb
          · left
            show Went q (t' :: y) (t' :: y)
            refine went_ok (a := b) (r := y) ?_ (by simp)
            rw [hq, hb]; rfl
          · right; show q (t' :: y) = _; rw [hq, hb]; rfl
      · intro er r hb; rw [e] at hb; cases hb
    | refuse er =>
      have e : q (t :: r0) = .err er (t :: r0) := by rw [hq, hF]; rfl
      constructor
      · intro b r hb; rw [e] at hb; cases hb
      · intro er' r hb
        rw [e] at hb; cases hb
        obtain ⟨h1, h2⟩ := hr t er hF
        refine ⟨[], [t], rfl, eaten_nil, .inl ⟨rfl, by simp, h1⟩, ?_, ?_⟩
        · rintro ts' _ _ ⟨z, rfl⟩
          exact ⟨t :: z, by show q (t :: z) = _; rw [hq, hF]; rfl⟩
        · intro s0 t0 es t' hwt _ _ y _ _
          have : s0 = [] := by
            cases s0 with
            | nil => rfl
            | cons u us => simp at es
          subst this
          obtain ⟨b, hb⟩ := h2 t' hwt
          refine went_ok (a := b) (r := y) ?_ (by simp)
          show q (t' :: y) = _; rw [hq, hb]; rfl

theorem loc_pure {α : Type} {m : Nat} (a : α) : Loc m (pure a : P α) (pure a) :=
  loc_head (fun _ => .keep a) (fun _ _ => rfl) (fun _ _ h => by cases h) (fun _ _ h _ _ => .inr h) (fun _ _ h => by cases h)

theorem loc_never {α : Type} {m : Nat} {p q : P α} (h : ∀ ts, p ts = .panic ∨ p ts = .oof) : Loc m p q := fun ts _ => by
  constructor <;> intro a r e <;> rcases h ts with h | h <;> rw [h] at e <;> cases e

theorem loc_crash {α : Type} {m : Nat} {q : P α} : Loc m (crash : P α) q := loc_never fun _ => .inl rfl
theorem loc_oof {α : Type} {m : Nat} {q : P α} : Loc m (outOfFuel : P α) q := loc_never fun _ => .inr rfl

theorem loc_skip1 {m : Nat} {k : TokenKind} {l : Bytes} (hk : k ≠ .eof := by decide) (hk2 : k ≠ .illegal := by decide) :
    Loc m (skip1 k l) (skip1 k l) := by
  refine loc_head (fun t => if t.kind = k ∧ t.lit = l then .take true else .keep false) (fun t r => ?_) (fun t a h => ?_) (fun t a h t' _ => ?_)
    (fun t e h => ?_)
  · by_cases h : t.kind = k ∧ t.lit = l
    · rw [if_pos h]; exact skip1_true ⟨t, rfl, h.1, h.2⟩ hk
    · rw [if_neg h]; exact skip1_false ((notNext1_iff hk).2 h) hk
  · by_cases h' : t.kind = k ∧ t.lit = l
    · exact ⟨h'.1 ▸ hk, h'.1 ▸ hk2⟩
    · rw [if_neg h'] at h; cases h
  · by_cases h' : t.kind = k ∧ t.lit = l
    · rw [if_pos h'] at h; cases h
    · rw [if_neg h'] at h; cases h
      by_cases h2 : t'.kind = k ∧ t'.lit = l
      · exact .inl ⟨true, if_pos h2⟩
      · exact .inr (if_neg h2)
  · by_cases h' : t.kind = k ∧ t.lit = l
    · rw [if_pos h'] at h; cases h
    · rw [if_neg h'] at h; cases h

theorem loc_mustConsume0 {m : Nat} : Loc m (mustConsume0 .name) (mustConsume0 .name) := by
  refine loc_head (fun t => if t.kind = .name then .take t else .refuse (.unexpected t [expected .name []])) (fun t r => ?_) (fun t a h => ?_)
    (fun t a h t' _ => ?_) (fun t e h => ?_)
  · by_cases h : t.kind = .name
    · rw [if_pos h]; exact mustConsume0_eq h (by decide)
    · rw [if_neg h, mustConsume0, bind_eq (cur_eq _), if_pos (show (hd (t :: r)).kind ≠ .name from h)]; rfl
  · by_cases h' : t.kind = .name
    · rw [h']; decide
    · rw [if_neg h'] at h; cases h
  · by_cases h' : t.kind = .name
    · rw [if_pos h'] at h; cases h
    · rw [if_neg h'] at h; cases h
  · by_cases h' : t.kind = .name
    · rw [if_pos h'] at h; cases h
    · rw [if_neg h'] at h; cases h
      refine ⟨⟨rfl, by decide⟩, ?_⟩
      rintro t' ⟨x, hx, hw⟩
      rw [List.mem_singleton] at hx; subst hx
      exact ⟨t', if_pos (wanted_anyName hw)⟩

/-- Consumes the token or gives the error. -/
def must (k : TokenKind) (l : Bytes) (w : List Bytes) : P Token := fun ts =>
  if (hd ts).kind = k ∧ (hd ts).lit = l then .ok (hd ts) ts.tail else .err (.unexpected (hd ts) w) ts

theorem shr_must {k : TokenKind} {l : Bytes} {w : List Bytes} : Shr (must k l w) := fun ts => by
  unfold must
  by_cases h : (hd ts).kind = k ∧ (hd ts).lit = l
  · rw [if_pos h]; simp
  · rw [if_neg h]; exact Nat.le_refl _

theorem loc_must {m : Nat} {k : TokenKind} {l : Bytes} {w : List Bytes} (hw : ∀ x ∈ w, ∀ t', Wanted x t' → t'.kind = k ∧ t'.lit = l) (he : w ≠ enumWant)
    (hk : k ≠ .eof := by decide) (hk2 : k ≠ .illegal := by decide) : Loc m (must k l w) (must k l w) := by
  refine loc_head (fun t => if t.kind = k ∧ t.lit = l then .take t else .refuse (.unexpected t w)) (fun t r => ?_) (fun t a h => ?_)
    (fun t a h t' _ => ?_) (fun t e h => ?_)
  · by_cases h : t.kind = k ∧ t.lit = l
    · rw [if_pos h]; exact if_pos h
    · rw [if_neg h]; exact if_neg h
  · by_cases h' : t.kind = k ∧ t.lit = l
    · exact ⟨h'.1 ▸ hk, h'.1 ▸ hk2⟩
    · rw [if_neg h'] at h; cases h
  · by_cases h' : t.kind = k ∧ t.lit = l
    · rw [if_pos h'] at h; cases h
    · rw [if_neg h'] at h; cases h
  · by_cases h' : t.kind = k ∧ t.lit = l
    · rw [if_pos h'] at h; cases h
    · rw [if_neg h'] at h; cases h
      refine ⟨⟨rfl, he⟩, ?_⟩
      rintro t' ⟨x, hx, hwt⟩
      exact ⟨t', if_pos (hw x hx t' hwt)⟩

theorem mustConsume1_must (k : TokenKind) (l : Bytes) : mustConsume1 k l = must k l [expected k [l]] := by
  funext ts
  unfold must
  by_cases h : (hd ts).kind = k ∧ (hd ts).lit = l
  · rw [if_pos h, mustConsume1, bind_eq (cur_eq _), if_neg (by simp [h])]; rfl
  · rw [if_neg h, mustConsume1, bind_eq (cur_eq _), if_pos (by simpa [Classical.or_iff_not_imp_left] using h)]; rfl

theorem skip1_must {α : Type} (k : TokenKind) (l : Bytes) (w : List Bytes) (A : P α) :
    (skip1 k l >>= fun b => if b = true then A else unexpectedCur w) = (must k l w >>= fun _ => A) := by
  funext ts
  by_cases h : (hd ts).kind = k ∧ (hd ts).lit = l
  · have e1 : skip1 k l ts = .ok true ts.tail := by rw [skip1, bind_eq (cur_eq _), if_neg (by simp [h])]; rfl
    have e2 : must k l w ts = .ok (hd ts) ts.tail := if_pos h
    rw [bind_eq e1, bind_eq e2, if_pos rfl]
  · have e1 : skip1 k l ts = .ok false ts := by
      rw [skip1, bind_eq (cur_eq _), if_pos (by simpa [Classical.or_iff_not_imp_left] using h)]; rfl
    have e2 : must k l w ts = .err (.unexpected (hd ts) w) ts := if_neg h
    rw [bind_eq e1, bind_err_eq e2, if_neg (by decide)]; rfl

theorem punct_ne_enum (l : Bytes) : [expected .punctuator [l]] ≠ enumWant := by
  intro h
  have h := (List.cons.inj h).1
  rw [expected_punct, expected_name, List.append_assoc, List.append_assoc] at h
  cases h

theorem loc_mustPu {m : Nat} {l : Bytes} : Loc m (mustConsume1 .punctuator l) (mustConsume1 .punctuator l) := by
  rw [mustConsume1_must]
  refine loc_must ?_ (punct_ne_enum l)
  intro x hx t' hw
  rw [List.mem_singleton] at hx; subst hx
  exact wanted_one hw

theorem wanted_word {l : Bytes} {t : Token} (h : Wanted (expected .name [l]) t) (hb : bars l = [l]) (hn : l ≠ []) : t.kind = .name ∧ t.lit = l := by
  have e : (b!"|").intercalate [l] = l := by simp [List.intercalate]
  have := wanted_names h (by rw [e]; exact hb) (by rw [e]; exact hn)
  simpa using this

theorem loc_mustNm {m : Nat} {l : Bytes} (hb : bars l = [l] := by decide) (hn : l ≠ [] := by decide) (he : [expected .name [l]] ≠ enumWant := by decide) :
    Loc m (mustConsume1 .name l) (mustConsume1 .name l) := by
  rw [mustConsume1_must]
  refine loc_must ?_ he
  intro x hx t' hw
  rw [List.mem_singleton] at hx; subst hx
  exact wanted_word hw hb hn

theorem loc_consume0 {m : Nat} {k : TokenKind} (hkn : k = .name ∨ k = .stringValue ∨ k = .intValue ∨ k = .floatValue := by simp) :
    Loc m (consume0 k) (consume0 k) := by
  have hk : k ≠ .eof := by rintro rfl; simp at hkn
  have hk2 : k ≠ .illegal := by rintro rfl; simp at hkn
  refine loc_head (fun t => if t.kind = k then .take (some t) else .keep none) (fun t r => ?_) (fun t a h => ?_) (fun t a h t' _ => ?_)
    (fun t e h => ?_)
  · by_cases h : t.kind = k
    · rw [if_pos h]; exact consume0_some h hk
    · rw [if_neg h]; exact consume0_none ((notKind_iff hk).2 h) hk
  · by_cases h' : t.kind = k
    · exact ⟨h' ▸ hk, h' ▸ hk2⟩
    · rw [if_neg h'] at h; cases h
  · by_cases h' : t.kind = k
    · rw [if_pos h'] at h; cases h
    · rw [if_neg h'] at h; cases h
      by_cases h2 : t'.kind = k
      · exact .inl ⟨some t', if_pos h2⟩
      · exact .inr (if_neg h2)
  · by_cases h' : t.kind = k
    · rw [if_pos h'] at h; cases h
    · rw [if_neg h'] at h; cases h

theorem consumen_run {ls : List Bytes} (hl : ls ≠ []) (t : Token) (r : Toks) : consumen .name ls (t :: r) =
    if t.kind = .name ∧ t.lit ∈ ls then .ok (some t) r else .ok none (t :: r) := by
  by_cases h : t.kind = .name ∧ t.lit ∈ ls
  · rw [if_pos h]
    exact (consumen_ok (by decide) hl).2 (.inl ⟨t, rfl, rfl, h⟩)
  · rw [if_neg h]
    refine consumen_none (fun l hm => (notNext1_iff (by decide)).2 ?_) hl
    rintro ⟨h1, h2⟩
    exact h ⟨h1, by rw [hd_cons] at h2; exact h2 ▸ hm⟩

theorem loc_consumen {m : Nat} {ls : List Bytes} (hl : ls ≠ []) : Loc m (consumen .name ls) (consumen .name ls) := by
  refine loc_head (fun t => if t.kind = .name ∧ t.lit ∈ ls then .take (some t) else .keep none) (fun t r => ?_) (fun t a h => ?_) (fun t a h t' _ => ?_)
    (fun t e h => ?_)
  · rw [consumen_run hl]
    by_cases h : t.kind = .name ∧ t.lit ∈ ls
    · rw [if_pos h, if_pos h]; rfl
    · rw [if_neg h, if_neg h]; rfl
  · by_cases h' : t.kind = .name ∧ t.lit ∈ ls
    · rw [h'.1]; decide
    · rw [if_neg h'] at h; cases h
  · by_cases h' : t.kind = .name ∧ t.lit ∈ ls
    · rw [if_pos h'] at h; cases h
    · rw [if_neg h'] at h; cases h
      by_cases h2 : t'.kind = .name ∧ t'.lit ∈ ls
      · exact .inl ⟨some t', if_pos h2⟩
      · exact .inr (if_neg h2)
  · by_cases h' : t.kind = .name ∧ t.lit ∈ ls
    · rw [if_pos h'] at h; cases h
    · rw [if_neg h'] at h; cases h

theorem loc_mustConsumen {m : Nat} {ls : List Bytes} (hb : bars ((b!"|").intercalate ls) = ls) (hn : (b!"|").intercalate ls ≠ []) (hl : ls ≠ [])
    (he : [expected .name ls] ≠ enumWant) : Loc m (mustConsumen .name ls) (mustConsumen .name ls) := by
  refine loc_head (fun t => if t.kind = .name ∧ t.lit ∈ ls then .take t else .refuse (.unexpected t [expected .name ls])) (fun t r => ?_)
    (fun t a h => ?_) (fun t a h t' _ => ?_) (fun t e h => ?_)
  · rw [mustConsumen, bind_eq (cur_eq _)]
    have e := consumen_run hl t r
    by_cases h : t.kind = .name ∧ t.lit ∈ ls
    · rw [if_pos h] at e; rw [if_pos h, bind_eq e]; rfl
    · rw [if_neg h] at e; rw [if_neg h, bind_eq e]; rfl
  · by_cases h' : t.kind = .name ∧ t.lit ∈ ls
    · rw [h'.1]; decide
    · rw [if_neg h'] at h; cases h
  · by_cases h' : t.kind = .name ∧ t.lit ∈ ls
    · rw [if_pos h'] at h; cases h
    · rw [if_neg h'] at h; cases h
  · by_cases h' : t.kind = .name ∧ t.lit ∈ ls
    · rw [if_pos h'] at h; cases h
    · rw [if_neg h'] at h; cases h
      refine ⟨⟨rfl, he⟩, ?_⟩
      rintro t' ⟨x, hx, hw⟩
      rw [List.mem_singleton] at hx; subst hx
      exact ⟨t', if_pos (wanted_names hw hb hn)⟩

/-- An error that asks for nothing. -/
theorem loc_unexpectedCur {α : Type} {m : Nat} {w : List Bytes} (hw : ∀ x ∈ w, ∀ t', ¬ Wanted x t') (he : w ≠ enumWant) :
    Loc m (unexpectedCur w : P α) (unexpectedCur w) := by
  refine loc_head (fun t => .refuse (.unexpected t w)) (fun t r => rfl) (fun t a h => by cases h) (fun t a h => by cases h) (fun t e h => ?_)
  cases h
  refine ⟨⟨rfl, he⟩, ?_⟩
  rintro t' ⟨x, hx, hwt⟩
  exact absurd hwt (hw x hx t')

theorem loc_ite {α : Type} {m : Nat} {c : Prop} [Decidable c] {p q p' q' : P α} (h1 : c → Loc m p p') (h2 : ¬ c → Loc m q q') :
    Loc m (if c then p else q) (if c then p' else q') := by
  by_cases h : c
  · rw [if_pos h, if_pos h]; exact h1 h
  · rw [if_neg h, if_neg h]; exact h2 h

theorem loc_notP {m : Nat} {p q : P Bool} (h : Loc m p q) : Loc m (notP p) (notP q) := loc_bind h (fun _ => shr_pure _) (fun _ => loc_pure _)

/-- After a token has been consumed one less may remain. -/
theorem loc_skip_bind {β : Type} {m : Nat} {k : TokenKind} {l : Bytes} {f g : Bool → P β} (hs : ∀ b, Shr (g b)) (h1 : Loc m (f true) (g true))
    (h2 : Loc (m + 1) (f false) (g false)) (hk : k ≠ .eof := by decide) (hk2 : k ≠ .illegal := by decide) :
    Loc (m + 1) (skip1 k l >>= f) (skip1 k l >>= g) := fun ts ht => by
  refine locAt_bind (loc_skip1 hk hk2 ts ht) hs (fun b r e => ?_)
  have hr := loc_hasEnd (loc_skip1 (m := m) hk hk2 ts ht) ht e
  rcases (skip1_ok hk).1 e with ⟨rfl, h⟩ | ⟨rfl, h, rfl⟩
  · exact ⟨m, by have := tok1_length h; omega, h1 r hr⟩
  · exact ⟨m + 1, by omega, h2 r hr⟩

theorem loc_must_bind {β : Type} {m : Nat} {k : TokenKind} {l : Bytes} {w : List Bytes} {f g : Token → P β} (hs : ∀ b, Shr (g b))
    (hw : ∀ x ∈ w, ∀ t', Wanted x t' → t'.kind = k ∧ t'.lit = l) (he : w ≠ enumWant)
    (h1 : ∀ t, Loc m (f t) (g t)) (hk : k ≠ .eof := by decide) (hk2 : k ≠ .illegal := by decide) :
    Loc (m + 1) (must k l w >>= f) (must k l w >>= g) := by
  refine loc_bindP (loc_must hw he hk hk2) ?_ hs h1
  intro ts a r h
  unfold must at h
  by_cases h' : (hd ts).kind = k ∧ (hd ts).lit = l
  · rw [if_pos h'] at h; cases h
    cases ts with
    | nil => exact absurd h'.1.symm hk
    | cons t ts => simp
  · rw [if_neg h'] at h; cases h

/-! ### Branches -/

/-- Two ways, by the current token. -/
def branch {α : Type} (φ : Token → Bool) (A B : P α) : P α := fun ts => if φ (hd ts) = true then A ts else B ts

/-- Consumes a token in `φ`. -/
def HeadEats {α : Type} (φ : Token → Bool) (A : P α) : Prop := ∀ t r, φ t = true → Went A (t :: r) (t :: r)

theorem shr_branch {α : Type} {φ : Token → Bool} {A B : P α} (h1 : Shr A) (h2 : Shr B) : Shr (branch φ A B) := fun ts => by
  unfold branch
  by_cases h : φ (hd ts) = true
  · simp only [if_pos h]; exact h1 ts
  · simp only [if_neg h]; exact h2 ts

theorem branch_pos {α : Type} {φ : Token → Bool} {A B : P α} {ts : Toks} (h : φ (hd ts) = true) : branch φ A B ts = A ts := if_pos h
theorem branch_neg {α : Type} {φ : Token → Bool} {A B : P α} {ts : Toks} (h : ¬ φ (hd ts) = true) : branch φ A B ts = B ts := if_neg h

theorem went_congr {α : Type} {p q : P α} {y z : Toks} (h : p y = q y) (hw : Went q y z) : Went p y z := by
  unfold Went at hw ⊢; rw [h]; exact hw

theorem locX_branch {α : Type} {χ : Token → Prop} {m : Nat} {φ : Token → Bool} {A A' B B' : P α} {ts : Toks}
    (hA : φ (hd ts) = true → LocAt m A A' ts)
    (hB : φ (hd ts) = false → LocAtX (fun t => φ t = true ∨ χ t) m B B' ts) (h1 : HeadEats φ A) (h2 : HeadEats φ A')
    (ht : HasEnd ts) : LocAtX χ m (branch φ A B) (branch φ A' B') ts := by
  obtain ⟨t, ts0, rfl⟩ : ∃ t ts0, ts = t :: ts0 := by
    cases ts with
    | nil => exact absurd rfl ht.ne_nil
    | cons t ts0 => exact ⟨t, ts0, rfl⟩
  have first : ∀ {s z : Toks}, s ≠ [] → s <+: t :: ts0 → hd (s ++ z) = t := by
    intro s z hs hp
    exact hd_of_prefix hs hp ⟨z, rfl⟩
  by_cases hφ : φ t = true
  · have LA := hA hφ
    have hE := h1 t ts0 hφ
    constructor
    · intro a r h
      rw [branch_pos (show φ (hd (t :: ts0)) = true from hφ)] at h
      obtain ⟨c, e, hc, l, x⟩ := LA.ok a r h
      have hne : c ≠ [] := by
        rintro rfl
        unfold Went at hE; rw [h] at hE
        simp only [List.nil_append] at e
        rw [← e] at hE; simp at hE
      have hp : c <+: t :: ts0 := ⟨r, e.symm⟩
      refine ⟨c, e, hc, ?_, ?_⟩
      · intro r' hr hl hh
        rw [branch_pos (by rw [first hne hp]; exact hφ)]
        exact l r' hr hl hh
      · intro t' y htn hy hl
        have eq : branch φ A' B' (c ++ t' :: y) = A' (c ++ t' :: y) := branch_pos (by rw [first hne hp]; exact hφ)
        rcases x t' y htn hy hl with h3 | h3
        · exact .inl (went_congr eq h3)
        · exact .inr (eq.trans h3)
    · intro er r h
      rw [branch_pos (show φ (hd (t :: ts0)) = true from hφ)] at h
      obtain ⟨c, s, e, hc, hs, l, w⟩ := LA.err er r h
      have hp : s <+: t :: ts0 := e ▸ hs.prefix
      refine ⟨c, s, e, hc, hs, ?_, ?_⟩
      · rintro ts' ht' hl ⟨z, rfl⟩
        obtain ⟨r', hr'⟩ := l (s ++ z) ht' hl ⟨z, rfl⟩
        exact ⟨r', (branch_pos (by rw [first hs.ne_nil hp]; exact hφ)).trans hr'⟩
      · intro s0 t0 es t' hw hD hn y hy hl
        have hs0 : s0 ≠ [] := by
          rintro rfl
          rcases hs with ⟨rfl, -, -⟩ | ⟨rfl, c0, u, rfl, hl⟩
          · have : c = [] := by
              cases c with
              | nil => rfl
              | cons u c => simp at es
            subst this
            unfold Went at hE; rw [h] at hE
            simp only [List.nil_append] at e
            rw [← e] at hE; simp at hE
          · cases er with
            | unexpected t1 ws =>
              obtain ⟨x, hx, hw⟩ := hw
              rw [hl.2.2.2, enumWant, List.mem_singleton] at hx
              subst hx
              exact not_wanted_enum hw
            | atoi => exact hw
            | parseFloat => exact hw
            | todo => exact hl
        refine went_congr (branch_pos ?_) (w s0 t0 es t' hw hD (fun _ h => h) y hy hl)
        have hp0 : s0 <+: t :: ts0 := by
          obtain ⟨z, hz⟩ := hp
          exact ⟨[t0] ++ z, by rw [← List.append_assoc, ← es]; exact hz⟩
        rw [first hs0 hp0]; exact hφ
  · have hφ' : φ t = false := by simpa using hφ
    have LB := hB hφ'
    constructor
    · intro a r h
      rw [branch_neg (show ¬ φ (hd (t :: ts0)) = true from hφ)] at h
      obtain ⟨c, e, hc, l, x⟩ := LB.ok a r h
      have hp : c <+: t :: ts0 := ⟨r, e.symm⟩
      refine ⟨c, e, hc, ?_, ?_⟩
      · intro r' hr hl hh
        have : hd (c ++ r') = t := by
          cases c with
          | nil =>
            simp only [List.nil_append] at e
            rw [← e] at hh
            exact hh
          | cons u c => cases e; rfl
        rw [branch_neg (by rw [this]; exact hφ)]
        exact l r' hr hl hh
      · intro t' y htn hy hl
        cases c with
        | nil =>
          by_cases h' : φ t' = true
          · exact .inl (went_congr (branch_pos h') (h2 t' y h'))
          · rcases x t' y htn hy hl with h3 | h3
            · exact .inl (went_congr (branch_neg h') h3)
            · exact .inr ((branch_neg h').trans h3)
        | cons u c =>
          have eq : branch φ A' B' (u :: c ++ t' :: y) = B' (u :: c ++ t' :: y) := branch_neg (by rw [first (by simp) hp]; exact hφ)
          rcases x t' y htn hy hl with h3 | h3
          · exact .inl (went_congr eq h3)
          · exact .inr (eq.trans h3)
    · intro er r h
      rw [branch_neg (show ¬ φ (hd (t :: ts0)) = true from hφ)] at h
      obtain ⟨c, s, e, hc, hs, l, w⟩ := LB.err er r h
      have hp : s <+: t :: ts0 := e ▸ hs.prefix
      refine ⟨c, s, e, hc, hs, ?_, ?_⟩
      · rintro ts' ht' hl ⟨z, rfl⟩
        obtain ⟨r', hr'⟩ := l (s ++ z) ht' hl ⟨z, rfl⟩
        exact ⟨r', (branch_neg (by rw [first hs.ne_nil hp]; exact hφ)).trans hr'⟩
      · intro s0 t0 es t' hw hD hn y hy hl
        cases s0 with
        | nil =>
          by_cases h' : φ t' = true
          · exact went_congr (branch_pos h') (h2 t' y h')
          · exact went_congr (branch_neg h') (w [] t0 es t' hw hD (fun _ h => h.elim h' (hn rfl)) y hy hl)
        | cons u s0 =>
          refine went_congr (branch_neg ?_) (w _ t0 es t' hw hD (fun h => by cases h) y hy hl)
          have hp0 : (u :: s0) <+: t :: ts0 := by
            obtain ⟨z, hz⟩ := hp
            exact ⟨[t0] ++ z, by rw [← List.append_assoc, ← es]; exact hz⟩
          rw [first (by simp) hp0]; exact hφ

theorem loc_branch {α : Type} {m : Nat} {φ : Token → Bool} {A A' B B' : P α} (hA : Loc m A A') (hB : Loc m B B') (h1 : HeadEats φ A)
    (h2 : HeadEats φ A') : Loc m (branch φ A B) (branch φ A' B') := fun ts ht =>
  locX_branch (fun _ => hA ts ht) (fun _ => (hB ts ht).weaken) h1 h2 ht

theorem headEats_bind {α β : Type} {φ : Token → Bool} {q : P α} {g : α → P β} (h : HeadEats φ q) (hs : ∀ a, Shr (g a)) : HeadEats φ (q >>= g) :=
  fun t r ht => went_bind (h t r ht) hs

/-- The token in question. -/
def isTok (k : TokenKind) (l : Bytes) (t : Token) : Bool := t.kind == k && t.lit == l

theorem isTok_iff {k : TokenKind} {l : Bytes} {t : Token} : isTok k l t = true ↔ t.kind = k ∧ t.lit = l := by
  simp [isTok]

theorem headEats_skip1 {k : TokenKind} {l : Bytes} (hk : k ≠ .eof := by decide) : HeadEats (isTok k l) (skip1 k l) := fun t r h => by
  obtain ⟨h1, h2⟩ := isTok_iff.1 h
  exact went_ok (skip1_true ⟨t, rfl, h1, h2⟩ hk) (by simp)

theorem headEats_must {k : TokenKind} {l : Bytes} {w : List Bytes} : HeadEats (isTok k l) (must k l w) := fun t r h => by
  exact went_ok (a := t) (r := r) (if_pos (isTok_iff.1 h)) (by simp)

theorem headEats_mustConsume1 {k : TokenKind} {l : Bytes} : HeadEats (isTok k l) (mustConsume1 k l) := by
  rw [mustConsume1_must]; exact headEats_must

theorem headEats_mustConsume0 {φ : Token → Bool} {k : TokenKind} (h : ∀ t, φ t = true → t.kind = k) (hk : k ≠ .eof := by decide) :
    HeadEats φ (mustConsume0 k) := fun t r ht => went_ok (mustConsume0_eq (h t ht) hk) (by simp)

theorem headEats_mustConsumen {φ : Token → Bool} {ls : List Bytes} (hl : ls ≠ []) (h : ∀ t, φ t = true → t.kind = .name ∧ t.lit ∈ ls) :
    HeadEats φ (mustConsumen .name ls) := fun t r ht => by
  refine went_ok (a := t) (r := r) ?_ (by simp)
  have e := consumen_run hl t r
  rw [if_pos (h t ht)] at e
  rw [mustConsumen, bind_eq (cur_eq _), bind_eq e]; rfl

/-- A test of the current token. -/
def Peeks (brk : P Bool) (φ : Token → Bool) : Prop := ∀ ts, brk ts = .ok (φ (hd ts)) ts

theorem peeks_peek1 {k : TokenKind} {l : Bytes} : Peeks (peek1 k l) (isTok k l) := fun _ => rfl
theorem peeks_peek0 {k : TokenKind} : Peeks (peek0 k) (fun t => t.kind == k) := fun _ => rfl
theorem Peeks.notP {p : P Bool} {φ : Token → Bool} (h : Peeks p φ) : Peeks (notP p) (fun t => !φ t) := fun ts => by
  show (p >>= _) ts = _
  rw [bind_eq (h ts)]; rfl
theorem Peeks.orP {p q : P Bool} {φ ψ : Token → Bool} (h : Peeks p φ) (h2 : Peeks q ψ) : Peeks (orP p q) (fun t => φ t || ψ t) := fun ts => by
  show (p >>= _) ts = _
  rw [bind_eq (h ts)]
  cases e : φ (hd ts) with
  | true => rw [if_pos rfl]; show Res.ok _ _ = _; simp [e]
  | false => rw [if_neg (by decide), h2 ts]; simp [e]

theorem peek_branch {α : Type} {brk : P Bool} {φ : Token → Bool} (h : Peeks brk φ) (A B : P α) :
    (brk >>= fun b => if b = true then A else B) = branch φ A B := by
  funext ts
  rw [bind_eq (h ts)]
  unfold branch
  split <;> rfl

theorem bind_assoc' {α β γ : Type} (p : P α) (f : α → P β) (g : β → P γ) : (p >>= f) >>= g = p >>= fun a => f a >>= g := by
  funext ts
  show P.bind (P.bind p f) g ts = P.bind p (fun a => P.bind (f a) g) ts
  unfold P.bind
  cases p ts with
  | ok a r => rfl
  | err e r => rfl
  | panic => rfl
  | oof => rfl

theorem ite_bind {α β : Type} (c : Prop) [Decidable c] (p q : P α) (f : α → P β) : ((if c then p else q) >>= f) = if c then p >>= f else q >>= f := by
  split <;> rfl

theorem pure_bind' {α β : Type} (a : α) (f : α → P β) : ((pure a : P α) >>= f) = f a := rfl

/-! ### Loops -/

theorem loc_doWhileF {α : Type} {m : Nat} {body body' : P α} {brk brk' : P Bool} (h1 : Loc m body body') (h2 : Loc m brk brk') (hp : Progress body)
    (s1 : Shr body') (s2 : Shr brk') (k : Nat) : ∀ k', k' ≤ m → Loc k' (doWhileF body brk k) (doWhileF body' brk' k') := by
  induction k with
  | zero => intro _ _; exact loc_oof
  | succ k ih =>
    have key : ∀ k', k' ≤ m → Loc k' (doWhileF body brk (k + 1)) (doWhileF body' brk' (k' + 1)) := by
      intro k' hk
      refine loc_bind (h1.mono hk) (fun _ => by have := shr_doWhileF s1 s2 k'; shr) (fun a => ?_)
      refine loc_bind (h2.mono hk) (fun _ => by have := shr_doWhileF s1 s2 k'; shr) (fun b => ?_)
      exact loc_ite (fun _ => loc_pure _) (fun _ => loc_bind (ih k' hk) (fun _ => shr_pure _) (fun _ => loc_pure _))
    intro k' hk
    cases k' with
    | zero => exact (key 0 hk).zero
    | succ k' =>
      refine loc_bindP (h1.mono hk) hp (fun _ => by have := shr_doWhileF s1 s2 k'; shr) (fun a => ?_)
      refine loc_bind (h2.mono (by omega)) (fun _ => by have := shr_doWhileF s1 s2 k'; shr) (fun b => ?_)
      exact loc_ite (fun _ => loc_pure _) (fun _ => loc_bind (ih k' (by omega)) (fun _ => shr_pure _) (fun _ => loc_pure _))

end GQL
