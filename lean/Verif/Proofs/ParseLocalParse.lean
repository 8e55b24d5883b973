/-
Locality of the functions of the parser.
-/
import Verif.Proofs.ParseLocalLoop

namespace GQL
open Spec Spec.Syntax

/-! ### Consuming something -/

theorem progress_left {α β : Type} {p : P α} {f : α → P β} (h : Progress p) (hs : ∀ a, Shr (f a)) : Progress (p >>= f) := fun ts b r e => by
  obtain ⟨a, r1, h1, h2⟩ := bind_ok.1 e
  have := h ts a r1 h1
  have := shr_ok (hs a) h2
  omega
theorem progress_right {α β : Type} {p : P α} {f : α → P β} (h : Shr p) (hs : ∀ a, Progress (f a)) : Progress (p >>= f) := fun ts b r e => by
  obtain ⟨a, r1, h1, h2⟩ := bind_ok.1 e
  have := shr_ok h h1
  have := hs a _ _ _ h2
  omega
theorem progress_mustConsume0 : Progress (mustConsume0 .name) := fun ts a r e => by
  obtain ⟨h, -⟩ := (mustConsume0_ok (by decide)).1 e
  rw [h]; simp
theorem progress_mustConsume1 {k : TokenKind} {l : Bytes} (hk : k ≠ .eof := by decide) : Progress (mustConsume1 k l) := fun ts a r e => by
  have := (mustConsume1_ok hk).1 e
  obtain ⟨h, -⟩ := this
  rw [h]; simp
theorem progress_ite {α : Type} {c : Prop} [Decidable c] {p q : P α} (h1 : Progress p) (h2 : Progress q) : Progress (if c then p else q) := by
  split <;> assumption
theorem progress_skip {α : Type} {k : TokenKind} {l : Bytes} {A B : P α} (h1 : Shr A) (h2 : Progress B) (hk : k ≠ .eof := by decide) :
    Progress (skip1 k l >>= fun b => if b = true then A else B) := fun ts b r e => by
  obtain ⟨a, r1, h3, h4⟩ := bind_ok.1 e
  rcases (skip1_ok hk).1 h3 with ⟨rfl, h⟩ | ⟨rfl, h, rfl⟩
  · have := tok1_length h
    have := shr_ok h1 h4
    omega
  · exact h2 _ _ _ h4
theorem progress_fail {α : Type} {e : PErr} : Progress (fail e : P α) := fun ts a r h => by cases h
theorem progress_unexpectedCur {α : Type} {w : List Bytes} : Progress (unexpectedCur w : P α) := fun ts a r h => by cases h

/-- Locality of what is put together from what is known. -/
macro "loc" : tactic => `(tactic| repeat (first
  | assumption
  | exact loc_pure _ | exact loc_skip1 | exact loc_mustConsume0 | exact loc_mustPu | exact loc_mustNm | exact loc_consume0 | exact loc_crash | exact loc_oof
  | refine loc_ite (fun _ => ?_) (fun _ => ?_)
  | refine loc_bind ?_ (fun _ => by shr) (fun _ => ?_)
  | intro _))

theorem skip1_mustConsume {α : Type} (k : TokenKind) (l : Bytes) (A : P α) :
    (skip1 k l >>= fun b => if b = true then A else unexpectedCur [expected k [l]]) = (mustConsume1 k l >>= fun _ => A) := by
  rw [skip1_must, mustConsume1_must]

theorem locAtX_fail {α : Type} {χ : Token → Prop} {m : Nat} {F : Token → PErr} {ts : Toks} (ht : HasEnd ts) (hc : AtCur (hd ts) (F (hd ts)))
    (ha : ∀ t t', Asked (F t) t' → χ t') : LocAtX χ m (fun ts => .err (F (hd ts)) ts : P α) (fun ts => .err (F (hd ts)) ts) ts := by
  cases ts with
  | nil => exact absurd rfl ht.ne_nil
  | cons t r0 =>
    constructor
    · intro a r e; cases e
    · intro er r e
      cases e
      refine ⟨[], [t], rfl, eaten_nil, .inl ⟨rfl, by simp, hc⟩, ?_, ?_⟩
      · rintro ts' _ _ ⟨z, rfl⟩; exact ⟨_, rfl⟩
      · intro s0 t0 es t' hw _ hn y _ _
        have : s0 = [] := by
          cases s0 with
          | nil => rfl
          | cons u us => simp at es
        exact absurd (ha _ _ hw) (hn this)

theorem locAtX_unexpectedCur {α : Type} {χ : Token → Prop} {m : Nat} {w : List Bytes} {ts : Toks} (ht : HasEnd ts)
    (ha : ∀ x ∈ w, ∀ t', Wanted x t' → χ t') (he : w ≠ enumWant := by decide) : LocAtX χ m (unexpectedCur w : P α) (unexpectedCur w) ts :=
  locAtX_fail (F := fun t => .unexpected t w) ht ⟨rfl, he⟩ (fun _ _ h => by obtain ⟨x, hx, hw⟩ := h; exact ha x hx _ hw)

theorem locAtX_todo {α : Type} {χ : Token → Prop} {m : Nat} {ts : Toks} (ht : HasEnd ts) (hv : ¬ BeginsValue (hd ts)) (ha : ∀ t', BeginsValue t' → χ t') :
    LocAtX χ m (fail .todo : P α) (fail .todo) ts :=
  locAtX_fail (F := fun _ => .todo) ht hv (fun _ _ h => ha _ h)

/-- One of the names. -/
def isOneOf (ls : List Bytes) (t : Token) : Bool := t.kind == .name && ls.contains t.lit

theorem isOneOf_iff {ls : List Bytes} {t : Token} : isOneOf ls t = true ↔ t.kind = .name ∧ t.lit ∈ ls := by simp [isOneOf]

theorem consumen_took {α : Type} {ls : List Bytes} (hl : ls ≠ []) (G : Option Token → P α) :
    (consumen .name ls >>= G) = branch (isOneOf ls) (took >>= fun t => G (some t)) (G none) := by
  funext ts
  cases ts with
  | nil =>
    rw [branch_neg (by simp [isOneOf, hd])]
    rfl
  | cons t r =>
    have e := consumen_run hl t r
    by_cases h : t.kind = .name ∧ t.lit ∈ ls
    · rw [branch_pos (show isOneOf ls (hd (t :: r)) = true from isOneOf_iff.2 h)]
      rw [if_pos h] at e
      rw [bind_eq e]; rfl
    · rw [branch_neg (show ¬ isOneOf ls (hd (t :: r)) = true from fun h' => h (isOneOf_iff.1 h'))]
      rw [if_neg h] at e
      rw [bind_eq e]

theorem peeks_peekn {ls : List Bytes} (hl : ls ≠ []) : Peeks (peekn .name ls) (isOneOf ls) := fun ts => by
  rw [peekn_eq hl]
  unfold isOneOf
  rfl

theorem tn_tok {k : TokenKind} {l : Bytes} {t : Token} (h : isTok k l t = true) (hk : k ≠ .eof := by decide) (hk2 : k ≠ .illegal := by decide) : Tn t := by
  obtain ⟨h, -⟩ := isTok_iff.1 h
  exact ⟨h ▸ hk, h ▸ hk2⟩
theorem tn_kind {k : TokenKind} {t : Token} (h : isKind k t = true) (hk : k ≠ .eof := by decide) (hk2 : k ≠ .illegal := by decide) : Tn t := by
  have h := isKind_iff.1 h
  exact ⟨h ▸ hk, h ▸ hk2⟩
theorem tn_oneOf {ls : List Bytes} {t : Token} (h : isOneOf ls t = true) : Tn t := by
  have h := (isOneOf_iff.1 h).1
  exact ⟨by rw [h]; decide, by rw [h]; decide⟩

section
variable (pf : Bytes → Option Nat)

/-! ### Values -/

/-- An entry of an object value. -/
def objEntry (n : Nat) : P (Bytes × Value) := do
  let t ← mustConsume0 .name
  let _ ← mustConsume1 .punctuator b!":"
  let v ← parseValue pf n
  return (t.lit, v)

theorem parseValue_branch (n : Nat) : parseValue pf (n + 1) =
    branch (isTok .punctuator b!"$") (took >>= fun _ => mustConsume0 .name >>= fun t => pure (.var t.lit))
    (branch (isKind .intValue) (took >>= fun t => match atoi t.lit with | none => fail (.atoi t.lit) | some i => pure (.int i))
    (branch (isKind .floatValue) (took >>= fun t => match pf t.lit with | none => fail (.parseFloat t.lit) | some f => pure (.float f))
    (branch (isKind .stringValue) (took >>= fun t => pure (.str t.lit))
    (branch (isOneOf [b!"true", b!"false"]) (took >>= fun t => pure (.bool (t.lit == b!"true")))
    (branch (isTok .name b!"null") (took >>= fun _ => pure .null)
    (branch (isKind .name) (took >>= fun t => pure (.enum t.lit))
    (branch (isTok .punctuator b!"[") (took >>= fun _ => untilDo (skip1 .punctuator b!"]") (parseValue pf n) >>= fun vs => pure (.list vs))
    (branch (isTok .punctuator b!"{") (took >>= fun _ => untilDo (skip1 .punctuator b!"}") (objEntry pf n) >>= fun fs => pure (.obj fs))
    (fail .todo))))))))) := by
  rw [parseValue, skip_took .punctuator, consume0_took .intValue]
  congr 2
  rw [consume0_took .floatValue]
  congr 1
  rw [consume0_took .stringValue]
  congr 1
  rw [consumen_took (by decide)]
  congr 1
  rw [skip_took .name]
  congr 1
  rw [consume0_took .name]
  congr 1
  rw [skip_took .punctuator, skip_took .punctuator]
  rfl

theorem shr_objEntry (n : Nat) : Shr (objEntry pf n) := by
  have := shr_parseValue pf n
  unfold objEntry; shr

theorem progress_objEntry (n : Nat) : Progress (objEntry pf n) := by
  have := shr_parseValue pf n
  exact progress_left progress_mustConsume0 (fun _ => by shr)

theorem loc_parseValue (n : Nat) : ∀ m, Loc m (parseValue pf n) (parseValue pf m) := by
  induction n with
  | zero => intro m; exact loc_oof
  | succ n ih =>
    have key : ∀ m, Loc (m + 1) (parseValue pf (n + 1)) (parseValue pf (m + 1)) := by
      intro m
      rw [parseValue_branch, parseValue_branch]
      have hv := ih m
      have sv := shr_parseValue pf m
      have se := shr_objEntry pf m
      have hE : Loc m (objEntry pf n) (objEntry pf m) := by unfold objEntry; loc
      have hl : Loc m (untilDo (skip1 .punctuator b!"]") (parseValue pf n)) (untilDo (skip1 .punctuator b!"]") (parseValue pf m)) :=
        loc_untilDo hv loc_skip1 (parseValue_progress n) (parseValue_progress m) sv shr_skip1
      have ho : Loc m (untilDo (skip1 .punctuator b!"}") (objEntry pf n)) (untilDo (skip1 .punctuator b!"}") (objEntry pf m)) :=
        loc_untilDo hE loc_skip1 (progress_objEntry pf n) (progress_objEntry pf m) se shr_skip1
      have sv' := shr_parseValue pf n
      have se' := shr_objEntry pf n
      intro ts ht
      refine locX_branch (fun h => locAt_took_bind ht (tn_tok h) (fun _ => by shr) (by loc)) (fun n1 => ?_) (headEats_took fun _ => by shr) (headEats_took fun _ => by shr) ht
      refine locX_branch (fun h => ?_) (fun n2 => ?_) (headEats_took fun t => by cases atoi t.lit <;> shr) (headEats_took fun t => by cases atoi t.lit <;> shr) ht
      · cases e : atoi (hd ts).lit with
        | none => exact locAt_took_fail (E := .atoi (hd ts).lit) ht (tn_kind h) (by simp only [e]) ⟨isKind_iff.1 h, rfl⟩
        | some i => exact locAt_took_bind ht (tn_kind h) (fun t => by cases atoi t.lit <;> shr) (by rw [e]; exact loc_pure _)
      refine locX_branch (fun h => ?_) (fun n3 => ?_) (headEats_took fun t => by cases pf t.lit <;> shr) (headEats_took fun t => by cases pf t.lit <;> shr) ht
      · cases e : pf (hd ts).lit with
        | none => exact locAt_took_fail (E := .parseFloat (hd ts).lit) ht (tn_kind h) (by simp only [e]) ⟨isKind_iff.1 h, rfl⟩
        | some i => exact locAt_took_bind ht (tn_kind h) (fun t => by cases pf t.lit <;> shr) (by rw [e]; exact loc_pure _)
      refine locX_branch (fun h => locAt_took_bind ht (tn_kind h) (fun _ => by shr) (by loc)) (fun n4 => ?_) (headEats_took fun _ => by shr) (headEats_took fun _ => by shr) ht
      refine locX_branch (fun h => locAt_took_bind ht (tn_oneOf h) (fun _ => by shr) (by loc)) (fun n5 => ?_) (headEats_took fun _ => by shr) (headEats_took fun _ => by shr) ht
      refine locX_branch (fun h => locAt_took_bind ht (tn_tok h) (fun _ => by shr) (by loc)) (fun n6 => ?_) (headEats_took fun _ => by shr) (headEats_took fun _ => by shr) ht
      refine locX_branch (fun h => locAt_took_bind ht (tn_kind h) (fun _ => by shr) (by loc)) (fun n7 => ?_) (headEats_took fun _ => by shr) (headEats_took fun _ => by shr) ht
      refine locX_branch (fun h => locAt_took_bind ht (tn_tok h) (fun _ => by shr) (by loc)) (fun n8 => ?_) (headEats_took fun _ => by shr) (headEats_took fun _ => by shr) ht
      refine locX_branch (fun h => locAt_took_bind ht (tn_tok h) (fun _ => by shr) (by loc)) (fun n9 => ?_) (headEats_took fun _ => by shr) (headEats_took fun _ => by shr) ht
      have hv0 : ¬ BeginsValue (hd ts) := by
        rw [← Bool.not_eq_true, isTok_iff] at n1 n6 n8 n9
        rw [← Bool.not_eq_true, isKind_iff] at n2 n3 n4 n7
        rintro (h | h | h | h | ⟨h1, h | h | h⟩)
        · exact n7 h
        · exact n2 h
        · exact n3 h
        · exact n4 h
        · exact n1 ⟨h1, h⟩
        · exact n8 ⟨h1, h⟩
        · exact n9 ⟨h1, h⟩
      refine locAtX_todo ht hv0 (fun t' hv => ?_)
      simp only [isTok_iff, isKind_iff]
      rcases hv with h | h | h | h | ⟨h1, h | h | h⟩
      · simp [h]
      · simp [h]
      · simp [h]
      · simp [h]
      · exact .inr (.inr (.inr (.inr (.inr (.inr (.inr (.inr (.inl ⟨h1, h⟩))))))))
      · exact .inr (.inl ⟨h1, h⟩)
      · exact .inl ⟨h1, h⟩
    intro m
    cases m with
    | zero => exact (key 0).zero
    | succ m => exact key m

theorem loc_parseDefaultValue (n m : Nat) : Loc m (parseDefaultValue pf n) (parseDefaultValue pf m) := by
  have := shr_parseValue pf m; have := loc_parseValue pf n m
  unfold parseDefaultValue; loc

/-- An argument. -/
def argEntry (n : Nat) : P Argument := do
  let t ← mustConsume0 .name
  let _ ← mustConsume1 .punctuator b!":"
  let v ← parseValue pf n
  return ⟨t.lit, v⟩

theorem shr_argEntry (n : Nat) : Shr (argEntry pf n) := by
  have := shr_parseValue pf n
  unfold argEntry; shr
theorem progress_argEntry (n : Nat) : Progress (argEntry pf n) := by
  have := shr_parseValue pf n
  exact progress_left progress_mustConsume0 (fun _ => by shr)
theorem loc_argEntry (n m : Nat) : Loc m (argEntry pf n) (argEntry pf m) := by
  have := shr_parseValue pf m; have := loc_parseValue pf n m
  unfold argEntry; loc

theorem loc_parseArguments (n m : Nat) : Loc m (parseArguments pf n) (parseArguments pf m) := by
  have h : Loc m (untilDo (skip1 .punctuator b!")") (argEntry pf n)) (untilDo (skip1 .punctuator b!")") (argEntry pf m)) :=
    loc_untilDo (loc_argEntry pf n m) loc_skip1 (progress_argEntry pf n) (progress_argEntry pf m) (shr_argEntry pf m) shr_skip1
  have := shr_argEntry pf m
  show Loc m (skip1 .punctuator b!"(" >>= fun b => if b = true then untilDo (skip1 .punctuator b!")") (argEntry pf n) else pure [])
    (skip1 .punctuator b!"(" >>= fun b => if b = true then untilDo (skip1 .punctuator b!")") (argEntry pf m) else pure [])
  loc

/-- A directive. -/
def dirEntry (n : Nat) (loc : DirLoc) : P Directive := do
  let _ ← mustConsume1 .punctuator b!"@"
  let t ← mustConsume0 .name
  let args ← parseArguments pf n
  return ⟨t.lit, args, loc⟩

theorem loc_parseDirectives (n m : Nat) (l : DirLoc) : Loc m (parseDirectives pf n l) (parseDirectives pf m l) := by
  have s1 := shr_parseArguments pf n
  have s2 := shr_parseArguments pf m
  have s3 := loc_parseArguments pf n m
  have sn : Shr (dirEntry pf n l) := by unfold dirEntry; shr
  have sm : Shr (dirEntry pf m l) := by unfold dirEntry; shr
  have pn : Progress (dirEntry pf n l) := progress_left progress_mustConsume1 (fun _ => by shr)
  have pm : Progress (dirEntry pf m l) := progress_left progress_mustConsume1 (fun _ => by shr)
  have hn : HeadEats (isTok .punctuator b!"@") (dirEntry pf n l) := headEats_bind headEats_mustConsume1 (fun _ => by shr)
  have hm : HeadEats (isTok .punctuator b!"@") (dirEntry pf m l) := headEats_bind headEats_mustConsume1 (fun _ => by shr)
  have hl : Loc m (dirEntry pf n l) (dirEntry pf m l) := by unfold dirEntry; loc
  exact loc_untilPeek peeks_peek1 hl hn hm pn pm sn sm shr_peek1

end

/-! ### Types -/

/-- The result, if any; the error is dropped. -/
def attempt {α : Type} (p : P α) : P (Option α) := fun ts =>
  match p ts with
  | .ok a r => .ok (some a) r
  | .err _ r => .ok none r
  | .panic => .panic
  | .oof => .oof

theorem attempt_bind {α β : Type} (p : P α) (f : α → P β) :
    attempt (p >>= f) = attempt p >>= fun o => match o with | none => pure none | some a => attempt (f a) := by
  funext ts
  show attempt (P.bind p f) ts = P.bind (attempt p) _ ts
  unfold attempt P.bind
  cases e : p ts <;> simp only [e] <;> rfl

theorem attempt_ite {α : Type} (c : Prop) [Decidable c] (p q : P α) : attempt (if c then p else q) = if c then attempt p else attempt q := by
  split <;> rfl

theorem shr_attempt {α : Type} {p : P α} (h : Shr p) : Shr (attempt p) := fun ts => by
  have := h ts
  unfold attempt
  cases e : p ts <;> rw [e] at this <;> simp only <;> exact this

/-- What stands in brackets. -/
def inBrackets : Option Ty → P Ty
  | none => pure (.listNil false)
  | some t => do
    let _ ← mustConsume1 .punctuator b!"]"
    return Ty.list t (← skip1 .punctuator b!"!")

/-- A named type. -/
def nameBang : P Ty := do
  let t ← mustConsume0 .name
  return Ty.named t.lit (← skip1 .punctuator b!"!")

theorem parseType_eq' (n : Nat) : parseType (n + 1) =
    skip1 .punctuator b!"[" >>= fun b => if b = true then attempt (parseType n) >>= inBrackets else nameBang := by
  rw [parseType]
  congr 1
  funext b
  congr 1
  funext ts
  show _ = P.bind (attempt (parseType n)) inBrackets ts
  unfold P.bind attempt
  cases e : parseType n ts <;> simp only [e] <;> rfl

theorem loc_attempt_must {m : Nat} {l : Bytes} : Loc m (attempt (mustConsume1 .punctuator l)) (attempt (mustConsume1 .punctuator l)) := by
  rw [mustConsume1_must]
  refine loc_head (fun t => if t.kind = .punctuator ∧ t.lit = l then .take (some t) else .keep none) (fun t r => ?_) (fun t a h => ?_) (fun t a h t' _ => ?_)
    (fun t e h => ?_)
  · unfold attempt must
    by_cases h : t.kind = .punctuator ∧ t.lit = l
    · rw [if_pos h, if_pos (show (hd (t :: r)).kind = _ ∧ (hd (t :: r)).lit = _ from h)]; rfl
    · rw [if_neg h, if_neg (show ¬ ((hd (t :: r)).kind = _ ∧ (hd (t :: r)).lit = _) from h)]; rfl
  · by_cases h' : t.kind = .punctuator ∧ t.lit = l
    · rw [h'.1]; decide
    · rw [if_neg h'] at h; cases h
  · by_cases h' : t.kind = .punctuator ∧ t.lit = l
    · rw [if_pos h'] at h; cases h
    · rw [if_neg h'] at h; cases h
      by_cases h2 : t'.kind = .punctuator ∧ t'.lit = l
      · exact .inl ⟨some t', if_pos h2⟩
      · exact .inr (if_neg h2)
  · by_cases h' : t.kind = .punctuator ∧ t.lit = l
    · rw [if_pos h'] at h; cases h
    · rw [if_neg h'] at h; cases h

theorem loc_attempt_name {m : Nat} : Loc m (attempt (mustConsume0 .name)) (attempt (mustConsume0 .name)) := by
  have e : attempt (mustConsume0 .name) = consume0 .name := by
    funext ts
    unfold attempt mustConsume0 consume0
    rw [bind_eq (cur_eq _), bind_eq (cur_eq _)]
    by_cases h : (hd ts).kind = .name
    · rw [if_pos h, if_neg (by simp [h])]; rfl
    · rw [if_neg h, if_pos h]; rfl
  rw [e]; exact loc_consume0

theorem attempt_skip {k : TokenKind} {l : Bytes} : attempt (skip1 k l) = skip1 k l >>= fun b => pure (some b) := by
  funext ts
  by_cases h : (hd ts).kind ≠ k ∨ (hd ts).lit ≠ l
  · have e : skip1 k l ts = .ok false ts := by rw [skip1, bind_eq (cur_eq _), if_pos h]; rfl
    rw [bind_eq e]; unfold attempt; rw [e]; rfl
  · have e : skip1 k l ts = .ok true ts.tail := by rw [skip1, bind_eq (cur_eq _), if_neg h]; rfl
    rw [bind_eq e]; unfold attempt; rw [e]; rfl

theorem loc_parseType' (n : Nat) : ∀ m, Loc m (parseType n) (parseType m) ∧ Loc m (attempt (parseType n)) (attempt (parseType m)) := by
  induction n with
  | zero => intro m; exact ⟨loc_oof, loc_never fun _ => .inr rfl⟩
  | succ n ih =>
    have key : ∀ m, Loc (m + 1) (parseType (n + 1)) (parseType (m + 1)) ∧ Loc (m + 1) (attempt (parseType (n + 1))) (attempt (parseType (m + 1))) := by
      intro m
      have hL := (ih m).2
      have sb : ∀ o, Shr (inBrackets o) := fun o => by
        cases o with
        | none => exact shr_pure _
        | some t => unfold inBrackets; shr
      have sn : Shr nameBang := by unfold nameBang; shr
      have sp := shr_parseType m
      have sa := shr_attempt sp
      have sm : Shr (attempt (parseType m) >>= inBrackets) := shr_bind sa sb
      constructor
      · rw [parseType_eq', parseType_eq']
        refine loc_skip_bind (fun b => shr_ite sm sn) ?_ (by rw [if_neg (by decide), if_neg (by decide)]; unfold nameBang; loc)
        rw [if_pos rfl, if_pos rfl]
        refine loc_bind hL sb (fun o => ?_)
        cases o with
        | none => exact loc_pure _
        | some t => unfold inBrackets; loc
      · rw [parseType_eq', parseType_eq', attempt_bind, attempt_bind, attempt_skip]
        rw [bind_assoc', bind_assoc']
        have sbn : Shr (attempt nameBang) := shr_attempt sn
        have sbb : ∀ o, Shr (match o with | none => pure none | some a => attempt (inBrackets a) : P (Option Ty)) := fun o => by
          cases o with
          | none => exact shr_pure _
          | some a => exact shr_attempt (sb a)
        have sam : Shr (attempt (attempt (parseType m) >>= inBrackets)) := shr_attempt sm
        refine loc_skip_bind (fun b => ?_) ?_ ?_
        · show Shr (attempt (if b = true then _ else _))
          rw [attempt_ite]
          exact shr_ite sam sbn
        · show Loc m (attempt (if true = true then _ else _)) (attempt (if true = true then _ else _))
          rw [if_pos rfl, if_pos rfl]
          have ea : ∀ n, attempt (attempt (parseType n) >>= inBrackets) = attempt (parseType n) >>= fun o => attempt (inBrackets o) := fun n => by
            rw [attempt_bind]
            funext ts
            show P.bind _ _ ts = P.bind _ _ ts
            unfold P.bind attempt
            cases parseType n ts <;> rfl
          rw [ea, ea]
          refine loc_bind hL (fun o => shr_attempt (sb o)) (fun o => ?_)
          cases o with
          | none => exact loc_pure _
          | some t =>
            unfold inBrackets
            rw [attempt_bind]
            refine loc_bind loc_attempt_must (fun o => ?_) (fun o => ?_)
            · cases o with
              | none => exact shr_pure _
              | some a => exact shr_attempt (by shr)
            · cases o with
              | none => exact loc_pure _
              | some a =>
                show Loc m (attempt _) (attempt _)
                rw [attempt_bind, attempt_skip, bind_assoc']
                exact loc_bind loc_skip1 (fun _ => shr_pure _) (fun _ => loc_pure _)
        · show Loc (m + 1) (attempt (if false = true then _ else _)) (attempt (if false = true then _ else _))
          rw [if_neg (by decide), if_neg (by decide)]
          unfold nameBang
          rw [attempt_bind]
          refine loc_bind loc_attempt_name (fun o => ?_) (fun o => ?_)
          · cases o with
            | none => exact shr_pure _
            | some a => exact shr_attempt (by shr)
          · cases o with
            | none => exact loc_pure _
            | some a =>
              show Loc _ (attempt _) (attempt _)
              rw [attempt_bind, attempt_skip, bind_assoc']
              exact loc_bind loc_skip1 (fun _ => shr_pure _) (fun _ => loc_pure _)
    intro m
    cases m with
    | zero => exact ⟨(key 0).1.zero, (key 0).2.zero⟩
    | succ m => exact key m

theorem loc_parseType (n m : Nat) : Loc m (parseType n) (parseType m) := (loc_parseType' n m).1

theorem loc_mustBeNamed {m : Nat} (t : Ty) : Loc m (mustBeNamed t) (mustBeNamed t) := by
  have : ∀ x ∈ [b!"NamedType"], ∀ t', ¬ Wanted x t' := fun x hx t' hw => by
    rw [List.mem_singleton] at hx; subst hx; exact not_wanted_namedType hw
  unfold mustBeNamed
  cases t with
  | named => exact loc_pure _
  | list => exact loc_unexpectedCur this (by decide)
  | listNil => exact loc_unexpectedCur this (by decide)

theorem loc_parseTypeCondition (n m : Nat) : Loc m (parseTypeCondition n) (parseTypeCondition m) :=
  loc_bind loc_mustNm (fun _ => shr_bind (shr_parseType m) fun t => shr_bind (shr_mustBeNamed t) fun _ => shr_pure _) fun _ =>
    loc_bind (loc_parseType n m) (fun t => shr_bind (shr_mustBeNamed t) fun _ => shr_pure _) fun t =>
      loc_bind (loc_mustBeNamed t) (fun _ => shr_pure _) fun _ => loc_pure _

section
variable (pf : Bytes → Option Nat)

end

end GQL
