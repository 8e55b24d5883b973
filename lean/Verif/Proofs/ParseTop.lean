/-
The loop of `Parse`: it always ends, and panics exactly at a `fragment` without name that comes where a definition
may begin.
-/
import Verif.Proofs.ParseSafe
import Verif.Proofs.ParseLax
import Verif.Props.C01

namespace GQL
open Spec

/-- Some definitions, then a `fragment` without name. -/
def CrashAt (pf : Bytes → Option Nat) (ts : Toks) : Prop :=
  ∃ ds r, Many (LocDefn pf true) ts ds r ∧ Unnamed r

section
variable {pf : Bytes → Option Nat}

theorem parseDefinition_safe (n : Nat) {ts : Toks} (ht : HasEnd ts) (hl : ts.length < n) (hu : ¬ Unnamed ts) :
    SafeAt (parseDefinition pf n) ts := by
  rw [parseDefinition]
  refine safeAt_bind (safe_cur (n := n) ts ht hl) (fun t r e he => ?_)
  obtain ⟨rfl, rfl⟩ := cur_ok.1 e
  exact safeAt_bind (parseDefinitionBody_safe n ht hl hu) (fun _ _ _ _ => safeAt_ok rfl (.refl _))

theorem bind_panic {α β : Type} {p : P α} {f : α → P β} {ts : Toks} (h : p ts = .panic) : (p >>= f) ts = .panic := by
  show P.bind _ _ _ = _
  unfold P.bind; rw [h]

theorem parseDefinition_panic (n : Nat) {ts : Toks} (h : Unnamed ts) : parseDefinition pf n ts = .panic := by
  rw [parseDefinition, bind_eq (cur_eq ts)]
  exact bind_panic (parseDefinitionBody_panic n h)

/-- One turn of the loop. -/
theorem step_safe (n : Nat) {ts : Toks} (ht : HasEnd ts) (hl : ts.length < n) (hu : ¬ Unnamed ts) :
    SafeAt (do
      let d ← parseDefinition pf n
      if ← peek0 .illegal then unexpectedCur []
      else return d) ts :=
  safeAt_bind (parseDefinition_safe n ht hl hu) (fun _ r _ he =>
    (safe_bind safe_peek0 (fun _ => safe_ite (safe_unexpectedCur _) (safe_pure _)) : Safe n _) r (ht.of_eats he)
      (Nat.lt_of_le_of_lt he.length hl))

/-- What the loop can do. -/
def LoopOK (pf : Bytes → Option Nat) (ts : Toks) : Res (List Definition) → Prop
  | .ok _ _ => True
  | .err e _ => ErrOK ts e
  | .panic => CrashAt pf ts
  | .oof => False

theorem parseDefs_total (n : Nat) {ts : Toks} (ht : HasEnd ts) (hl : ts.length < n) :
    LoopOK pf ts (parseDefs pf n ts) := by
  unfold parseDefs doWhile
  generalize hm : ts.length + 1 = m
  replace hm : ts.length < m := by omega
  induction m generalizing ts with
  | zero => omega
  | succ m ih =>
    rw [doWhileF]
    by_cases hu : Unnamed ts
    · rw [bind_panic (bind_panic (parseDefinition_panic n hu))]
      exact ⟨[], ts, .nil _, hu⟩
    have h1 := step_safe (pf := pf) n ht hl hu
    unfold SafeAt at h1
    rcases e : (do
      let d ← parseDefinition pf n
      if ← peek0 .illegal then unexpectedCur []
      else return d : P Definition) ts with ⟨d, r⟩ | ⟨er, r⟩ | _ | _
    · rw [e] at h1
      have hst := step_sound n _ _ _ e
      have hlt := (locDefn_eats hst.1).2
      rw [bind_eq e, bind_eq (peek0_ok.2 ⟨rfl, rfl⟩)]
      split
      · trivial
      have ih' := ih (ts := r) (ht.of_eats h1) (by omega) (by omega)
      rcases e2 : doWhileF (do
        let d ← parseDefinition pf n
        if ← peek0 .illegal then unexpectedCur []
        else return d : P Definition) (peek0 .eof) m r with ⟨ds, r2⟩ | ⟨er, r2⟩ | _ | _
      · rw [bind_eq e2]; trivial
      · rw [bind_err_eq e2]; rw [e2] at ih'; exact ih'.mono h1
      · rw [bind_panic e2]; rw [e2] at ih'
        obtain ⟨ds, r3, h3, h4⟩ := ih'
        exact ⟨d :: ds, r3, .cons hst.1 h3, h4⟩
      · rw [e2] at ih'; exact ih'.elim
    · rw [e] at h1; rw [bind_err_eq e]; exact h1.2
    · rw [e] at h1; exact h1.elim
    · rw [e] at h1; exact h1.elim

theorem unnamed_hd {ts : Toks} (h : Unnamed ts) : (hd ts).kind = .name := by
  obtain ⟨r, ⟨t, rfl, h1, -⟩, -⟩ := h
  exact h1

theorem parseDefs_crash (n : Nat) {ts : Toks} (hl : ts.length < n) (h : CrashAt pf ts) : parseDefs pf n ts = .panic := by
  unfold parseDefs doWhile
  generalize hm : ts.length + 1 = m
  replace hm : ts.length < m := by omega
  obtain ⟨ds, r, h, hu⟩ := h
  induction h generalizing m with
  | nil =>
    cases m with
    | zero => omega
    | succ m => rw [doWhileF]; exact bind_panic (bind_panic (parseDefinition_panic n hu))
  | @cons ts d r' ds rest h1 h2 ih =>
    cases m with
    | zero => omega
    | succ m =>
      have hlt := (locDefn_eats h1).2
      have hk : (hd r').kind ≠ .eof ∧ (hd r').kind ≠ .illegal := by
        cases h2 with
        | nil => rw [unnamed_hd hu]; decide
        | cons h3 _ => exact eats1_hd (locDefn_eats h3)
      rw [doWhileF, bind_eq (step_complete n _ _ _ hl ⟨h1, hk.2⟩), bind_eq (peek0_ok.2 ⟨rfl, rfl⟩),
        if_neg (by simpa using hk.1)]
      exact bind_panic (ih (by omega) m (by omega) hu)

theorem term_of_tokens {input : Bytes} {ts : Toks} (h : tokens input = .ret ts) : HasEnd ts := by
  obtain ⟨us, t, e, hk, -⟩ := C01_tokens_end input
  rw [h] at e
  cases e
  exact ⟨t, by simp, hk⟩

/-- Tokens of an input end with the first EOF or Illegal token. -/
theorem tokens_shape {input : Bytes} {ts : Toks} (h : tokens input = .ret ts) :
    ∃ us t, ts = us ++ [t] ∧ (t.kind = .eof ∨ t.kind = .illegal) ∧ ∀ u ∈ us, u.kind ≠ .eof ∧ u.kind ≠ .illegal := by
  obtain ⟨us, t, e, hk, ha, -⟩ := C01_tokens_end input
  rw [h] at e
  cases e
  exact ⟨us, t, rfl, hk, ha⟩

/-- To compute `parse` on a literal: first the tokens, then the parser. -/
theorem parse_eq {input : Bytes} {ts : Toks} {o : ParseOut} (h : tokens input = .ret ts) (h2 : parseTokens pf ts = o) :
    parse pf input = o := by unfold parse; rw [h]; exact h2

theorem parse_tokens {input : Bytes} : ∃ ts, tokens input = .ret ts ∧ parse pf input = parseTokens pf ts := by
  obtain ⟨us, t, e, -⟩ := C01_tokens_end input
  exact ⟨_, e, by unfold parse; rw [e]⟩

end

end GQL
