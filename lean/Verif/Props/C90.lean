/-
C90 What follows a complete line does not change what came before it.
C05 What follows a NUL byte is dropped, whatever it is.
-/
import Verif.Proofs.LexNul
import Verif.Props.C71
import Verif.Props.C76

namespace GQL
open Spec Spec.Syntax

/-- The tokens before the last one do not depend on what follows; nor, before a NUL byte, what kind the last one is of. -/
theorem tokensF_put (Y : Bytes) : ∀ (n m : Nat) {l : Lexer} {us : List Token} {e : Token} {ts : List Token}, Lf l → n ≤ m →
    tokensF n l = .ret (us ++ [e]) → (∀ u ∈ us, u.kind ≠ .eof ∧ u.kind ≠ .illegal) → (e.kind = .eof ∨ e.kind = .illegal) →
    tokensF m (l.put Y) = .ret ts →
    ∃ v vs, ts = us ++ v :: vs ∧ ∀ R, Y = 0 :: R → vs = [] ∧ v.kind = e.kind ∧ (e.kind = .eof → v.line = e.line) := by
  intro n
  induction n with
  | zero => intro m l us e ts _ _ h; cases h
  | succ n ih =>
    intro m l us e ts hl hm h hall hk h'
    obtain ⟨m, rfl⟩ : ∃ k, m = k + 1 := ⟨m - 1, by omega⟩
    unfold tokensF at h h'
    cases hs : scan l with
    | panic => rw [hs] at h; cases h
    | oof => rw [hs] at h; cases h
    | ret x =>
      obtain ⟨t, l1⟩ := x
      rw [hs] at h
      dsimp only at h
      by_cases q : t.kind = .eof ∨ t.kind = .illegal
      · rw [if_pos q] at h
        have h := Out.ret.inj h
        cases us with
        | cons u us =>
          exfalso
          have := congrArg List.length h
          simp at this
        | nil =>
          obtain rfl : t = e := by simpa using h
          cases hs' : scan (l.put Y) with
          | panic => rw [hs'] at h'; cases h'
          | oof => rw [hs'] at h'; cases h'
          | ret x' =>
            obtain ⟨t', l1'⟩ := x'
            rw [hs'] at h'
            dsimp only at h'
            have hkk : ∀ R, Y = 0 :: R → t'.kind = t.kind ∧ (t.kind = .eof → t'.line = t.line) := by
              rintro R rfl
              obtain ⟨g1, g2⟩ := scanF_nul R l.fuel (l.put (0 :: R)).fuel (fuel_put _ l) hl hs
              unfold scan at hs'
              rcases q with q | q
              · obtain ⟨t2, l2, k1, k2, -, k3⟩ := g1 q
                rw [hs'] at k1; cases k1
                exact ⟨k2.trans q.symm, fun _ => k3⟩
              · obtain ⟨t2, l2, k1, k2⟩ := g2 q
                rw [hs'] at k1; cases k1
                exact ⟨k2.trans q.symm, fun hh => by rw [q] at hh; cases hh⟩
            by_cases q' : t'.kind = .eof ∨ t'.kind = .illegal
            · rw [if_pos q'] at h'
              cases h'
              exact ⟨t', [], rfl, fun R hR => ⟨rfl, hkk R hR⟩⟩
            · rw [if_neg q'] at h'
              cases hr : tokensF m l1' with
              | panic => rw [hr] at h'; cases h'
              | oof => rw [hr] at h'; cases h'
              | ret vs =>
                rw [hr] at h'; cases h'
                refine ⟨t', vs, rfl, fun R hR => ?_⟩
                exact absurd (by rw [(hkk R hR).1]; exact q) q'
      · rw [if_neg q] at h
        cases hr : tokensF n l1 with
        | panic => rw [hr] at h; cases h
        | oof => rw [hr] at h; cases h
        | ret vs =>
          rw [hr] at h
          have h := Out.ret.inj h
          cases us with
          | nil =>
            exfalso
            obtain ⟨rfl, -⟩ : t = e ∧ vs = [] := by simpa using h
            exact q hk
          | cons u us =>
            obtain ⟨rfl, rfl⟩ : t = u ∧ vs = us ++ [e] := by simpa using h
            obtain ⟨g1, g2⟩ := scanF_put Y l.fuel (l.put Y).fuel (fuel_put Y l) hl hs (fun hh => q (.inr hh)) (fun hh => q (.inl hh))
            have g1 : scan (l.put Y) = .ret (t, l1.put Y) := g1
            rw [g1] at h'
            dsimp only at h'
            rw [if_neg q] at h'
            cases hr' : tokensF m (l1.put Y) with
            | panic => rw [hr'] at h'; cases h'
            | oof => rw [hr'] at h'; cases h'
            | ret vs' =>
              rw [hr'] at h'; cases h'
              obtain ⟨v, vs, rfl, hv⟩ := ih m g2 (by omega) hr (fun x hx => hall x (List.mem_cons_of_mem _ hx)) hk hr'
              exact ⟨v, vs, rfl, hv⟩

theorem tokens_put {a Y : Bytes} {us : List Token} {e : Token} (h : tokens (a ++ [10]) = .ret (us ++ [e])) :
    ∃ v vs, tokens (a ++ [10] ++ Y) = .ret (us ++ v :: vs) ∧
      ∀ R, Y = 0 :: R → vs = [] ∧ v.kind = e.kind ∧ (e.kind = .eof → v.line = e.line) := by
  obtain ⟨us', e', h1, hk, hall⟩ := tokens_shape h
  obtain ⟨rfl, h2⟩ := List.append_inj' h1 rfl
  cases h2
  obtain ⟨ts, t, h', -⟩ := C01_tokens_end (a ++ [10] ++ Y)
  have hl : Lf (newLexer (a ++ [10])) := ⟨Nat.zero_le _, a, rfl⟩
  have h' : tokensF ((a ++ [10] ++ Y).length + 2) ((newLexer (a ++ [10])).put Y) = .ret (ts ++ [t]) := h'
  obtain ⟨v, vs, e1, e2⟩ := tokensF_put Y _ ((a ++ [10] ++ Y).length + 2) (ts := ts ++ [t]) hl (by simp) h hall hk h'
  exact ⟨v, vs, by rw [← e1]; exact h', e2⟩

/-- C90: the tokens of a text that ends with a line break, up to the EOF or Illegal token, with their literals and
positions, are the first tokens of every text that begins with it, whatever bytes follow. -/
theorem C90_tokens (a Y : Bytes) (us : List Token) (e : Token) (h : tokens (a ++ [10]) = .ret (us ++ [e])) :
    ∃ v vs, tokens (a ++ [10] ++ Y) = .ret (us ++ v :: vs) := by
  obtain ⟨v, vs, h1, -⟩ := tokens_put (Y := Y) h
  exact ⟨v, vs, h1⟩

/-- C90, errors: when a text that ends with a line break is refused because of a token in it - not because
it ends too early, and not because of an Illegal token -, every text that begins with it is refused with the same error. -/
theorem C90_errors (pf : Bytes → Option Nat) (a : Bytes) (err : PErr) (h : parse pf (a ++ [10]) = .err err) :
    ∃ before t rest, tokens (a ++ [10]) = .ret (before ++ t :: rest) ∧ About err t ∧
      (t.kind ≠ .eof → t.kind ≠ .illegal → ∀ Y, parse pf (a ++ [10] ++ Y) = .err err) := by
  obtain ⟨before, t, rest, h1, h2, h3, h4⟩ := C76_local pf (a ++ [10]) err h
  refine ⟨before, t, rest, h1, h3, fun g1 g2 Y => ?_⟩
  rcases List.eq_nil_or_concat rest with rfl | ⟨r, e, rfl⟩
  · exfalso
    obtain ⟨us, e, h5, h6, -⟩ := tokens_shape h1
    obtain ⟨-, h7⟩ := List.append_inj' h5 rfl
    cases h7
    exact h6.elim g1 g2
  · have h5 : tokens (a ++ [10]) = .ret ((before ++ t :: r) ++ [e]) := by rw [h1]; simp
    obtain ⟨v, vs, h6⟩ := C90_tokens a Y _ _ h5
    exact h4 _ (r ++ v :: vs) (by rw [h6]; simp)

/-- C90, errors that say which token was found. -/
theorem C90_unexpected (pf : Bytes → Option Nat) (a Y : Bytes) (t : Token) (w : List Bytes) (h : parse pf (a ++ [10]) = .err (.unexpected t w))
    (hk : t.kind ≠ .eof) (hk' : t.kind ≠ .illegal) : parse pf (a ++ [10] ++ Y) = .err (.unexpected t w) := by
  obtain ⟨before, t', rest, -, h2, h3⟩ := C90_errors pf a _ h
  obtain rfl : t = t' := h2
  exact h3 hk hk' Y

/-- Definitions before the end do not see where the end is. -/
theorem many_eofs {pf : Bytes → Option Nat} {ts : Toks} {ds : List Definition} {e e' : Token} (hk : e.kind = .eof) (hk' : e'.kind = .eof) (hl : e.lit = [])
    (hl' : e'.lit = []) (h : Many (LocDefn pf true) ts ds [e]) : ∀ us, ts = us ++ [e] → Many (LocDefn pf true) (us ++ [e']) ds [e'] := by
  generalize hr : [e] = r at h
  induction h with
  | nil ts =>
    subst hr
    intro us h
    obtain ⟨rfl, -⟩ := List.append_inj' (show [] ++ [e] = us ++ [e] from h) rfl
    exact .nil _
  | @cons ts d r1 as rest h1 h2 ih =>
    subst hr
    intro us hus
    cases h1 with
    | @mk t ts0 b _ hd =>
      obtain ⟨⟨pre, hp, hgood⟩, hlen⟩ := defn_eats hd
      -- what is left also ends with `e`
      have hr1 : ∃ us1, r1 = us1 ++ [e] := by
        rcases List.eq_nil_or_concat r1 with rfl | ⟨x, y, rfl⟩
        · exfalso
          rw [hp, List.append_nil] at hus
          exact (hgood e (by rw [hus]; simp)).1 hk
        · rw [List.concat_eq_append] at hp ⊢
          rw [hus, ← List.append_assoc] at hp
          obtain ⟨-, h3⟩ := List.append_inj' hp rfl
          exact ⟨x, by rw [← h3]⟩
      obtain ⟨us1, rfl⟩ := hr1
      have hpre : us = pre ++ us1 := by
        rw [hus, ← List.append_assoc] at hp
        exact (List.append_inj' hp rfl).1
      have hpn : pre ≠ [] := by
        rintro rfl
        rw [hp] at hlen; simp at hlen
      have hsim : Sim (t :: ts0) (us ++ [e']) := by
        rw [hus]; unfold Sim
        simp [hk, hk', hl, hl']
      obtain ⟨r', hd', hs'⟩ := defn_sim hd hsim
      have hr' : r' = us1 ++ [e'] := by
        obtain ⟨⟨pre', hp', -⟩, -⟩ := defn_eats hd'
        have hlen' : r'.length = (us1 ++ [e']).length := by
          have := congrArg List.length hs'
          simpa using this.symm
        rw [hpre, List.append_assoc] at hp'
        exact (List.append_inj' hp' hlen'.symm).2.symm
      subst hr'
      cases pre with
      | nil => exact absurd rfl hpn
      | cons p pre =>
        simp only [List.cons_append] at hp hpre
        cases hp
        subst hpre
        exact .cons (.mk hd') (ih rfl us1 rfl)

theorem parse_mk90 {pf : Bytes → Option Nat} {i : Bytes} {d : Document} (h : parse pf i = .ok d) : d = mkDocument d.defs := by
  obtain ⟨ts, -, e⟩ := parse_tokens (pf := pf) (input := i)
  rw [e] at h; unfold parseTokens at h
  rcases e2 : parseDefs pf (ts.length + 1) ts with ⟨ds, _⟩ | ⟨er, _⟩ | _ | _ <;> rw [e2] at h
  · cases h; rw [mkDocument_defs]
  · cases h
  · cases h
  · cases h

/-- Two texts with the same tokens, but for the position of EOF, give the same document. -/
theorem parse_eofs {pf : Bytes → Option Nat} {i i' : Bytes} {us : List Token} {e e' : Token} (h1 : tokens i = .ret (us ++ [e])) (h2 : tokens i' = .ret (us ++ [e']))
    (hk : e'.kind = e.kind) {d : Document} (h : parse pf i = .ok d) : parse pf i' = .ok d := by
  obtain ⟨us', x, h3, hx, hm, hne⟩ := parse_many h
  rw [h1] at h3
  obtain ⟨rfl, h4⟩ := List.append_inj' (Out.ret.inj h3) rfl
  cases h4
  have hm' := many_eofs hx (hk.trans hx) (tokens_eof_lit h1 (by simp) hx) (tokens_eof_lit h2 (by simp) (hk.trans hx)) hm us rfl
  obtain ⟨d', h5, h6⟩ := (C15_exact_partial pf i' _ h2 d.defs).2 ⟨e', [], hne, hm', hk.trans hx⟩
  rw [h5, parse_mk90 h5, h6, ← parse_mk90 h]

/-- C05, what happens instead: after a line break and a NUL byte nothing is looked at. Whatever bytes follow,
the text is accepted exactly when the part before the NUL is, with the same document. -/
theorem C05_dropped (pf : Bytes → Option Nat) (a rest : Bytes) (d : Document) :
    parse pf (a ++ [10] ++ 0 :: rest) = .ok d ↔ parse pf (a ++ [10]) = .ok d := by
  obtain ⟨us, e, h1, -⟩ := C01_tokens_end (a ++ [10])
  obtain ⟨v, vs, h2, h3⟩ := tokens_put (Y := 0 :: rest) h1
  obtain ⟨rfl, h4, -⟩ := h3 rest rfl
  exact ⟨parse_eofs h2 h1 h4.symm, parse_eofs h1 h2 h4⟩

/-- C05 is false of `Parse`, for every accepted text: something that is not GraphQL can always be hidden. -/
theorem C05_refuted_parse (pf : Bytes → Option Nat) (a rest : Bytes) (d : Document) (h : parse pf (a ++ [10]) = .ok d) :
    parse pf (a ++ [10] ++ 0 :: rest) = .ok d := (C05_dropped pf a rest d).2 h

/-- The hypotheses of `C05_refuted_parse` and `C05_dropped` are met. -/
example (pf : Bytes → Option Nat) : ∃ d, parse pf (b!"{a}#x" ++ [10]) = .ok d ∧ parse pf (b!"{a}#x" ++ [10] ++ 0 :: b!"drop everything }}} \"") = .ok d := by
  have h : ∃ d, parse pf (b!"{a}#x" ++ [10]) = .ok d := ⟨_, (parse_eq (ts := [⟨.punctuator, b!"{", 1, 1⟩, ⟨.name, b!"a", 1, 2⟩, ⟨.punctuator, b!"}", 1, 3⟩, ⟨.eof, [], 2, 1⟩]) (by decide) rfl)⟩
  obtain ⟨d, h⟩ := h
  exact ⟨d, h, C05_refuted_parse pf _ _ d h⟩

/-- A NUL byte in a comment ends the comment: what follows is looked at although it is a comment. -/
theorem C05_refuted_comment (pf : Bytes → Option Nat) : ∃ d, parse pf (b!"{a}#" ++ 0 :: b!"{b}") = .ok d ∧ d.defs.length = 2 :=
  ⟨_, (parse_eq (ts := [⟨.punctuator, b!"{", 1, 1⟩, ⟨.name, b!"a", 1, 2⟩, ⟨.punctuator, b!"}", 1, 3⟩, ⟨.punctuator, b!"{", 1, 6⟩, ⟨.name, b!"b", 1, 7⟩,
    ⟨.punctuator, b!"}", 1, 8⟩, ⟨.eof, [], 1, 9⟩]) (by decide) rfl), rfl⟩

/-- The hypothesis of `C90_tokens` is met, with bytes that are not UTF-8 after the line break. -/
example : tokens (b!"query Q" ++ [10]) = .ret ([⟨.name, b!"query", 1, 1⟩, ⟨.name, b!"Q", 1, 7⟩] ++ [⟨.eof, [], 2, 1⟩]) ∧
    ∃ v vs, tokens (b!"query Q" ++ [10] ++ [0xC3, 0x28, 0]) = .ret ([⟨.name, b!"query", 1, 1⟩, ⟨.name, b!"Q", 1, 7⟩] ++ v :: vs) :=
  ⟨by decide, C90_tokens _ _ _ ⟨.eof, [], 2, 1⟩ (by decide)⟩

/-- The hypotheses of `C90_errors` and `C90_unexpected` are met. -/
example (pf : Bytes → Option Nat) : ∃ w, ∀ Y, parse pf (b!"{a:}" ++ [10] ++ Y) = .err (.unexpected ⟨.punctuator, b!"}", 1, 4⟩ w) :=
  ⟨_, fun Y => C90_unexpected pf _ Y _ _ (parse_eq (ts := [⟨.punctuator, b!"{", 1, 1⟩, ⟨.name, b!"a", 1, 2⟩, ⟨.punctuator, b!":", 1, 3⟩, ⟨.punctuator, b!"}", 1, 4⟩, ⟨.eof, [], 2, 1⟩]) (by decide) rfl)
    (by decide) (by decide)⟩

/-- Without the line break the last token can grow: C90 needs it. -/
theorem C90_refuted : tokens b!"a" = .ret ([⟨.name, b!"a", 1, 1⟩] ++ [⟨.eof, [], 1, 2⟩]) ∧ tokens (b!"a" ++ b!"b") = .ret [⟨.name, b!"ab", 1, 1⟩, ⟨.eof, [], 1, 3⟩] := by
  decide

end GQL
