/-
C79 A syntax error is at the first wrong token.

`Spec/Viable.lean`: the place of an error in a text (`Place`) and the three places where errors come late (`Late`).
-/
import Verif.Proofs.ParseViaBody
import Verif.Proofs.LexCut
import Verif.Spec.Viable
import Verif.Props.C76

namespace GQL
open Spec Spec.Syntax

theorem codeKind_eq (k : Kind) : codeKind k = goKind k := by cases k <;> rfl

theorem late_of_dead {e : PErr} {s : Toks} (h : DDef e s) : Late e s := by
  have wt : ∀ {e}, AsksType e → WantsType e := by
    intro e h
    cases e <;> exact h
  have lb : ∀ {c}, Brackets c → ListBegun c := by
    rintro c ⟨t, y, h1, h2, h3⟩
    exact ⟨t, y, h1, h2.1, h2.2, h3⟩
  cases h with
  | on x t y h hk hl hb he => exact .condition x y t h hk hl (lb hb) (wt he)
  | frag x t u h hk hl hk2 hl2 he =>
    refine .fragmentName x t u h hk hl hk2 hl2 ?_
    cases e with
    | unexpected f w => exact ⟨f, by rw [show w = [b!"Name '!on'"] from he]⟩
    | _ => cases he
  | op x t y h hk hl hb =>
    obtain ⟨h1, x2, o, c, z, rfl, h2, h3, h4⟩ := hb
    exact .rootType x x2 z t o c h hk hl h2.1 h2.2 h3.1 h3.2 (lb h4) (wt h1)

/-- Where the parser fails, and what could have come there. -/
theorem fails_viable {pf : Bytes → Option Nat} {input : Bytes} {e : PErr} (h : parse pf input = .err e) :
    ∃ before t rest, tokens input = .ret (before ++ t :: rest) ∧ FailsAt pf e before t ∧
      (Late e before ∨ ∃ w ds, Pl w ∧ Doc pf true (before ++ (w ++ [tkn .eof []])) ds) := by
  obtain ⟨ts, r, ht, hp⟩ := parse_err h
  have he := term_of_tokens ht
  obtain ⟨c, s0, t, h1, h2, h3, h4, h5, h6⟩ := parseDefs_local pf _ he hp
  obtain ⟨rest, hr⟩ := seen_tokens h3
  obtain ⟨c', g1, g2, g3⟩ := defs_complete (pf := pf) _ hp
  have hc : c' = c := List.append_cancel_right (g1.symm.trans h1)
  subst hc
  have hs : s0 = beforeE e c' := by
    unfold beforeE
    rcases h3 with ⟨k1, -, k3⟩ | ⟨k1, c0, u, k2, k3⟩
    · obtain ⟨rfl, -⟩ := List.append_inj' k1 rfl
      have : late e = false := by
        cases e with
        | unexpected t0 w => exact late_unexpected k3.2
        | atoi l => cases k3
        | parseFloat l => cases k3
        | todo => rfl
      rw [this]; rfl
    · have : late e = true := by
        cases e with
        | unexpected t0 w => simp [late, k3.2.2.2]
        | atoi l => rfl
        | parseFloat l => rfl
        | todo => cases k3
      rw [this, ← k1]
      simp
  rw [← hs] at g3
  refine ⟨s0, t, rest, by rw [ht, h1, hr], ⟨seen_about h3, fun input' rest' ht' => ?_⟩, g3.imp late_of_dead ?_⟩
  · obtain ⟨r', h⟩ := h5 rest' (term_of_tokens ht')
    exact parse_of_defs ht' h
  · rintro ⟨w, ds, k1, k2, k3⟩
    exact ⟨w, ds, k1, _, _, k2, k3, rfl⟩

/-- The place of a token in a text, and how to go on differently from there. -/
theorem place_cut {cs : List Char} (h0 : '\x00' ∉ cs) {before rest : Toks} {t : Token} (ht : tokens (utf8 cs) = .ret (before ++ t :: rest)) :
    ∃ p : Place cs before t, ∀ w, Pl w → ∃ more ts, tokens (utf8 (p.head ++ more)) = .ret ts ∧ Sim (before ++ (w ++ [tkn .eof []])) ts := by
  obtain ⟨items, r, toks, last, l1, l2, l3, l4, l5⟩ := C03_tokens cs h0
  rw [ht] at l3
  have e0 : before ++ t :: rest = toks ++ [last] := Out.ret.inj l3
  have hsplit : ∃ i1 i2, items = i1 ++ i2 ∧ SameTokens before i1 ∧
      ((i2 = [] ∧ t = last) ∨ ∃ i l, i2 = i :: l ∧ t.kind = goKind i.tok.kind ∧ t.lit = utf8 i.tok.value) := by
    unfold SameTokens at l4
    rcases List.eq_nil_or_concat rest with hn | ⟨rest0, u, hn⟩
    · subst hn
      obtain ⟨e1, e2⟩ := List.append_inj' e0 rfl
      subst e1
      exact ⟨items, [], by simp, l4, .inl ⟨rfl, (List.cons.inj e2).1⟩⟩
    · rw [hn, List.concat_eq_append] at e0
      have e1 : toks = before ++ t :: rest0 := by
        have : (before ++ t :: rest0) ++ [u] = toks ++ [last] := by simpa using e0
        exact (List.append_inj' this rfl).1.symm
      rw [e1, List.map_append, List.map_cons] at l4
      obtain ⟨i1, i2, rfl, k1, k2⟩ := List.append_eq_map_iff.1 l4
      obtain ⟨i, l, rfl, k3, k4⟩ := List.map_eq_cons_iff.1 k2
      refine ⟨i1, _, rfl, k1.symm, .inr ⟨i, l, rfl, ?_, ?_⟩⟩
      · exact (Prod.mk.inj k3).1.symm
      · exact (Prod.mk.inj k3).2.symm
  obtain ⟨i1, i2, rfl, hsame, hnext⟩ := hsplit
  obtain ⟨a, b, rfl, k1, k2, k3, k4⟩ := lex_cut l1 rfl
  obtain ⟨ja, hja, ea⟩ := k3 []
  have hja2 : before.map (fun t => (t.kind, t.lit)) = ja.map (fun i => (goKind i.tok.kind, utf8 i.tok.value)) := by
    unfold SameTokens at hsame
    rw [hsame]
    have := congrArg (List.map fun t : Tok => (goKind t.kind, utf8 t.value)) ea
    simpa [Function.comp_def] using this.symm
  have hstart : (b = [] ∧ t.kind = .eof) ∨ (∃ tok rest, Lexeme GoBlock b tok rest ∧ t.kind = codeKind tok.kind ∧ t.lit = utf8 tok.value) ∨
      (Stuck GoBlock b ∧ t.kind = .illegal) := by
    rcases hnext with ⟨n1, rfl⟩ | ⟨i, l, rfl, n2, n3⟩
    · have := k2 n1
      subst this
      rcases l2 with l2 | l2
      · subst l2
        exact .inl ⟨rfl, l5⟩
      · refine .inr (.inr ⟨l2, ?_⟩)
        rw [l5, if_neg]
        obtain ⟨c, t, e, -⟩ := l2
        rw [e]; simp
    · obtain ⟨r', hr'⟩ := k1 i l rfl
      exact .inr (.inl ⟨i.tok, r', hr', by rw [n2, codeKind_eq], n3⟩)
  refine ⟨⟨a, b, rfl, ja, hja, by simpa only [codeKind_eq] using hja2, hstart⟩, fun w hw => ?_⟩
  obtain ⟨o, cw, -, hz, hread⟩ := plains_read hw
  obtain ⟨-, hr⟩ := hread [] (fun _ c t e => by cases e)
  obtain ⟨iw, hiw, eiw⟩ := hr []
  rw [List.append_nil] at hiw
  obtain ⟨j, hj, ej⟩ := k4 [] cw (iw.map (·.tok)) (fun p => by
    obtain ⟨j, h1, h2⟩ := lex_rebase hiw (p ++ ['\n'])
    exact ⟨j, .ignore rfl h1, h2⟩)
  refine ⟨'\n' :: cw, ?_⟩
  have hz2 : '\x00' ∉ a ++ '\n' :: cw := by
    simp only [List.mem_append, List.mem_cons, not_or] at h0 ⊢
    exact ⟨h0.1, by decide, hz⟩
  obtain ⟨j2, r2, toks2, last2, m1, m2, m3, m4, m5⟩ := C03_tokens _ hz2
  obtain ⟨rfl, rfl⟩ := C03_deterministic _ hz2 _ _ _ _ hj (.inl rfl) m1 m2
  refine ⟨_, m3, ?_⟩
  replace m5 : last2.kind = .eof := m5
  have hl := tokens_eof_lit m3 (t := last2) (by simp) m5
  unfold SameTokens at m4 hsame
  unfold Sim
  have e1 := congrArg (List.map fun t : Tok => (goKind t.kind, utf8 t.value)) ej
  rw [List.map_append, List.map_map, List.map_map, List.map_map] at e1
  have e2 := congrArg (List.map fun t : Token => (t.kind, t.lit)) eiw
  unfold itemToks at e2
  rw [List.map_map, List.map_map] at e2
  have e3 : j.map (fun i => (goKind i.tok.kind, utf8 i.tok.value)) = i1.map (fun i => (goKind i.tok.kind, utf8 i.tok.value)) ++ w.map (fun t => (t.kind, t.lit)) :=
    e1.trans (congrArg (_ ++ ·) e2)
  simp only [List.map_append, hsame, m4, e3, List.map_cons, List.map_nil, m5, hl, tkn, List.append_assoc]

/-- C79, but for the places in `Late`: the error is about the first wrong token.  The text before that token (`p.head`) can be completed to a text that
is accepted, and no text that has the token after it is (`FailsAt`). -/
theorem C79_first_wrong_partial (pf : Bytes → Option Nat) (cs : List Char) (h0 : '\x00' ∉ cs) (e : PErr) (h : parse pf (utf8 cs) = .err e) :
    ∃ before t rest, tokens (utf8 cs) = .ret (before ++ t :: rest) ∧ FailsAt pf e before t ∧
      ∃ p : Place cs before t, Late e before ∨ ∃ more d, parse pf (utf8 (p.head ++ more)) = .ok d := by
  obtain ⟨before, t, rest, h1, h2, h3⟩ := fails_viable h
  obtain ⟨p, hp⟩ := place_cut h0 h1
  refine ⟨before, t, rest, h1, h2, p, h3.imp id ?_⟩
  rintro ⟨w, ds, hw, hd⟩
  obtain ⟨more, ts, k1, k2⟩ := hp w hw
  obtain ⟨ds', hd', -⟩ := doc_sim hd k2
  obtain ⟨d, k3, -⟩ := (C15_exact_partial pf _ ts k1 ds').2 hd'
  exact ⟨more, d, k3⟩

/-- C79 as an alternative: the text before the token that the error is about can be completed to an accepted text, or no text that begins
like that is accepted, and then the error came late in one of the three ways of `Late`. -/
theorem C79_alternative (pf : Bytes → Option Nat) (cs : List Char) (h0 : '\x00' ∉ cs) (e : PErr) (h : parse pf (utf8 cs) = .err e) :
    ∃ before t rest, tokens (utf8 cs) = .ret (before ++ t :: rest) ∧ FailsAt pf e before t ∧
      ∃ p : Place cs before t,
        (∃ more d, parse pf (utf8 (p.head ++ more)) = .ok d) ∨
        ((∀ more d, parse pf (utf8 (p.head ++ more)) ≠ .ok d) ∧ Late e before) := by
  obtain ⟨before, t, rest, h1, h2, p, h3⟩ := C79_first_wrong_partial pf cs h0 e h
  refine ⟨before, t, rest, h1, h2, p, ?_⟩
  by_cases hc : ∃ more d, parse pf (utf8 (p.head ++ more)) = .ok d
  · exact .inl hc
  · exact .inr ⟨fun more d hd => hc ⟨more, d, hd⟩, h3.resolve_right hc⟩

/-! ### The late errors -/

theorem tok1_cons {k : TokenKind} {l : Bytes} {t : Token} {ts r : Toks} (h : Tok1 k l (t :: ts) r) : t.kind = k ∧ t.lit = l ∧ r = ts := by
  obtain ⟨u, e, h1, h2⟩ := h
  cases e
  exact ⟨h1, h2, rfl⟩

theorem typeDefn_word {pf : Bytes → Option Nat} {desc : Bytes} {t : Token} {ts rest : Toks} {d : TypeDef} (h : TypeDefn pf true desc (t :: ts) d rest) :
    t.kind = .name ∧ t.lit ∈ [b!"scalar", b!"type", b!"interface", b!"union", b!"enum", b!"input"] := by
  cases h with
  | scalar h => obtain ⟨h1, h2, -⟩ := tok1_cons h; exact ⟨h1, by rw [h2]; decide⟩
  | object h => obtain ⟨h1, h2, -⟩ := tok1_cons h; exact ⟨h1, by rw [h2]; decide⟩
  | interface h => obtain ⟨h1, h2, -⟩ := tok1_cons h; exact ⟨h1, by rw [h2]; decide⟩
  | union h => obtain ⟨h1, h2, -⟩ := tok1_cons h; exact ⟨h1, by rw [h2]; decide⟩
  | enum h => obtain ⟨h1, h2, -⟩ := tok1_cons h; exact ⟨h1, by rw [h2]; decide⟩
  | input h => obtain ⟨h1, h2, -⟩ := tok1_cons h; exact ⟨h1, by rw [h2]; decide⟩

theorem opType_word {t : Token} {ts rest : Toks} {k : OpKind} (h : OpType (t :: ts) k rest) :
    t.kind = .name ∧ t.lit ∈ [b!"query", b!"mutation", b!"subscription"] ∧ rest = ts := by
  cases h with
  | query h => obtain ⟨h1, h2, h3⟩ := tok1_cons h; exact ⟨h1, by rw [h2]; decide, h3⟩
  | mutation h => obtain ⟨h1, h2, h3⟩ := tok1_cons h; exact ⟨h1, by rw [h2]; decide, h3⟩
  | subscription h => obtain ⟨h1, h2, h3⟩ := tok1_cons h; exact ⟨h1, by rw [h2]; decide, h3⟩

/-- Definitions by their first token. -/
theorem defn_first {pf : Bytes → Option Nat} {t : Token} {ts rest : Toks} {b : Body} (h : Defn pf true (t :: ts) b rest) :
    (∃ sels, SelSet pf true (t :: ts) sels rest) ∨ (∃ f, FragDefn pf true (t :: ts) f rest) ∨ (∃ s, SchemaDefn pf true (t :: ts) s rest) ∨
      t.kind = .stringValue ∨ (t.kind = .name ∧ t.lit ∈ [b!"query", b!"mutation", b!"subscription", b!"extend", b!"directive", b!"scalar", b!"type", b!"interface", b!"union", b!"enum", b!"input"]) := by
  have desc : ∀ {d r}, OptTok .stringValue (t :: ts) d r → t.kind = .stringValue ∨ r = t :: ts := by
    rintro d r (h | ⟨-, -, h⟩)
    · exact .inl (tok1_cons h).1
    · exact .inr h
  cases h with
  | op h =>
    cases h with
    | shorthand h => exact .inl ⟨_, h⟩
    | full h =>
      obtain ⟨h1, h2, -⟩ := opType_word h
      exact .inr (.inr (.inr (.inr ⟨h1, List.mem_append_left [b!"extend", b!"directive", b!"scalar", b!"type", b!"interface", b!"union", b!"enum", b!"input"] h2⟩)))
  | frag h => exact .inr (.inl ⟨_, h⟩)
  | schema h => exact .inr (.inr (.inl ⟨_, h⟩))
  | schemaDesc _ h => exact .inr (.inr (.inr (.inl (tok1_cons h).1)))
  | type h h2 =>
    rcases desc h with h | rfl
    · exact .inr (.inr (.inr (.inl h)))
    · obtain ⟨h1, h2⟩ := typeDefn_word h2
      exact .inr (.inr (.inr (.inr ⟨h1, List.mem_append_right [b!"query", b!"mutation", b!"subscription", b!"extend", b!"directive"] h2⟩)))
  | directive h h2 =>
    rcases desc h with h | rfl
    · exact .inr (.inr (.inr (.inl h)))
    · cases h2 with
      | mk h =>
        obtain ⟨h1, h2, -⟩ := tok1_cons h
        exact .inr (.inr (.inr (.inr ⟨h1, by rw [h2]; decide⟩)))
  | schemaExt h => obtain ⟨h1, h2, -⟩ := tok1_cons h; exact .inr (.inr (.inr (.inr ⟨h1, by rw [h2]; decide⟩)))
  | typeExt h => obtain ⟨h1, h2, -⟩ := tok1_cons h; exact .inr (.inr (.inr (.inr ⟨h1, by rw [h2]; decide⟩)))

theorem doc_first {pf : Bytes → Option Nat} {t : Token} {ts : Toks} {ds : List Definition} (h : Doc pf true (t :: ts) ds) :
    ∃ b rest, Defn pf true (t :: ts) b rest := by
  obtain ⟨e, rest, h1, h2, -⟩ := h
  cases h2 with
  | nil => exact absurd rfl h1
  | cons h2 => cases h2 with
    | mk h2 => exact ⟨_, _, h2⟩

/-- Nothing that begins like this is accepted. -/
def Hopeless (pf : Bytes → Option Nat) (before : List (TokenKind × Bytes)) : Prop :=
  ∀ input ts, tokens input = .ret ts → before <+: ts.map (fun t => (t.kind, t.lit)) → ∀ d, parse pf input ≠ .ok d

theorem hopeless_of {pf : Bytes → Option Nat} {k : TokenKind} {l : Bytes} {before : List (TokenKind × Bytes)}
    (h : ∀ t ts b rest, t.kind = k → t.lit = l → before <+: ts.map (fun t => (t.kind, t.lit)) → ¬ Defn pf true (t :: ts) b rest) :
    Hopeless pf ((k, l) :: before) := by
  rintro input ts ht ⟨z, hz⟩ d hd
  have hdoc := (C15_exact_partial pf input ts ht d.defs).1 ⟨d, hd, rfl⟩
  cases ts with
  | nil => cases hz
  | cons t ts =>
    obtain ⟨b, rest, hb⟩ := doc_first hdoc
    rw [List.map_cons, List.cons_append] at hz
    obtain ⟨h1, h2⟩ := List.cons.inj hz
    exact h t ts b rest (Prod.mk.inj h1).1.symm (Prod.mk.inj h1).2.symm ⟨z, h2⟩ hb

theorem begins {k : TokenKind} {l : Bytes} {before : List (TokenKind × Bytes)} {ts : Toks} (h : (k, l) :: before <+: ts.map (fun t => (t.kind, t.lit))) :
    ∃ t ts', ts = t :: ts' ∧ t.kind = k ∧ t.lit = l ∧ before <+: ts'.map (fun t => (t.kind, t.lit)) := by
  obtain ⟨z, hz⟩ := h
  cases ts with
  | nil => cases hz
  | cons t ts =>
    rw [List.map_cons, List.cons_append] at hz
    obtain ⟨h1, h2⟩ := List.cons.inj hz
    exact ⟨t, ts, rfl, (Prod.mk.inj h1).1.symm, (Prod.mk.inj h1).2.symm, z, h2⟩

/-- C79 is false of the errors in `Late`: nothing that begins with `fragment on` is accepted, but the error is about what comes after. -/
theorem C79_false_fragment (pf : Bytes → Option Nat) : Hopeless pf [(.name, b!"fragment"), (.name, b!"on")] ∧
    parse pf b!"fragment on T{a}" = .err (.unexpected ⟨.name, b!"T", 1, 13⟩ [b!"Name '!on'"]) := by
  refine ⟨hopeless_of ?_, (parse_eq (ts := [⟨.name, b!"fragment", 1, 1⟩, ⟨.name, b!"on", 1, 10⟩, ⟨.name, b!"T", 1, 13⟩, ⟨.punctuator, b!"{", 1, 14⟩, ⟨.name, b!"a", 1, 15⟩, ⟨.punctuator, b!"}", 1, 16⟩, ⟨.eof, [], 1, 17⟩]) (by decide) rfl)⟩
  intro t ts b rest hk hl hb h
  obtain ⟨u, ts, rfl, hk2, hl2, -⟩ := begins hb
  rcases defn_first h with ⟨_, h⟩ | ⟨_, h⟩ | ⟨_, h⟩ | h | ⟨-, h⟩
  · cases h with | mk h => rw [(tok1_cons h).1] at hk; cases hk
  · cases h with
    | mk h h2 h3 =>
      obtain ⟨-, -, rfl⟩ := tok1_cons h
      obtain ⟨-, h2, -⟩ := tok1_cons h2
      exact h3 (h2.symm.trans hl2)
  · cases h with | mk h => rw [(tok1_cons h).2.1] at hl; exact absurd hl (by decide)
  · rw [h] at hk; cases hk
  · rw [hl] at h; exact absurd h (by decide)

theorem namedType_bracket {t : Token} {ts rest : Toks} {ty : Ty} (hk : t.kind = .punctuator) (h : NamedType true (t :: ts) ty rest) : False := by
  cases h with | mk h => rw [(tok1_cons h).1] at hk; cases hk

/-- Nothing that begins with `{...on[` is accepted, but the error comes two tokens later. -/
theorem C79_false_condition (pf : Bytes → Option Nat) :
    Hopeless pf [(.punctuator, b!"{"), (.punctuator, b!"..."), (.name, b!"on"), (.punctuator, b!"[")] ∧
    parse pf b!"{...on[T]{a}}" = .err (.unexpected ⟨.punctuator, b!"{", 1, 10⟩ [b!"NamedType"]) := by
  refine ⟨hopeless_of ?_, (parse_eq (ts := [⟨.punctuator, b!"{", 1, 1⟩, ⟨.punctuator, b!"...", 1, 2⟩, ⟨.name, b!"on", 1, 5⟩, ⟨.punctuator, b!"[", 1, 7⟩, ⟨.name, b!"T", 1, 8⟩, ⟨.punctuator, b!"]", 1, 9⟩, ⟨.punctuator, b!"{", 1, 10⟩, ⟨.name, b!"a", 1, 11⟩, ⟨.punctuator, b!"}", 1, 12⟩, ⟨.punctuator, b!"}", 1, 13⟩, ⟨.eof, [], 1, 14⟩]) (by decide) rfl)⟩
  intro t ts b rest hk hl hb h
  obtain ⟨t1, ts, rfl, hk1, hl1, hb⟩ := begins hb
  obtain ⟨t2, ts, rfl, hk2, hl2, hb⟩ := begins hb
  obtain ⟨t3, ts, rfl, hk3, hl3, -⟩ := begins hb
  have key : ∀ {s r}, ¬ Sel pf true (t1 :: t2 :: t3 :: ts) s r := by
    intro s r h
    have nofield : ∀ {a n r}, ¬ FieldName (t1 :: t2 :: t3 :: ts) (a, n) r := by
      intro a n r h
      cases h with
      | plain h => rw [(tok1_cons h).1] at hk1; cases hk1
      | alias h => rw [(tok1_cons h).1] at hk1; cases hk1
    cases h with
    | leaf h => exact nofield h
    | node h => exact nofield h
    | spread h h2 h3 =>
      obtain ⟨-, -, rfl⟩ := tok1_cons h
      exact h3 ((tok1_cons h2).2.1.symm.trans hl2)
    | inline h h2 =>
      obtain ⟨-, -, rfl⟩ := tok1_cons h
      cases h2 with
      | none h2 => exact h2 _ ⟨_, rfl, hk2, hl2⟩
      | some h2 =>
        cases h2 with
        | mk h2 h3 =>
          obtain ⟨-, -, rfl⟩ := tok1_cons h2
          exact namedType_bracket hk3 h3
  rcases defn_first h with ⟨_, h⟩ | ⟨_, h⟩ | ⟨_, h⟩ | h | ⟨h, -⟩
  · cases h with
    | mk h h2 =>
      obtain ⟨-, -, rfl⟩ := tok1_cons h
      cases h2 with
      | one h2 => exact key h2
      | cons h2 => exact key h2
  · cases h with | mk h => rw [(tok1_cons h).1] at hk; cases hk
  · cases h with | mk h => rw [(tok1_cons h).1] at hk; cases hk
  · rw [h] at hk; cases hk
  · rw [h] at hk; cases hk

/-- Nothing that begins with `schema{query:[` is accepted, but the error comes two tokens later. -/
theorem C79_false_root (pf : Bytes → Option Nat) :
    Hopeless pf [(.name, b!"schema"), (.punctuator, b!"{"), (.name, b!"query"), (.punctuator, b!":"), (.punctuator, b!"[")] ∧
    parse pf b!"schema{query:[Q]}" = .err (.unexpected ⟨.punctuator, b!"}", 1, 17⟩ [b!"NamedType"]) := by
  refine ⟨hopeless_of ?_, (parse_eq (ts := [⟨.name, b!"schema", 1, 1⟩, ⟨.punctuator, b!"{", 1, 7⟩, ⟨.name, b!"query", 1, 8⟩, ⟨.punctuator, b!":", 1, 13⟩, ⟨.punctuator, b!"[", 1, 14⟩, ⟨.name, b!"Q", 1, 15⟩, ⟨.punctuator, b!"]", 1, 16⟩, ⟨.punctuator, b!"}", 1, 17⟩, ⟨.eof, [], 1, 18⟩]) (by decide) rfl)⟩
  intro t ts b rest hk hl hb h
  obtain ⟨t1, ts, rfl, hk1, hl1, hb⟩ := begins hb
  obtain ⟨t2, ts, rfl, hk2, hl2, hb⟩ := begins hb
  obtain ⟨t3, ts, rfl, hk3, hl3, hb⟩ := begins hb
  obtain ⟨t4, ts, rfl, hk4, hl4, -⟩ := begins hb
  rcases defn_first h with ⟨_, h⟩ | ⟨_, h⟩ | ⟨_, h⟩ | h | ⟨-, h⟩
  · cases h with | mk h => rw [(tok1_cons h).1] at hk; cases hk
  · cases h with | mk h => rw [(tok1_cons h).2.1] at hl; exact absurd hl (by decide)
  · cases h with
    | mk h h2 h3 =>
      obtain ⟨-, -, rfl⟩ := tok1_cons h
      obtain ⟨h2, -⟩ := h2
      cases h2 with
      | cons h2 => cases h2 with | mk h2 => rw [(tok1_cons h2).2.1] at hl1; exact absurd hl1 (by decide)
      | nil =>
        cases h3 with
        | mk h3 h4 h5 =>
          obtain ⟨-, -, rfl⟩ := tok1_cons h3
          cases h4 with
          | nil => exact h5 rfl
          | cons h4 =>
            cases h4 with
            | mk h6 h7 h8 =>
              obtain ⟨-, -, rfl⟩ := opType_word h6
              obtain ⟨-, -, rfl⟩ := tok1_cons h7
              exact namedType_bracket hk4 h8
  · rw [h] at hk; cases hk
  · rw [hl] at h; exact absurd h (by decide)

/-! ### An instance -/

/-- The text `{ a(b: 1 }` fails at `}`; the text before it can be completed. -/
example (pf : Bytes → Option Nat) : parse pf b!"{ a(b: 1 }" = .err (.unexpected ⟨.punctuator, b!"}", 1, 10⟩ [b!"Name ''"]) ∧
    ∃ d, parse pf b!"{ a(b: 1 )}" = .ok d :=
  ⟨(parse_eq (ts := [⟨.punctuator, b!"{", 1, 1⟩, ⟨.name, b!"a", 1, 3⟩, ⟨.punctuator, b!"(", 1, 4⟩, ⟨.name, b!"b", 1, 5⟩, ⟨.punctuator, b!":", 1, 6⟩, ⟨.intValue, b!"1", 1, 8⟩, ⟨.punctuator, b!"}", 1, 10⟩, ⟨.eof, [], 1, 11⟩]) (by decide) rfl), _, (parse_eq (ts := [⟨.punctuator, b!"{", 1, 1⟩, ⟨.name, b!"a", 1, 3⟩, ⟨.punctuator, b!"(", 1, 4⟩, ⟨.name, b!"b", 1, 5⟩, ⟨.punctuator, b!":", 1, 6⟩, ⟨.intValue, b!"1", 1, 8⟩, ⟨.punctuator, b!")", 1, 10⟩, ⟨.punctuator, b!"}", 1, 11⟩, ⟨.eof, [], 1, 12⟩]) (by decide) rfl)⟩

end GQL
