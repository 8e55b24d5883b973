/-
C14 Everything in the grammar is accepted, with the AST it denotes.
C15 Everything accepted is in the grammar (of what the parser accepts), and means what the AST says.
C18 Definitions carry the position of their first token.

`Spec.Doc pf false` is the grammar of the GraphQL specification, `Spec.Doc pf true` the same with the extra
productions marked `lax = true` in Spec/Grammar.lean.
-/
import Verif.Proofs.ParseTop

namespace GQL
open Spec

variable (pf : Bytes → Option Nat)

theorem mkDocument_foldl (defs : List Definition) (st : Document × List Bytes) :
    (defs.foldl addDef st).1.defs = defs.reverse ++ st.1.defs := by
  induction defs generalizing st with
  | nil => rfl
  | cons d ds ih =>
    rw [List.foldl_cons, ih]
    obtain ⟨doc, exts⟩ := st
    have : (addDef (doc, exts) d).1.defs = d :: doc.defs := by
      unfold addDef; cases d.body <;> rfl
    rw [this]; simp

theorem mkDocument_defs (defs : List Definition) : (mkDocument defs).defs = defs := by
  have := mkDocument_foldl defs ({}, [])
  unfold mkDocument
  rcases e : defs.foldl addDef ({}, []) with ⟨doc, exts⟩
  rw [e] at this
  show doc.defs.reverse = defs
  rw [this]; simp

theorem manyDefs_eats {ts ds rr} (hm : Many (LocDefn pf true) ts ds rr) : Eats ts rr := by
  induction hm with
  | nil => exact .refl _
  | cons h1 _ ih => exact (locDefn_eats h1).1.trans ih

theorem doc_iff (ts : Toks) (hT : HasEnd ts) (defs : List Definition) :
    Doc pf true ts defs ↔ ∃ rest, parseDefs pf (ts.length + 1) ts = .ok defs rest := by
  simp only [parseDefs_doc (pf := pf) _ (Nat.lt_succ_self _)]
  constructor
  · rintro ⟨x, r, h1, h2, h3⟩; exact ⟨_, h1, h2, h3⟩
  · rintro ⟨rest, h1, h2, h3⟩
    have hT' := hT.of_eats (manyDefs_eats pf h2)
    cases rest with
    | nil => obtain ⟨t, ht, -⟩ := hT'; cases ht
    | cons x r => exact ⟨x, r, h1, h2, h3⟩

/-- C14: a document derivable from the grammar of the specification is accepted, with the definitions it denotes. -/
theorem C14_complete (input : Bytes) (ts : Toks) (ht : tokens input = .ret ts) (defs : List Definition)
    (h : Doc pf false ts defs) : ∃ d, parse pf input = .ok d ∧ d.defs = defs := by
  obtain ⟨rest, e⟩ := (doc_iff pf ts (term_of_tokens ht) defs).1 (doc_lax h)
  refine ⟨mkDocument defs, ?_, mkDocument_defs defs⟩
  unfold parse parseTokens
  rw [ht]; dsimp only; rw [e]

/-- C14/C15: what is accepted is exactly what the lax grammar derives. -/
theorem C15_exact_partial (input : Bytes) (ts : Toks) (ht : tokens input = .ret ts) (defs : List Definition) :
    (∃ d, parse pf input = .ok d ∧ d.defs = defs) ↔ Doc pf true ts defs := by
  rw [doc_iff pf ts (term_of_tokens ht) defs]
  unfold parse parseTokens
  rw [ht]; dsimp only
  constructor
  · rintro ⟨d, h, rfl⟩
    rcases e2 : parseDefs pf (ts.length + 1) ts with ⟨ds, r⟩ | ⟨er, _⟩ | _ | _ <;> rw [e2] at h
    · cases h; rw [mkDocument_defs]; exact ⟨r, rfl⟩
    · cases h
    · cases h
    · cases h
  · rintro ⟨rest, e⟩
    rw [e]
    exact ⟨_, rfl, mkDocument_defs _⟩

/-- C15: the grammar is unambiguous, so the same tokens never mean two documents. -/
theorem C15_unambiguous (lax : Bool) (input : Bytes) (ts : Toks) (ht : tokens input = .ret ts) (d₁ d₂ : List Definition)
    (h₁ : Doc pf lax ts d₁) (h₂ : Doc pf lax ts d₂) : d₁ = d₂ := by
  have key : ∀ d, Doc pf lax ts d → Doc pf true ts d := by
    intro d h; cases lax with
    | true => exact h
    | false => exact doc_lax h
  obtain ⟨r1, e1⟩ := (doc_iff pf ts (term_of_tokens ht) _).1 (key _ h₁)
  obtain ⟨r2, e2⟩ := (doc_iff pf ts (term_of_tokens ht) _).1 (key _ h₂)
  rw [e1] at e2
  exact (Res.ok.inj e2).1

/-- C18: the tokens of an accepted document are those of its definitions, one after the other, then EOF; each
definition carries line and column of its first token. -/
theorem C18_locations (input : Bytes) (ts : Toks) (ht : tokens input = .ret ts) (d : Document)
    (h : parse pf input = .ok d) :
    ∃ (segs : List (Token × Toks)) (eof : Token),
      ts = (segs.flatMap fun s => s.1 :: s.2) ++ [eof] ∧ eof.kind = .eof ∧
      d.defs.map (·.loc) = segs.map (fun s => (⟨s.1.line, s.1.col⟩ : Location)) ∧
      (∀ i (h1 : i < segs.length) (h2 : i < d.defs.length), ∃ rest,
        Defn pf true (segs[i].1 :: segs[i].2 ++ rest) d.defs[i].body rest) := by
  obtain ⟨x, r, hne, hm, hx⟩ := (C15_exact_partial pf input ts ht d.defs).1 ⟨d, h, rfl⟩
  have key : ∀ {ts defs rest}, Many (LocDefn pf true) ts defs rest → ∃ segs : List (Token × Toks),
      ts = (segs.flatMap fun s => s.1 :: s.2) ++ rest ∧
      defs.map (·.loc) = segs.map (fun s => (⟨s.1.line, s.1.col⟩ : Location)) ∧
      (∀ i (h1 : i < segs.length) (h2 : i < defs.length), ∃ rest,
        Defn pf true (segs[i].1 :: segs[i].2 ++ rest) defs[i].body rest) := by
    intro ts defs rest hm
    induction hm with
    | nil => exact ⟨[], rfl, rfl, by intro i h; simp at h⟩
    | @cons ts a r as rest h1 _ ih =>
      obtain ⟨segs, e1, e2, e3⟩ := ih
      cases h1 with
      | @mk t us b _ hd =>
        obtain ⟨⟨pre, e, -⟩, hlt⟩ := defn_eats hd
        cases pre with
        | nil => rw [List.nil_append] at e; rw [e] at hlt; omega
        | cons p pre =>
          rw [List.cons_append] at e
          obtain ⟨rfl, rfl⟩ := List.cons.inj e
          refine ⟨(t, pre) :: segs, by rw [e1]; simp, by simp [e2], ?_⟩
          intro i h1 h2
          cases i with
          | zero => exact ⟨r, hd⟩
          | succ i => exact e3 i (by simpa using h1) (by simpa using h2)
  obtain ⟨segs, e1, e2, e3⟩ := key hm
  obtain ⟨us, t, e4, -, hall⟩ := tokens_shape ht
  have hr : r = [] := by
    rcases List.eq_nil_or_concat r with rfl | ⟨r', y, rfl⟩
    · rfl
    · exfalso
      have e5 : us = (segs.flatMap fun s => s.1 :: s.2) ++ x :: r' := by
        have : us ++ [t] = ((segs.flatMap fun s => s.1 :: s.2) ++ x :: r') ++ [y] := by
          rw [← e4, e1]; simp
        exact (List.append_inj' this rfl).1
      exact (hall x (by rw [e5]; simp)).1 hx
  subst hr
  exact ⟨segs, x, e1, hx, e2, e3⟩

/-- A document of the specification's grammar: `{a}`. -/
example : ∃ ts defs, tokens b!"{a}" = .ret ts ∧ Doc pf false ts defs ∧ defs.length = 1 := by
  refine ⟨[⟨.punctuator, b!"{", 1, 1⟩, ⟨.name, b!"a", 1, 2⟩, ⟨.punctuator, b!"}", 1, 3⟩, ⟨.eof, [], 1, 4⟩],
    [⟨⟨1, 1⟩, .op ⟨.query, [], [], [], [.field [] b!"a" [] [] []]⟩⟩], by decide, ?_, rfl⟩
  have nn : ∀ {t : Token} {ts k l}, (t.kind ≠ k ∨ t.lit ≠ l) → NotNext1 k l (t :: ts) := by
    rintro t ts k l h rest ⟨u, e, h1, h2⟩
    obtain ⟨rfl, rfl⟩ := List.cons.inj e
    rcases h with h | h
    · exact h h1
    · exact h h2
  refine ⟨_, [], by simp, .cons (.mk (.op (.shorthand (.mk ⟨_, rfl, rfl, rfl⟩ (.one (.leaf
    (.plain ⟨_, rfl, rfl, rfl⟩ (nn (.inr (by decide)))) (.none (nn (.inr (by decide)))) ⟨.nil _, nn (.inr (by decide))⟩
    (nn (.inr (by decide))))) ⟨_, rfl, rfl, rfl⟩)))) (.nil _), rfl⟩

/-- Two definitions, the second one starting on line 2. -/
example : ∃ d, parse pf b!"{a}\n \"x\" type T" = .ok d ∧ d.defs.map (·.loc) = [⟨1, 1⟩, ⟨2, 2⟩] := ⟨_, (parse_eq (ts := [⟨.punctuator, b!"{", 1, 1⟩, ⟨.name, b!"a", 1, 2⟩, ⟨.punctuator, b!"}", 1, 3⟩, ⟨.stringValue, b!"x", 2, 2⟩, ⟨.name, b!"type", 2, 6⟩, ⟨.name, b!"T", 2, 11⟩, ⟨.eof, [], 2, 12⟩]) (by decide) rfl), rfl⟩

end GQL
