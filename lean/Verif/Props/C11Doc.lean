/-
C11 Ignored characters never change the meaning: the document.
C14, from the text: lexical grammar and syntactic grammar together.
-/
import Verif.Props.C11
import Verif.Props.C14
import Verif.Proofs.ParseSim
import Verif.Proofs.LexEof

namespace GQL
open Spec

variable (pf : Bytes → Option Nat)

/-- The document without the positions of its definitions. -/
def Spec.noLoc (d : Document) : Document := { d with defs := d.defs.map fun x => ⟨⟨0, 0⟩, x.body⟩ }

theorem foldl_addDef_bodies {ds ds' : List Definition} (h : ds'.map (·.body) = ds.map (·.body)) (st st' : Document × List Bytes)
    (h1 : noLoc st'.1 = noLoc st.1) (h2 : st'.2 = st.2) :
    noLoc (ds'.foldl addDef st').1 = noLoc (ds.foldl addDef st).1 ∧ (ds'.foldl addDef st').2 = (ds.foldl addDef st).2 := by
  induction ds generalizing ds' st st' with
  | nil =>
    have := List.map_eq_nil_iff.1 h
    subst this
    exact ⟨h1, h2⟩
  | cons d ds ih =>
    cases ds' with
    | nil => simp at h
    | cons d' ds' =>
      simp only [List.map_cons, List.cons.injEq] at h
      rw [List.foldl_cons, List.foldl_cons]
      refine ih h.2 _ _ ?_ ?_
      all_goals
        obtain ⟨l, b⟩ := d
        obtain ⟨l', b'⟩ := d'
        obtain ⟨⟨_, _, _, _, _, _, _, _⟩, ex⟩ := st
        obtain ⟨⟨_, _, _, _, _, _, _, _⟩, ex'⟩ := st'
        obtain rfl : b' = b := h.1
        simp only [noLoc, Document.mk.injEq] at h1
        obtain rfl : ex' = ex := h2
        obtain ⟨k1, rfl, rfl, rfl, rfl, rfl, rfl, rfl⟩ := h1
        cases b' <;> simp [addDef, noLoc, k1]

theorem mkDocument_bodies {ds ds' : List Definition} (h : ds'.map (·.body) = ds.map (·.body)) :
    noLoc (mkDocument ds') = noLoc (mkDocument ds) := by
  obtain ⟨h1, h2⟩ := foldl_addDef_bodies h ({}, []) ({}, []) rfl rfl
  unfold mkDocument
  rcases e : ds.foldl addDef ({}, []) with ⟨⟨_, _, _, _, _, _, _, _⟩, ex⟩
  rcases e' : ds'.foldl addDef ({}, []) with ⟨⟨_, _, _, _, _, _, _, _⟩, ex'⟩
  rw [e, e'] at h1 h2
  simp only [noLoc, Document.mk.injEq] at h1 h2 ⊢
  subst h2
  simp only [h1, and_self, and_true, true_and, List.map_reverse]

/-- The parsed document depends on kinds and literals of the tokens only. -/
theorem parse_sim {i i' : Bytes} {ts ts' : Toks} (ht : tokens i = .ret ts) (ht' : tokens i' = .ret ts') (hs : Sim ts ts')
    {d : Document} (h : parse pf i = .ok d) : ∃ d', parse pf i' = .ok d' ∧ noLoc d' = noLoc d := by
  have hd := (C15_exact_partial pf i ts ht d.defs).1 ⟨d, h, rfl⟩
  obtain ⟨ds', hd', eb⟩ := doc_sim hd hs
  obtain ⟨d', h', rfl⟩ := (C15_exact_partial pf i' ts' ht' ds').2 hd'
  refine ⟨d', h', ?_⟩
  have mk : ∀ {i d}, parse pf i = .ok d → d = mkDocument d.defs := by
    intro i d h
    obtain ⟨ts, -, e⟩ := parse_tokens (pf := pf) (input := i)
    rw [e] at h; unfold parseTokens at h
    rcases e2 : parseDefs pf (ts.length + 1) ts with ⟨ds, _⟩ | ⟨er, _⟩ | _ | _ <;> rw [e2] at h
    · cases h; rw [mkDocument_defs]
    · cases h
    · cases h
    · cases h
  rw [mk h, mk h']
  exact mkDocument_bodies (by rw [eb])

theorem inserted_from {cs cs' : List Char} (h : Inserted cs cs') : cs' = cs ∨ ∃ items, Lex GoBlock [] cs items [] := by
  induction h with
  | refl => exact .inl rfl
  | step _ h2 _ _ _ _ ih =>
    rcases ih with e | h
    · exact .inr ⟨_, e ▸ h2⟩
    · exact .inr h

/-- A text and the text with insertions have the same tokens, up to EOF, or are the same text. -/
theorem inserted_sim {cs cs' : List Char} (h0 : '\x00' ∉ cs) (hi : Inserted cs cs') :
    cs' = cs ∨ ∃ ts ts', tokens (utf8 cs) = .ret ts ∧ tokens (utf8 cs') = .ret ts' ∧ Sim ts ts' := by
  rcases inserted_from hi with e | ⟨items, hl⟩
  · exact .inl e
  · right
    obtain ⟨i2, r2, toks, e, h1, h2, ht, h4, he⟩ := C03_tokens cs h0
    obtain ⟨rfl, rfl⟩ := C03_deterministic cs h0 _ _ _ _ hl (.inl rfl) h1 h2
    replace he : e.kind = .eof := he
    obtain ⟨toks', last', ht', he', hk⟩ := C11_tokens cs cs' h0 hi _ e ht he
    refine ⟨_, _, ht, ht', ?_⟩
    unfold Sim
    rw [List.map_append, List.map_append, hk]
    simp [he, he', tokens_eof_lit ht (t := e) (by simp) he, tokens_eof_lit ht' (t := last') (by simp) he']

/-- C11: inserting ignorable texts between the tokens of an accepted text changes nothing but locations. -/
theorem C11_document (cs cs' : List Char) (h0 : '\x00' ∉ cs) (hi : Inserted cs cs') (d : Document)
    (h : parse pf (utf8 cs) = .ok d) : ∃ d', parse pf (utf8 cs') = .ok d' ∧ noLoc d' = noLoc d := by
  rcases inserted_sim h0 hi with rfl | ⟨ts, ts', ht, ht', hs⟩
  · exact ⟨d, h, rfl⟩
  · exact parse_sim pf ht ht' hs h

/-- C11, backwards: taking ignorable texts out of an accepted text, where they are between tokens, changes nothing but locations. -/
theorem C11_removal (cs cs' : List Char) (h0 : '\x00' ∉ cs) (hi : Inserted cs cs') (d' : Document)
    (h : parse pf (utf8 cs') = .ok d') : ∃ d, parse pf (utf8 cs) = .ok d ∧ noLoc d' = noLoc d := by
  rcases inserted_sim h0 hi with rfl | ⟨ts, ts', ht, ht', hs⟩
  · exact ⟨d', h, rfl⟩
  · obtain ⟨d, h1, h2⟩ := parse_sim pf ht' ht (Sim.symm hs) h
    exact ⟨d, h1, h2.symm⟩

/-- The two texts of the example in Props/C11 mean the same. -/
example : ∃ d, parse pf (utf8 c!"{a b}") = .ok d ∧ d.defs.length = 1 := ⟨_, (parse_eq (ts := [⟨.punctuator, b!"{", 1, 1⟩, ⟨.name, b!"a", 1, 2⟩, ⟨.name, b!"b", 1, 4⟩, ⟨.punctuator, b!"}", 1, 5⟩, ⟨.eof, [], 1, 6⟩]) (by decide) rfl), rfl⟩

/-- Tokens at unknown positions, for stating the grammar over lexical items. -/
def Spec.itemToks (items : List Item) : Toks := items.map fun i => ⟨goKind i.tok.kind, utf8 i.tok.value, 0, 0⟩

/-- C14 from the text: a text that the lexical grammar of the specification (block strings plain, see C07) divides into items
which the syntactic grammar derives as definitions with bodies `bs` is accepted with these bodies, in this order. -/
theorem C14_text (cs : List Char) (h0 : '\x00' ∉ cs) (items : List Item) (hp : PlainBlocks items)
    (hl : Lex SpecBlock [] cs items []) (defs : List Definition)
    (hd : Doc pf false (itemToks items ++ [⟨.eof, [], 0, 0⟩]) defs) :
    ∃ d, parse pf (utf8 cs) = .ok d ∧ d.defs.map (·.body) = defs.map (·.body) := by
  obtain ⟨toks, last, ht, he, hs⟩ := C03_spec_complete cs h0 items hp hl
  have hsim : Sim (itemToks items ++ [⟨.eof, [], 0, 0⟩]) (toks ++ [last]) := by
    unfold Sim
    unfold SameTokens at hs
    rw [List.map_append, List.map_append, hs]
    simp [itemToks, he, tokens_eof_lit ht (t := last) (by simp) he]
  obtain ⟨ds', hd', eb⟩ := doc_sim hd hsim
  obtain ⟨d, h1, rfl⟩ := C14_complete pf _ _ ht _ hd'
  exact ⟨d, h1, eb⟩

end GQL
