/-
C15 Everything accepted is in the grammar of the specification: refuted, with the exact difference.
C16 Malformed list types are rejected: refuted, with the exact difference.
C19 Integers in the AST are exactly the integers written.
C21 Directives record the construct they stand on.
-/
import Verif.Props.C14
import Verif.Proofs.ParseStrict
import Verif.Proofs.ParseInts

namespace GQL
open Spec

variable (pf : Bytes → Option Nat)

theorem locDefn_det {ts d d' r r'} (h : LocDefn pf true ts d r) (h' : LocDefn pf true ts d' r') : d = d' ∧ r = r' := by
  have e := parseDefinition_complete (pf := pf) (ts.length + 1) ts d r (by omega) h
  have e' := parseDefinition_complete (pf := pf) (ts.length + 1) ts d' r' (by omega) h'
  rw [e] at e'
  exact Res.ok.inj e'

/-- The grammar of the specification is the lax grammar with the restrictions of Spec/Strict.lean. -/
theorem doc_strict_iff (ts : Toks) (defs : List Definition) (hend : ∀ e rest, ∀ pre, ts = pre ++ e :: rest → e.kind = .eof → rest = []) :
    Doc pf false ts defs ↔
      Doc pf true ts defs ∧ (∀ d ∈ defs, bodyStrict d.body) ∧ NoEmptyParens ts ∧ NoSchemaDesc pf ts := by
  constructor
  · intro h
    refine ⟨doc_lax h, ?_⟩
    obtain ⟨e, rest, hne, hm, he⟩ := h
    refine ⟨many_all hm (fun _ _ _ h => (locDefn_back h).1), ?_, ?_⟩
    · refine many_back hm (fun _ _ _ h => (locDefn_back h).2) ?_
      obtain ⟨pre, e1, -⟩ := manyDefs_eats pf (many_mono (fun _ _ _ h => locDefn_lax h) hm)
      have := hend e rest pre e1 he
      subst this
      intro pre t u post hh
      have := congrArg List.length hh
      simp at this; omega
    · clear hne
      generalize hE : e :: rest = R at hm
      intro defs' r r' r'' hm' h1 h2
      induction hm' generalizing defs with
      | nil ts =>
        cases hm with
        | nil =>
          subst hE
          obtain ⟨t, e2, k, -⟩ := h1
          obtain ⟨rfl, -⟩ := List.cons.inj e2
          rw [he] at k; cases k
        | cons g1 _ =>
          cases g1 with
          | @mk t _ _ _ g1 =>
            obtain ⟨t', e2, k1, l1⟩ := h1
            obtain ⟨e3, e4⟩ := List.cons.inj e2
            subst e4; subst e3
            obtain ⟨u, rfl, k2, l2⟩ := h2
            have no : ∀ {k l rest}, Tok1 k l (t :: u :: r'') rest → k = .stringValue := by
              rintro k l rest ⟨x, ex, kx, -⟩
              obtain ⟨rfl, -⟩ := List.cons.inj ex
              rw [← kx, k1]
            have no2 : ∀ {l rest}, Tok1 .name l (u :: r'') rest → l = b!"schema" := by
              rintro l rest ⟨x, ex, -, lx⟩
              obtain ⟨rfl, -⟩ := List.cons.inj ex
              rw [← lx, l2]
            have st : ∀ {desc r}, OptTok .stringValue (t :: u :: r'') desc r → r = u :: r'' := by
              rintro desc r (⟨x, ex, -, -⟩ | ⟨-, hk, -⟩)
              · exact (List.cons.inj ex).2.symm
              · exact absurd ⟨t, rfl, k1, rfl⟩ (hk t.lit (u :: r''))
            cases g1 with
            | op h => cases h with
              | shorthand h => cases h with | mk h _ _ => cases no h
              | full h => cases h with
                | query h => cases no h
                | mutation h => cases no h
                | subscription h => cases no h
            | frag h => cases h with | mk h => cases no h
            | schema h => cases h with | mk h => cases no h
            | schemaDesc h _ _ => cases h
            | type g2 g3 =>
              have := st g2; subst this
              cases g3 with
              | scalar g => exact absurd (no2 g) (by decide)
              | object g => exact absurd (no2 g) (by decide)
              | interface g => exact absurd (no2 g) (by decide)
              | union g => exact absurd (no2 g) (by decide)
              | enum g => exact absurd (no2 g) (by decide)
              | input g => exact absurd (no2 g) (by decide)
            | directive g2 g3 =>
              have := st g2; subst this
              cases g3 with | mk g => exact absurd (no2 g) (by decide)
            | schemaExt h _ => cases no h
            | typeExt h _ _ => cases no h
      | cons g1 _ ih =>
        cases hm with
        | nil =>
          obtain ⟨⟨pre, e2, h4⟩, h3⟩ := locDefn_eats g1
          subst hE
          cases pre with
          | nil => rw [List.nil_append] at e2; rw [e2] at h3; simp at h3
          | cons p pre =>
            rw [List.cons_append] at e2
            obtain ⟨rfl, -⟩ := List.cons.inj e2
            exact (h4 e (by simp)).1 he
        | cons f1 f2 =>
          obtain ⟨rfl, rfl⟩ := locDefn_det pf g1 (locDefn_lax f1)
          refine ih _ ?_ f2 h1
          intro e' rest' pre' he' hk
          obtain ⟨pre, e2, -⟩ := (locDefn_eats g1).1
          exact hend e' rest' (pre ++ pre') (by rw [e2, he']; simp) hk
  · rintro ⟨⟨e, rest, h1, h2, h3⟩, ho, hn, hs⟩
    exact ⟨e, rest, h1, defs_strict h2 ho hn hs, h3⟩

theorem tokens_end {input : Bytes} {ts : Toks} (ht : tokens input = .ret ts) :
    ∀ e rest, ∀ pre, ts = pre ++ e :: rest → e.kind = .eof → rest = [] := by
  intro e rest pre h he
  obtain ⟨us, t, e4, -, hall⟩ := tokens_shape ht
  rcases List.eq_nil_or_concat rest with rfl | ⟨r', y, rfl⟩
  · rfl
  · exfalso
    have e5 : us = pre ++ e :: r' := by
      have : us ++ [t] = (pre ++ e :: r') ++ [y] := by rw [← e4, h]; simp
      exact (List.append_inj' this rfl).1
    exact (hall e (by rw [e5]; simp)).1 he

/-- C15, what is true: an accepted text is in the grammar of the specification, with the parsed definitions as its meaning, exactly if the
definitions obey the restrictions `bodyStrict`, there is no `()`, and no `schema` has an empty description.
Missing for the full property: the parser does not check these. -/
theorem C15_strict_partial (input : Bytes) (ts : Toks) (ht : tokens input = .ret ts) (d : Document) (h : parse pf input = .ok d) :
    Doc pf false ts d.defs ↔ (∀ x ∈ d.defs, bodyStrict x.body) ∧ NoEmptyParens ts ∧ NoSchemaDesc pf ts := by
  rw [doc_strict_iff pf ts d.defs (tokens_end ht)]
  exact ⟨fun h => h.2, fun h2 => ⟨(C15_exact_partial pf input ts ht d.defs).1 ⟨d, h, rfl⟩, h2⟩⟩

/-- An accepted text whose document breaks a restriction is not in the grammar, with any meaning. -/
theorem not_in_grammar {input : Bytes} {ts : Toks} (ht : tokens input = .ret ts) {d : Document} (h : parse pf input = .ok d)
    (hb : ¬ ((∀ x ∈ d.defs, bodyStrict x.body) ∧ NoEmptyParens ts)) : ∀ defs, ¬ Doc pf false ts defs := by
  intro defs hd
  have e : defs = d.defs := by
    have h1 := (C15_exact_partial pf input ts ht d.defs).1 ⟨d, h, rfl⟩
    exact C15_unambiguous pf true input ts ht _ _ (doc_lax hd) h1
  subst e
  have := (C15_strict_partial pf input ts ht d h).1 hd
  exact hb ⟨this.1, this.2.1⟩

/-- C15 is false of the code: `{a()}` is accepted. -/
theorem C15_refuted_parens : (∃ d, parse pf b!"{a()}" = .ok d) ∧
    ∀ ts defs, tokens b!"{a()}" = .ret ts → ¬ Doc pf false ts defs := by
  have hp : ∃ d, parse pf b!"{a()}" = .ok d := ⟨_, (parse_eq (ts := [⟨.punctuator, b!"{", 1, 1⟩, ⟨.name, b!"a", 1, 2⟩, ⟨.punctuator, b!"(", 1, 3⟩, ⟨.punctuator, b!")", 1, 4⟩, ⟨.punctuator, b!"}", 1, 5⟩, ⟨.eof, [], 1, 6⟩]) (by decide) rfl)⟩
  refine ⟨hp, ?_⟩
  obtain ⟨d, hp⟩ := hp
  intro ts defs ht
  refine not_in_grammar pf ht hp ?_ defs
  have e : tokens b!"{a()}" = .ret [⟨.punctuator, b!"{", 1, 1⟩, ⟨.name, b!"a", 1, 2⟩, ⟨.punctuator, b!"(", 1, 3⟩, ⟨.punctuator, b!")", 1, 4⟩, ⟨.punctuator, b!"}", 1, 5⟩, ⟨.eof, [], 1, 6⟩] := by decide
  rw [e] at ht; cases ht
  rintro ⟨-, h⟩
  exact h [⟨.punctuator, b!"{", 1, 1⟩, ⟨.name, b!"a", 1, 2⟩] ⟨.punctuator, b!"(", 1, 3⟩ ⟨.punctuator, b!")", 1, 4⟩ _ rfl
    ⟨⟨rfl, rfl⟩, ⟨rfl, rfl⟩⟩

/-- C15 is false of the code: a variable as a default value is accepted. -/
theorem C15_refuted_const : (∃ d, parse pf b!"query($a:T=$b){c}" = .ok d) ∧
    ∀ ts defs, tokens b!"query($a:T=$b){c}" = .ret ts → ¬ Doc pf false ts defs := by
  refine ⟨⟨_, (parse_eq (ts := [⟨.name, b!"query", 1, 1⟩, ⟨.punctuator, b!"(", 1, 6⟩, ⟨.punctuator, b!"$", 1, 7⟩, ⟨.name, b!"a", 1, 8⟩, ⟨.punctuator, b!":", 1, 9⟩, ⟨.name, b!"T", 1, 10⟩, ⟨.punctuator, b!"=", 1, 11⟩, ⟨.punctuator, b!"$", 1, 12⟩, ⟨.name, b!"b", 1, 13⟩, ⟨.punctuator, b!")", 1, 14⟩, ⟨.punctuator, b!"{", 1, 15⟩, ⟨.name, b!"c", 1, 16⟩, ⟨.punctuator, b!"}", 1, 17⟩, ⟨.eof, [], 1, 18⟩]) (by decide) rfl)⟩, fun ts defs ht => not_in_grammar pf ht (parse_eq (ts := [⟨.name, b!"query", 1, 1⟩, ⟨.punctuator, b!"(", 1, 6⟩, ⟨.punctuator, b!"$", 1, 7⟩, ⟨.name, b!"a", 1, 8⟩, ⟨.punctuator, b!":", 1, 9⟩, ⟨.name, b!"T", 1, 10⟩, ⟨.punctuator, b!"=", 1, 11⟩, ⟨.punctuator, b!"$", 1, 12⟩, ⟨.name, b!"b", 1, 13⟩, ⟨.punctuator, b!")", 1, 14⟩, ⟨.punctuator, b!"{", 1, 15⟩, ⟨.name, b!"c", 1, 16⟩, ⟨.punctuator, b!"}", 1, 17⟩, ⟨.eof, [], 1, 18⟩]) (by decide) rfl) ?_ defs⟩
  rintro ⟨h, -⟩
  have := ((h _ (List.mem_singleton.2 rfl)).1 _ (List.mem_singleton.2 rfl)).2 _ rfl
  unfold closed at this; exact this

/-- C15 is false of the code: `on T!` is accepted. -/
theorem C15_refuted_cond : (∃ d, parse pf b!"{...on T!{a}}" = .ok d) ∧
    ∀ ts defs, tokens b!"{...on T!{a}}" = .ret ts → ¬ Doc pf false ts defs := by
  refine ⟨⟨_, (parse_eq (ts := [⟨.punctuator, b!"{", 1, 1⟩, ⟨.punctuator, b!"...", 1, 2⟩, ⟨.name, b!"on", 1, 5⟩, ⟨.name, b!"T", 1, 8⟩, ⟨.punctuator, b!"!", 1, 9⟩, ⟨.punctuator, b!"{", 1, 10⟩, ⟨.name, b!"a", 1, 11⟩, ⟨.punctuator, b!"}", 1, 12⟩, ⟨.punctuator, b!"}", 1, 13⟩, ⟨.eof, [], 1, 14⟩]) (by decide) rfl)⟩, fun ts defs ht => not_in_grammar pf ht (parse_eq (ts := [⟨.punctuator, b!"{", 1, 1⟩, ⟨.punctuator, b!"...", 1, 2⟩, ⟨.name, b!"on", 1, 5⟩, ⟨.name, b!"T", 1, 8⟩, ⟨.punctuator, b!"!", 1, 9⟩, ⟨.punctuator, b!"{", 1, 10⟩, ⟨.name, b!"a", 1, 11⟩, ⟨.punctuator, b!"}", 1, 12⟩, ⟨.punctuator, b!"}", 1, 13⟩, ⟨.eof, [], 1, 14⟩]) (by decide) rfl) ?_ defs⟩
  rintro ⟨h, -⟩
  have := (h _ (List.mem_singleton.2 rfl)).2
  unfold selsPlain selPlain at this
  obtain ⟨n, e⟩ := this.1.1 _ rfl
  cases e

/-- C15 is false of the code: an interface may be a list type. -/
theorem C15_refuted_implements : (∃ d, parse pf b!"type A implements [B]" = .ok d) ∧
    ∀ ts defs, tokens b!"type A implements [B]" = .ret ts → ¬ Doc pf false ts defs := by
  refine ⟨⟨_, (parse_eq (ts := [⟨.name, b!"type", 1, 1⟩, ⟨.name, b!"A", 1, 6⟩, ⟨.name, b!"implements", 1, 8⟩, ⟨.punctuator, b!"[", 1, 19⟩, ⟨.name, b!"B", 1, 20⟩, ⟨.punctuator, b!"]", 1, 21⟩, ⟨.eof, [], 1, 22⟩]) (by decide) rfl)⟩, fun ts defs ht => not_in_grammar pf ht (parse_eq (ts := [⟨.name, b!"type", 1, 1⟩, ⟨.name, b!"A", 1, 6⟩, ⟨.name, b!"implements", 1, 8⟩, ⟨.punctuator, b!"[", 1, 19⟩, ⟨.name, b!"B", 1, 20⟩, ⟨.punctuator, b!"]", 1, 21⟩, ⟨.eof, [], 1, 22⟩]) (by decide) rfl) ?_ defs⟩
  rintro ⟨h, -⟩
  obtain ⟨n, e⟩ := (h _ (List.mem_singleton.2 rfl)).1 _ (List.mem_singleton.2 rfl)
  cases e

/-- C15 is false of the code: an empty extension is accepted. -/
theorem C15_refuted_extension : (∃ d, parse pf b!"extend type A" = .ok d) ∧
    ∀ ts defs, tokens b!"extend type A" = .ret ts → ¬ Doc pf false ts defs := by
  refine ⟨⟨_, (parse_eq (ts := [⟨.name, b!"extend", 1, 1⟩, ⟨.name, b!"type", 1, 8⟩, ⟨.name, b!"A", 1, 13⟩, ⟨.eof, [], 1, 14⟩]) (by decide) rfl)⟩, fun ts defs ht => not_in_grammar pf ht (parse_eq (ts := [⟨.name, b!"extend", 1, 1⟩, ⟨.name, b!"type", 1, 8⟩, ⟨.name, b!"A", 1, 13⟩, ⟨.eof, [], 1, 14⟩]) (by decide) rfl) ?_ defs⟩
  rintro ⟨h, -⟩
  have := (h _ (List.mem_singleton.2 rfl)).2
  simp [Spec.TypeDef.nonEmpty] at this

/-- C16 is false of the code: a bracket without type is accepted, and the document has a list type without element type. -/
theorem C16_refuted : ∃ d, parse pf b!"query($a:[){b}" = .ok d ∧
    ∃ o, d.defs = [⟨⟨1, 1⟩, .op o⟩] ∧ o.vars.map (·.type) = [Ty.listNil false] :=
  ⟨_, (parse_eq (ts := [⟨.name, b!"query", 1, 1⟩, ⟨.punctuator, b!"(", 1, 6⟩, ⟨.punctuator, b!"$", 1, 7⟩, ⟨.name, b!"a", 1, 8⟩, ⟨.punctuator, b!":", 1, 9⟩, ⟨.punctuator, b!"[", 1, 10⟩, ⟨.punctuator, b!")", 1, 11⟩, ⟨.punctuator, b!"{", 1, 12⟩, ⟨.name, b!"b", 1, 13⟩, ⟨.punctuator, b!"}", 1, 14⟩, ⟨.eof, [], 1, 15⟩]) (by decide) rfl), _, rfl, rfl⟩

/-- C16 is false of the code also for a list type that is not closed. -/
theorem C16_refuted_unclosed : ∃ d, parse pf b!"type T{f:[[Int}" = .ok d := ⟨_, (parse_eq (ts := [⟨.name, b!"type", 1, 1⟩, ⟨.name, b!"T", 1, 6⟩, ⟨.punctuator, b!"{", 1, 7⟩, ⟨.name, b!"f", 1, 8⟩, ⟨.punctuator, b!":", 1, 9⟩, ⟨.punctuator, b!"[", 1, 10⟩, ⟨.punctuator, b!"[", 1, 11⟩, ⟨.name, b!"Int", 1, 12⟩, ⟨.punctuator, b!"}", 1, 15⟩, ⟨.eof, [], 1, 16⟩]) (by decide) rfl)⟩

/-- C16, what is true: `parseType` returns a type without missing element types exactly on the types of the grammar, consuming them; it returns
a type with a missing one only on opening brackets after the last of which there is no type of the grammar.
Missing for the full property: the latter is not an error. -/
theorem C16_types_partial (ts : Toks) (t : Ty) (rest : Toks) (n : Nat) (hn : ts.length < n) :
    (tyProper t → (parseType n ts = .ok t rest ↔ TypeRef false ts t rest)) ∧
    (¬ tyProper t → parseType n ts = .ok t rest → ∃ pre r1, ts = pre ++ r1 ∧ (∀ x ∈ pre, x.kind = .punctuator ∧ x.lit = b!"[") ∧
      pre ≠ [] ∧ ∀ u r2, ¬ TypeRef false r1 u r2) := by
  constructor
  · intro hp
    constructor
    · intro h; exact typeRef_strict (parseType_sound n _ _ _ h) hp
    · intro h; exact parseType_complete n _ _ _ hn (typeRef_lax h)
  · intro hp h
    have h1 := parseType_sound n _ _ _ h
    clear h hn
    induction t generalizing ts rest with
    | named n b => exact absurd trivial hp
    | list t b ih =>
      cases h1 with
      | @list ts r1 _ r2 r3 _ _ g1 g2 g3 g4 =>
        obtain ⟨pre, r, rfl, h2, h3, h4⟩ := ih r1 r2 (by exact hp) g2
        obtain ⟨x, rfl, k, l⟩ := g1
        refine ⟨x :: pre, r, rfl, ?_, by simp, h4⟩
        intro y hy
        rcases List.mem_cons.1 hy with rfl | hy
        · exact ⟨k, l⟩
        · exact h2 y hy
    | listNil b =>
      cases h1 with
      | @broken ts r1 _ _ g1 g2 =>
        obtain ⟨x, rfl, k, l⟩ := g1
        refine ⟨[x], r1, rfl, by simp [k, l], by simp, ?_⟩
        intro u r2 h5
        have e1 := parseType_complete (r1.length + 1) _ _ _ (by omega) (typeRef_lax h5)
        obtain ⟨er, e2⟩ := (parseType_complete' (r1.length + 1)).2 _ _ (by omega) g2
        rw [e1] at e2; cases e2

/-- `[[` and no type. -/
example : ∃ t rest, parseType 5 [⟨.punctuator, b!"[", 1, 1⟩, ⟨.punctuator, b!"[", 1, 2⟩, ⟨.name, b!"Int", 1, 3⟩, ⟨.eof, [], 1, 6⟩] = .ok t rest ∧ ¬ tyProper t := ⟨_, _, rfl, id⟩

/-- C19: the integers of an accepted document, in order, are the integers its Int tokens denote, in order; all fit in 64 bits. -/
theorem C19_integers (input : Bytes) (ts : Toks) (ht : tokens input = .ret ts) (d : Document) (h : parse pf input = .ok d) :
    docInts d.defs = tokInts ts ∧ ∀ i ∈ tokInts ts, Spec.Int64 i := by
  obtain ⟨e, rest, -, hm, he⟩ := (C15_exact_partial pf input ts ht d.defs).1 ⟨d, h, rfl⟩
  obtain ⟨pre, e1, -⟩ := manyDefs_eats pf hm
  have hr := tokens_end ht e rest pre e1 he
  subst hr
  obtain ⟨h1, h2⟩ := defs_ints hm
  have h3 : tokInts [e] = [] := by simp [tokInts, he]
  rw [h3, List.append_nil] at h1
  exact ⟨h1.symm, h1 ▸ h2⟩

/-- C19: an integer literal that does not fit makes `Parse` fail, wherever it stands. -/
theorem C19_overflow (input : Bytes) (ts : Toks) (ht : tokens input = .ret ts) (t : Token) (hm : t ∈ ts) (hk : t.kind = .intValue)
    (ho : ¬ Spec.Int64 (litInt t.lit)) : ∀ d, parse pf input ≠ .ok d := by
  intro d h
  refine ho ((C19_integers pf input ts ht d h).2 _ ?_)
  unfold tokInts
  exact List.mem_map.2 ⟨t, List.mem_filter.2 ⟨hm, by simp [hk]⟩, rfl⟩

/-- Integers at several places. -/
example : ∃ d, parse pf b!"query($v:T=-9223372036854775808){a(b:[1,{c:2}])@d(e:3)}" = .ok d ∧
    docInts d.defs = [-9223372036854775808, 1, 2, 3] := by
  have h : ∃ d, parse pf b!"query($v:T=-9223372036854775808){a(b:[1,{c:2}])@d(e:3)}" = .ok d := ⟨_, (parse_eq (ts := [⟨.name, b!"query", 1, 1⟩, ⟨.punctuator, b!"(", 1, 6⟩, ⟨.punctuator, b!"$", 1, 7⟩, ⟨.name, b!"v", 1, 8⟩, ⟨.punctuator, b!":", 1, 9⟩, ⟨.name, b!"T", 1, 10⟩, ⟨.punctuator, b!"=", 1, 11⟩, ⟨.intValue, b!"-9223372036854775808", 1, 12⟩, ⟨.punctuator, b!")", 1, 32⟩, ⟨.punctuator, b!"{", 1, 33⟩, ⟨.name, b!"a", 1, 34⟩, ⟨.punctuator, b!"(", 1, 35⟩, ⟨.name, b!"b", 1, 36⟩, ⟨.punctuator, b!":", 1, 37⟩, ⟨.punctuator, b!"[", 1, 38⟩, ⟨.intValue, b!"1", 1, 39⟩, ⟨.punctuator, b!"{", 1, 41⟩, ⟨.name, b!"c", 1, 42⟩, ⟨.punctuator, b!":", 1, 43⟩, ⟨.intValue, b!"2", 1, 44⟩, ⟨.punctuator, b!"}", 1, 45⟩, ⟨.punctuator, b!"]", 1, 46⟩, ⟨.punctuator, b!")", 1, 47⟩, ⟨.punctuator, b!"@", 1, 48⟩, ⟨.name, b!"d", 1, 49⟩, ⟨.punctuator, b!"(", 1, 50⟩, ⟨.name, b!"e", 1, 51⟩, ⟨.punctuator, b!":", 1, 52⟩, ⟨.intValue, b!"3", 1, 53⟩, ⟨.punctuator, b!")", 1, 54⟩, ⟨.punctuator, b!"}", 1, 55⟩, ⟨.eof, [], 1, 56⟩]) (by decide) rfl)⟩
  obtain ⟨d, h⟩ := h
  exact ⟨d, h, (C19_integers pf _ [⟨.name, b!"query", 1, 1⟩, ⟨.punctuator, b!"(", 1, 6⟩, ⟨.punctuator, b!"$", 1, 7⟩, ⟨.name, b!"v", 1, 8⟩, ⟨.punctuator, b!":", 1, 9⟩, ⟨.name, b!"T", 1, 10⟩, ⟨.punctuator, b!"=", 1, 11⟩, ⟨.intValue, b!"-9223372036854775808", 1, 12⟩, ⟨.punctuator, b!")", 1, 32⟩, ⟨.punctuator, b!"{", 1, 33⟩, ⟨.name, b!"a", 1, 34⟩, ⟨.punctuator, b!"(", 1, 35⟩, ⟨.name, b!"b", 1, 36⟩, ⟨.punctuator, b!":", 1, 37⟩, ⟨.punctuator, b!"[", 1, 38⟩, ⟨.intValue, b!"1", 1, 39⟩, ⟨.punctuator, b!"{", 1, 41⟩, ⟨.name, b!"c", 1, 42⟩, ⟨.punctuator, b!":", 1, 43⟩, ⟨.intValue, b!"2", 1, 44⟩, ⟨.punctuator, b!"}", 1, 45⟩, ⟨.punctuator, b!"]", 1, 46⟩, ⟨.punctuator, b!")", 1, 47⟩, ⟨.punctuator, b!"@", 1, 48⟩, ⟨.name, b!"d", 1, 49⟩, ⟨.punctuator, b!"(", 1, 50⟩, ⟨.name, b!"e", 1, 51⟩, ⟨.punctuator, b!":", 1, 52⟩, ⟨.intValue, b!"3", 1, 53⟩, ⟨.punctuator, b!")", 1, 54⟩, ⟨.punctuator, b!"}", 1, 55⟩, ⟨.eof, [], 1, 56⟩] (by decide) d h).1.trans (by decide)⟩

/-- C21: every directive of an accepted document records the sort of construct it stands on. -/
theorem C21_directive_locations (input : Bytes) (d : Document) (h : parse pf input = .ok d) :
    ∀ x ∈ d.defs, bodyAt x.body := by
  obtain ⟨ts, ht, -⟩ := parse_tokens (pf := pf) (input := input)
  exact doc_at ((C15_exact_partial pf input ts ht d.defs).1 ⟨d, h, rfl⟩)

/-- Directives on a mutation, a field and a fragment spread. -/
example : ∃ d o, parse pf b!"mutation@a{f@b,...F@c}" = .ok d ∧ d.defs.map (·.body) = [.op o] ∧
    o.dirs.map (·.loc) = [.mutation] ∧ selsAt o.sels := by
  refine ⟨_, _, (parse_eq (ts := [⟨.name, b!"mutation", 1, 1⟩, ⟨.punctuator, b!"@", 1, 9⟩, ⟨.name, b!"a", 1, 10⟩, ⟨.punctuator, b!"{", 1, 11⟩, ⟨.name, b!"f", 1, 12⟩, ⟨.punctuator, b!"@", 1, 13⟩, ⟨.name, b!"b", 1, 14⟩, ⟨.punctuator, b!"...", 1, 16⟩, ⟨.name, b!"F", 1, 19⟩, ⟨.punctuator, b!"@", 1, 20⟩, ⟨.name, b!"c", 1, 21⟩, ⟨.punctuator, b!"}", 1, 22⟩, ⟨.eof, [], 1, 23⟩]) (by decide) rfl), rfl, rfl, ?_⟩
  simp [selsAt, selAt, dirsAt]

end GQL
