/-
C91 Positions and counters are right as long as the text is shorter than 2 GiB.
-/
import Verif.Model.Machine
import Verif.Proofs.BoundsTok
import Verif.Props.C71
import Verif.Props.C30
import Verif.Props.C17
import Verif.Props.C46

namespace GQL
open Spec

/-- **C91**: at every point of reading a text the position is within the text, the column is at most its length, the line at most one
more. -/
theorem C91_lexer (input : Bytes) (l : Lexer) (h : Reach input l) :
    l.pos ≤ input.length ∧ l.lpos ≤ input.length ∧ l.line ≤ input.length + 1 := by
  have key : Gr (newLexer input) l := by
    induction h with
    | new => exact .refl (Nat.zero_le _)
    | @scan l l' t hr e ih => exact ih.trans (scanF_gr _ ih.inv e)
  have h1 := key.bound; have h2 := key.line; have h3 := key.lpos
  simp only [newLexer] at h1 h2 h3
  omega

/-- A text at whose end line and column are as large as that: every byte is a line break, or none. -/
example : Reach b!"\n\n\n" ⟨b!"\n\n\n", 3, 0, 4⟩ ∧ Reach b!"abc" ⟨b!"abc", 3, 3, 1⟩ :=
  ⟨.scan (t := ⟨.eof, [], 4, 1⟩) .new (by rfl), .scan (t := ⟨.name, b!"abc", 1, 1⟩) .new (by rfl)⟩

/-- **C91**: line and column of every token are at most one more than the length of the text. -/
theorem C91_tokens (input : Bytes) (ts : List Token) (h : tokens input = .ret ts) :
    ∀ t ∈ ts, t.line ≤ input.length + 1 ∧ -2 ≤ t.col ∧ t.col ≤ (input.length : Int) + 1 := by
  intro t ht
  obtain ⟨⟨m, g, e⟩, ⟨m', g', e'⟩, h3⟩ := tokensF_seen _ (.refl (Nat.zero_le _)) h t ht
  have h1 := g.bound; have h2 := g.line; have h4 := g'.lpos; have h5 := g'.bound
  simp only [newLexer] at h1 h2 h4 h5
  refine ⟨by omega, h3, by omega⟩

example : tokens b!"\n\n{" = .ret [⟨.punctuator, b!"{", 3, 1⟩, ⟨.eof, [], 3, 2⟩] := by decide +kernel

/-! ### Counting in 32 bits -/

/-- The counters in 32 bits after `k` definitions, and the true ones. -/
structure CountRel (k : Nat) (a : Counters32 × List Bytes) (b : Document × List Bytes) : Prop where
  exts : a.2 = b.2
  few : b.2.length ≤ k
  op : a.1.operations = .ofNat 32 b.1.operations ∧ b.1.operations ≤ k
  fr : a.1.fragments = .ofNat 32 b.1.fragments ∧ b.1.fragments ≤ k
  di : a.1.directives = .ofNat 32 b.1.directives ∧ b.1.directives ≤ k
  sc : a.1.schemas = .ofNat 32 b.1.schemas ∧ b.1.schemas ≤ k
  ty : a.1.types = .ofNat 32 b.1.types ∧ b.1.types ≤ k
  se : a.1.schemaExts = .ofNat 32 b.1.schemaExts ∧ b.1.schemaExts ≤ k

theorem bump32 {x : BitVec 32} {n k : Nat} (h : x = .ofNat 32 n ∧ n ≤ k) : x + 1 = .ofNat 32 (n + 1) ∧ n + 1 ≤ k + 1 := by
  refine ⟨?_, by omega⟩
  rw [h.1, BitVec.ofNat_add]; rfl

theorem CountRel.step {k : Nat} {a b} (h : CountRel k a b) (d : Definition) : CountRel (k + 1) (count32 a d) (addDef b d) := by
  have up : ∀ {x : BitVec 32} {n : Nat}, (x = .ofNat 32 n ∧ n ≤ k) → (x = .ofNat 32 n ∧ n ≤ k + 1) := fun h => ⟨h.1, by omega⟩
  obtain ⟨h1, h2, h3, h4, h5, h6, h7, h8⟩ := h
  unfold count32 addDef
  cases hb : d.body with
  | op _ => exact ⟨h1, by simp; omega, bump32 h3, up h4, up h5, up h6, up h7, up h8⟩
  | frag _ => exact ⟨h1, by simp; omega, up h3, bump32 h4, up h5, up h6, up h7, up h8⟩
  | directive _ => exact ⟨h1, by simp; omega, up h3, up h4, bump32 h5, up h6, up h7, up h8⟩
  | schema _ => exact ⟨h1, by simp; omega, up h3, up h4, up h5, bump32 h6, up h7, up h8⟩
  | type _ => exact ⟨h1, by simp; omega, up h3, up h4, up h5, up h6, bump32 h7, up h8⟩
  | schemaExt _ => exact ⟨h1, by simp; omega, up h3, up h4, up h5, up h6, up h7, bump32 h8⟩
  | typeExt t =>
    refine ⟨by simp only [h1], ?_, up h3, up h4, up h5, up h6, up h7, up h8⟩
    dsimp only
    split
    · omega
    · simp; omega

theorem CountRel.fold : ∀ (ds : List Definition) {k : Nat} {a b}, CountRel k a b → CountRel (k + ds.length) (ds.foldl count32 a) (ds.foldl addDef b)
  | [], _, _, _, h => h
  | d :: ds, k, _, _, h => by
    have := CountRel.fold ds (h.step d)
    rw [List.length_cons, Nat.add_comm ds.length 1, ← Nat.add_assoc]
    exact this

theorem countRel (ds : List Definition) : CountRel ds.length (ds.foldl count32 ({}, [])) (ds.foldl addDef ({}, [])) := by
  have := CountRel.fold ds (k := 0) (a := ({}, [])) (b := ({}, []))
    ⟨rfl, Nat.le_refl _, ⟨rfl, Nat.le_refl _⟩, ⟨rfl, Nat.le_refl _⟩, ⟨rfl, Nat.le_refl _⟩, ⟨rfl, Nat.le_refl _⟩, ⟨rfl, Nat.le_refl _⟩, ⟨rfl, Nat.le_refl _⟩⟩
  simpa using this

theorem small32 {x : BitVec 32} {n k : Nat} (h : x = .ofNat 32 n ∧ n ≤ k) (hk : k < 2 ^ 31) : x.toInt = n := by
  have : (BitVec.ofNat 32 n).toNat = n := by rw [BitVec.toNat_ofNat]; omega
  rw [h.1, BitVec.toInt_eq_toNat_cond, this, if_pos (by omega)]

/-- The counters in 32 bits as the true numbers say. -/
theorem counters32_eq (ds : List Definition) :
    (counters32 ds).operations = .ofNat 32 (mkDocument ds).operations ∧ (counters32 ds).fragments = .ofNat 32 (mkDocument ds).fragments ∧
    (counters32 ds).directives = .ofNat 32 (mkDocument ds).directives ∧ (counters32 ds).schemas = .ofNat 32 (mkDocument ds).schemas ∧
    (counters32 ds).types = .ofNat 32 (mkDocument ds).types ∧ (counters32 ds).schemaExts = .ofNat 32 (mkDocument ds).schemaExts ∧
    (counters32 ds).typeExts = .ofNat 32 (mkDocument ds).typeExts ∧
    (mkDocument ds).operations ≤ ds.length ∧ (mkDocument ds).fragments ≤ ds.length ∧ (mkDocument ds).directives ≤ ds.length ∧
    (mkDocument ds).schemas ≤ ds.length ∧ (mkDocument ds).types ≤ ds.length ∧ (mkDocument ds).schemaExts ≤ ds.length ∧
    (mkDocument ds).typeExts ≤ ds.length := by
  obtain ⟨h1, h2, h3, h4, h5, h6, h7, h8⟩ := countRel ds
  unfold counters32 mkDocument
  dsimp only
  exact ⟨h3.1, h4.1, h5.1, h6.1, h7.1, h8.1, by rw [h1], h3.2, h4.2, h5.2, h6.2, h7.2, h8.2, h2⟩

section
variable (pf : Bytes → Option Nat)

/-- Every definition takes two tokens, every token a byte. -/
theorem C91_definitions (input : Bytes) (d : Document) (h : parse pf input = .ok d) : 2 * d.defs.length ≤ input.length := by
  obtain ⟨us, e, t1, he, m, -⟩ := parse_many h
  obtain ⟨ts, t, e2, -, -, hl⟩ := C01_tokens_end input
  rw [t1] at e2
  have e2 := Out.ret.inj e2
  rw [← e2] at hl
  simp only [List.length_append, List.length_cons, List.length_nil] at hl
  have key : ∀ {ts ds r}, Many (LocDefn pf true) ts ds r → 2 * ds.length + r.length ≤ ts.length := by
    intro ts ds r hm
    induction hm with
    | nil => simp
    | @cons ts a r as rest h1 _ ih =>
      have : r.length + 2 ≤ ts.length := by cases h1 with | mk h => exact defn_two pf h
      simp only [List.length_cons]; omega
  have := key m
  simp only [List.length_append, List.length_cons, List.length_nil] at this
  omega

/-- A document is made of its definitions. -/
theorem parse_mkDocument {input : Bytes} {d : Document} (h : parse pf input = .ok d) : d = mkDocument d.defs := by
  obtain ⟨ts, -, e⟩ := parse_tokens (pf := pf) (input := input)
  rw [e] at h; unfold parseTokens at h
  rcases e2 : parseDefs pf (ts.length + 1) ts with ⟨ds, _⟩ | ⟨er, _⟩ | _ | _ <;> rw [e2] at h
  · cases h; rw [mkDocument_defs]
  · cases h
  · cases h
  · cases h

/-- **C91, in part**: for a text of less than 4 GiB every counter of the document is what it counts (C17), although it has 32 bits only,
and `ParseSDLDoc` does not panic when it allocates memory according to them.
Missing for the full property: longer texts (`C91_refuted_panic`, `C91_refuted_count`). -/
theorem C91_counters_partial (input : Bytes) (d : Document) (h : parse pf input = .ok d) (hl : input.length < 2 ^ 32) :
    (counters32 d.defs).operations.toInt = d.operations ∧ (counters32 d.defs).fragments.toInt = d.fragments ∧
    (counters32 d.defs).directives.toInt = d.directives ∧ (counters32 d.defs).schemas.toInt = d.schemas ∧
    (counters32 d.defs).types.toInt = d.types ∧ (counters32 d.defs).schemaExts.toInt = d.schemaExts ∧
    (counters32 d.defs).typeExts.toInt = d.typeExts ∧ d.in32 = d := by
  have hd := C91_definitions pf input d h
  have hlt : d.defs.length < 2 ^ 31 := by omega
  obtain ⟨a1, a2, a3, a4, a5, a6, a7, b1, b2, b3, b4, b5, b6, b7⟩ := counters32_eq d.defs
  have hm := parse_mkDocument pf h
  rw [← hm] at a1 a2 a3 a4 a5 a6 a7 b1 b2 b3 b4 b5 b6 b7
  have c1 := small32 ⟨a1, b1⟩ hlt
  have c2 := small32 ⟨a2, b2⟩ hlt
  have c3 := small32 ⟨a3, b3⟩ hlt
  have c4 := small32 ⟨a4, b4⟩ hlt
  have c5 := small32 ⟨a5, b5⟩ hlt
  have c6 := small32 ⟨a6, b6⟩ hlt
  have c7 := small32 ⟨a7, b7⟩ hlt
  refine ⟨c1, c2, c3, c4, c5, c6, c7, ?_⟩
  unfold Document.in32
  dsimp only
  rw [c1, c2, c3, c4, c5, c6, c7]
  rfl

/-- **C91**: for a text of less than 4 GiB `ParseSDLDoc` with counters of 32 bits does what it does with counters without bound. -/
theorem C91_sdl_partial (fuel : Nat) (ord : Orders) (input : Bytes) (schema : Option Schema) (hl : input.length < 2 ^ 32) :
    parseSDLDoc32 pf fuel ord input schema = parseSDLDoc pf fuel ord input schema := by
  unfold parseSDLDoc32
  cases h : parse pf input with
  | ok d =>
    obtain ⟨-, -, -, -, -, c, -⟩ := C91_counters_partial pf input d h hl
    dsimp only
    unfold newSDLContext32 makeSlice
    rw [c, if_neg (by omega)]
  | _ => rfl

/-- A text `n + 1` times, on as many lines or more. -/
def linesOf (a : List Char) : Nat → List Char
  | 0 => a
  | n + 1 => a ++ '\n' :: linesOf a n

theorem parse_linesOf {a : List Char} {d : Document} {b : Body} (h0 : '\x00' ∉ a) (h : parse pf (utf8 a) = .ok d) (hd : d.defs.map (·.body) = [b])
    (hc : Spec.Closed b) (he : ¬ EndsWith a .punctuator b!"[") :
    ∀ n, ∃ d', parse pf (utf8 (linesOf a n)) = .ok d' ∧ d'.defs.map (·.body) = List.replicate (n + 1) b ∧ '\x00' ∉ linesOf a n
  | 0 => ⟨d, h, hd, h0⟩
  | n + 1 => by
    obtain ⟨d', h1, h2, h3⟩ := parse_linesOf h0 h hd hc he n
    obtain ⟨d2, k1, k2⟩ := C71_partial pf a (linesOf a n) h0 h3 d d' h h1 (fun _ x hx => by
      have : x.body ∈ d.defs.map (·.body) := List.mem_map_of_mem (List.mem_of_getLast? hx)
      rw [hd, List.mem_singleton] at this
      rw [this]; exact hc) (fun hh => absurd hh he)
    refine ⟨d2, k1, ?_, by simp [linesOf, h0, h3]⟩
    rw [k2, List.map_append, hd, h2]; rfl

/-- With at most one operation counted the rule is silent. -/
theorem lone_silent (doc : Document) (schema : Option Schema) (h : doc.operations ≤ 1) : QueryErrors .loneAnonymousOperation doc schema [] := by
  have := top_rule (r := .loneAnonymousOperation) (doc := doc) (schema := schema) rfl (fun _ _ => rfl)
    (fun n hn => by cases n <;> first | rfl | (simp only [ANode.kind] at hn; exact absurd hn (by decide))) (fun _ => rfl) (fun _ => rfl)
  obtain ⟨c, h1, h2⟩ := this
  refine ⟨c, h1, h2.trans (.of_eq ?_)⟩
  rw [List.flatMap_eq_nil_iff]
  rintro ⟨⟨loc, b⟩, i⟩ -
  cases b with
  | op o =>
    have : ¬ (o.name = [] ∧ doc.operations > 1) := by omega
    obtain ⟨k, nm, _, _, _⟩ := o
    cases k <;> simp [topNodes, opKindNode, Rule.errs, loneAnonErrs, queryCtx_doc, this]
  | type t => obtain ⟨_, _, k, _, _, _, _, _, _⟩ := t; cases k <;> rfl
  | typeExt t => obtain ⟨_, _, k, _, _, _, _, _, _⟩ := t; cases k <;> rfl
  | _ => rfl

/-- A text of one definition with that body. -/
theorem howMany_replicate (p : Body → Bool) {ds : List Definition} {n : Nat} {b : Body} (h : ds.map (·.body) = List.replicate n b) (hb : p b = true) :
    howMany p ds = n := by
  induction n generalizing ds with
  | zero => rw [List.map_eq_nil_iff.1 h]; rfl
  | succ n ih =>
    cases ds with
    | nil => cases h
    | cons d ds =>
      rw [List.map_cons, List.replicate_succ, List.cons.injEq] at h
      have := ih h.2
      unfold howMany at this ⊢
      rw [List.filter_cons, h.1, hb, if_pos rfl, List.length_cons, this]

/-- **C91 as stated fails**: 2^31 schema extensions make the counter negative, and `ParseSDLDoc` panics on the accepted text. -/
theorem C91_refuted_panic : ∃ a : List Char, (∃ d, parse pf (utf8 a) = .ok d) ∧ ∀ fuel ord schema, parseSDLDoc32 pf fuel ord (utf8 a) schema = .panic := by
  obtain ⟨n, hn⟩ : ∃ n, n + 1 = 2 ^ 31 := ⟨2147483647, by decide⟩
  obtain ⟨d, h1, h2, -⟩ := parse_linesOf pf (a := c!"extend schema{query:Q}") (by decide) (parse_eq (ts := [⟨.name, b!"extend", 1, 1⟩, ⟨.name, b!"schema", 1, 8⟩, ⟨.punctuator, b!"{", 1, 14⟩, ⟨.name, b!"query", 1, 15⟩, ⟨.punctuator, b!":", 1, 20⟩, ⟨.name, b!"Q", 1, 21⟩, ⟨.punctuator, b!"}", 1, 22⟩, ⟨.eof, [], 1, 23⟩]) (by decide) rfl) rfl
    (by intro h; cases h) (by
      rintro ⟨ts, t, e, h, -, h2⟩
      have h0 : tokens (utf8 c!"extend schema{query:Q}") = .ret [⟨.name, b!"extend", 1, 1⟩, ⟨.name, b!"schema", 1, 8⟩, ⟨.punctuator, b!"{", 1, 14⟩, ⟨.name, b!"query", 1, 15⟩, ⟨.punctuator, b!":", 1, 20⟩, ⟨.name, b!"Q", 1, 21⟩, ⟨.punctuator, b!"}", 1, 22⟩, ⟨.eof, [], 1, 23⟩] := by decide
      rw [h0] at h
      have h := congrArg List.reverse (Out.ret.inj h)
      rw [List.reverse_append] at h
      have h := (List.cons.inj (List.cons.inj h).2).1
      rw [← h] at h2
      exact absurd h2 (by decide)) n
  refine ⟨_, ⟨d, h1⟩, fun fuel ord schema => ?_⟩
  unfold parseSDLDoc32
  rw [h1]
  have hc : d.schemaExts = 2 ^ 31 := by
    obtain ⟨-, -, -, -, -, e, -⟩ := C17_counters pf _ _ h1
    rw [e]
    exact (howMany_replicate _ h2 rfl).trans hn
  obtain ⟨-, -, -, -, -, a6, -⟩ := counters32_eq d.defs
  rw [← parse_mkDocument pf h1, hc] at a6
  have : (counters32 d.defs).schemaExts.toInt < 0 := by rw [a6]; decide
  dsimp only
  unfold newSDLContext32 makeSlice
  rw [if_pos this]

/-- **C91 as stated fails**: of 2^32 operations without a name the counter says 0, and the rule that an operation without a name stands
alone finds nothing wrong. -/
theorem C91_refuted_count : ∃ (a : List Char) (d : Document), parse pf (utf8 a) = .ok d ∧ d.operations = 2 ^ 32 ∧ anonymousErrors d ≠ [] ∧
    ∀ schema, QueryErrors .loneAnonymousOperation d.in32 schema [] := by
  obtain ⟨n, hn⟩ : ∃ n, n + 1 = 2 ^ 32 := ⟨4294967295, by decide⟩
  obtain ⟨d, h1, h2, -⟩ := parse_linesOf pf (a := c!"{a}") (by decide) (parse_eq (ts := [⟨.punctuator, b!"{", 1, 1⟩, ⟨.name, b!"a", 1, 2⟩, ⟨.punctuator, b!"}", 1, 3⟩, ⟨.eof, [], 1, 4⟩]) (by decide) rfl) rfl
    trivial (by
      rintro ⟨ts, t, e, h, -, h2⟩
      have h0 : tokens (utf8 c!"{a}") = .ret [⟨.punctuator, b!"{", 1, 1⟩, ⟨.name, b!"a", 1, 2⟩, ⟨.punctuator, b!"}", 1, 3⟩, ⟨.eof, [], 1, 4⟩] := by decide
      rw [h0] at h
      have h := congrArg List.reverse (Out.ret.inj h)
      rw [List.reverse_append] at h
      have h := (List.cons.inj (List.cons.inj h).2).1
      rw [← h] at h2
      exact absurd h2 (by decide)) n
  have hc : d.operations = 2 ^ 32 := (C17_counters pf _ _ h1).1.trans ((howMany_replicate _ h2 rfl).trans hn)
  refine ⟨_, d, h1, hc, ?_, fun schema => lone_silent _ _ ?_⟩
  · have hlen := parsed_counts h1
    unfold CountsOperations at hlen
    rw [hc] at hlen
    unfold anonymousErrors
    rw [if_pos (by omega)]
    intro hn
    rw [List.map_eq_nil_iff, List.filter_eq_nil_iff] at hn
    have hne : operations d.defs ≠ [] := by intro h0; rw [h0] at hlen; simp at hlen
    obtain ⟨o, ho⟩ := List.exists_mem_of_ne_nil _ hne
    refine hn o ho ?_
    unfold operations at ho
    obtain ⟨x, hx, hxo⟩ := List.mem_filterMap.1 ho
    have : x.body ∈ d.defs.map (·.body) := List.mem_map_of_mem hx
    rw [h2] at this
    have := List.eq_of_mem_replicate this
    rw [this] at hxo
    cases hxo
    rfl
  · obtain ⟨a1, -⟩ := counters32_eq d.defs
    rw [← parse_mkDocument pf h1, hc] at a1
    show (counters32 d.defs).operations.toInt.toNat ≤ 1
    rw [a1]; decide

end

end GQL
