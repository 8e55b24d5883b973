/-
C17 Document counters equal the number of definitions of each kind.
C22 Directive location sets survive parsing.
-/
import Verif.Props.C14

namespace GQL
open Spec

variable (pf : Bytes → Option Nat)

/-- The name a type extension extends. -/
def Spec.extendedName (d : Definition) : Option Bytes :=
  match d.body with
  | .typeExt t => some t.name
  | _ => none

/-- How many definitions have a body satisfying `p`. -/
def Spec.howMany (p : Body → Bool) (defs : List Definition) : Nat := (defs.filter fun d => p d.body).length

theorem addDef_counts (defs : List Definition) (doc : Document) (exts : List Bytes) (hn : exts.Nodup) :
    let r := defs.foldl addDef (doc, exts)
    r.1.operations = doc.operations + howMany (fun | .op _ => true | _ => false) defs ∧
    r.1.fragments = doc.fragments + howMany (fun | .frag _ => true | _ => false) defs ∧
    r.1.directives = doc.directives + howMany (fun | .directive _ => true | _ => false) defs ∧
    r.1.schemas = doc.schemas + howMany (fun | .schema _ => true | _ => false) defs ∧
    r.1.types = doc.types + howMany (fun | .type _ => true | _ => false) defs ∧
    r.1.schemaExts = doc.schemaExts + howMany (fun | .schemaExt _ => true | _ => false) defs ∧
    r.2.Nodup ∧ ∀ n, n ∈ r.2 ↔ n ∈ exts ∨ n ∈ defs.filterMap extendedName := by
  induction defs generalizing doc exts with
  | nil => simp [howMany, hn]
  | cons d ds ih =>
    rw [List.foldl_cons]
    obtain ⟨loc, b⟩ := d
    cases b with
    | typeExt t =>
      by_cases hc : exts.contains t.name
      · rw [show addDef (doc, exts) ⟨loc, .typeExt t⟩ = ({ doc with defs := ⟨loc, .typeExt t⟩ :: doc.defs },
          if exts.contains t.name then exts else t.name :: exts) from rfl, if_pos hc]
        have := ih { doc with defs := ⟨loc, .typeExt t⟩ :: doc.defs } exts hn
        simp only [howMany, extendedName, List.filter_cons, List.filterMap_cons] at this ⊢
        obtain ⟨h1, h2, h3, h4, h5, h6, h7, h8⟩ := this
        refine ⟨h1, h2, h3, h4, h5, h6, h7, fun n => ?_⟩
        rw [h8]
        simp only [List.mem_cons]
        constructor
        · rintro (h | h)
          · exact .inl h
          · exact .inr (.inr h)
        · rintro (h | rfl | h)
          · exact .inl h
          · exact .inl (List.contains_iff_mem.1 hc)
          · exact .inr h
      · rw [show addDef (doc, exts) ⟨loc, .typeExt t⟩ = ({ doc with defs := ⟨loc, .typeExt t⟩ :: doc.defs },
          if exts.contains t.name then exts else t.name :: exts) from rfl, if_neg hc]
        have := ih { doc with defs := ⟨loc, .typeExt t⟩ :: doc.defs } (t.name :: exts)
          (List.nodup_cons.2 ⟨fun h => hc (List.contains_iff_mem.2 h), hn⟩)
        simp only [howMany, extendedName, List.filter_cons, List.filterMap_cons] at this ⊢
        obtain ⟨h1, h2, h3, h4, h5, h6, h7, h8⟩ := this
        refine ⟨h1, h2, h3, h4, h5, h6, h7, fun n => ?_⟩
        rw [h8]
        simp only [List.mem_cons]
        constructor
        · rintro ((h | h) | h)
          · exact .inr (.inl h)
          · exact .inl h
          · exact .inr (.inr h)
        · rintro (h | h | h)
          · exact .inl (.inr h)
          · exact .inl (.inl h)
          · exact .inr h
    | op o =>
      rw [show addDef (doc, exts) ⟨loc, .op o⟩ = ({ doc with defs := ⟨loc, .op o⟩ :: doc.defs, operations := doc.operations + 1 }, exts) from rfl]
      have := ih { doc with defs := ⟨loc, .op o⟩ :: doc.defs, operations := doc.operations + 1 } exts hn
      simp only [howMany, extendedName, List.filter_cons, List.filterMap_cons] at this ⊢
      obtain ⟨h1, h2, h3, h4, h5, h6, h7, h8⟩ := this
      exact ⟨by simp only [if_true, List.length_cons]; omega, h2, h3, h4, h5, h6, h7, h8⟩
    | frag o =>
      rw [show addDef (doc, exts) ⟨loc, .frag o⟩ = ({ doc with defs := ⟨loc, .frag o⟩ :: doc.defs, fragments := doc.fragments + 1 }, exts) from rfl]
      have := ih { doc with defs := ⟨loc, .frag o⟩ :: doc.defs, fragments := doc.fragments + 1 } exts hn
      simp only [howMany, extendedName, List.filter_cons, List.filterMap_cons] at this ⊢
      obtain ⟨h1, h2, h3, h4, h5, h6, h7, h8⟩ := this
      exact ⟨h1, by simp only [if_true, List.length_cons]; omega, h3, h4, h5, h6, h7, h8⟩
    | directive o =>
      rw [show addDef (doc, exts) ⟨loc, .directive o⟩ = ({ doc with defs := ⟨loc, .directive o⟩ :: doc.defs, directives := doc.directives + 1 }, exts) from rfl]
      have := ih { doc with defs := ⟨loc, .directive o⟩ :: doc.defs, directives := doc.directives + 1 } exts hn
      simp only [howMany, extendedName, List.filter_cons, List.filterMap_cons] at this ⊢
      obtain ⟨h1, h2, h3, h4, h5, h6, h7, h8⟩ := this
      exact ⟨h1, h2, by simp only [if_true, List.length_cons]; omega, h4, h5, h6, h7, h8⟩
    | schema o =>
      rw [show addDef (doc, exts) ⟨loc, .schema o⟩ = ({ doc with defs := ⟨loc, .schema o⟩ :: doc.defs, schemas := doc.schemas + 1 }, exts) from rfl]
      have := ih { doc with defs := ⟨loc, .schema o⟩ :: doc.defs, schemas := doc.schemas + 1 } exts hn
      simp only [howMany, extendedName, List.filter_cons, List.filterMap_cons] at this ⊢
      obtain ⟨h1, h2, h3, h4, h5, h6, h7, h8⟩ := this
      exact ⟨h1, h2, h3, by simp only [if_true, List.length_cons]; omega, h5, h6, h7, h8⟩
    | type o =>
      rw [show addDef (doc, exts) ⟨loc, .type o⟩ = ({ doc with defs := ⟨loc, .type o⟩ :: doc.defs, types := doc.types + 1 }, exts) from rfl]
      have := ih { doc with defs := ⟨loc, .type o⟩ :: doc.defs, types := doc.types + 1 } exts hn
      simp only [howMany, extendedName, List.filter_cons, List.filterMap_cons] at this ⊢
      obtain ⟨h1, h2, h3, h4, h5, h6, h7, h8⟩ := this
      exact ⟨h1, h2, h3, h4, by simp only [if_true, List.length_cons]; omega, h6, h7, h8⟩
    | schemaExt o =>
      rw [show addDef (doc, exts) ⟨loc, .schemaExt o⟩ = ({ doc with defs := ⟨loc, .schemaExt o⟩ :: doc.defs, schemaExts := doc.schemaExts + 1 }, exts) from rfl]
      have := ih { doc with defs := ⟨loc, .schemaExt o⟩ :: doc.defs, schemaExts := doc.schemaExts + 1 } exts hn
      simp only [howMany, extendedName, List.filter_cons, List.filterMap_cons] at this ⊢
      obtain ⟨h1, h2, h3, h4, h5, h6, h7, h8⟩ := this
      exact ⟨h1, h2, h3, h4, h5, by simp only [if_true, List.length_cons]; omega, h7, h8⟩

/-- C17: the counters of a parsed document; `TypeExtensions` is the number of distinct names of the type
extensions. -/
theorem C17_counters (input : Bytes) (d : Document) (h : parse pf input = .ok d) :
    d.operations = howMany (fun | .op _ => true | _ => false) d.defs ∧
    d.fragments = howMany (fun | .frag _ => true | _ => false) d.defs ∧
    d.directives = howMany (fun | .directive _ => true | _ => false) d.defs ∧
    d.schemas = howMany (fun | .schema _ => true | _ => false) d.defs ∧
    d.types = howMany (fun | .type _ => true | _ => false) d.defs ∧
    d.schemaExts = howMany (fun | .schemaExt _ => true | _ => false) d.defs ∧
    ∃ names : List Bytes, names.Nodup ∧ (∀ n, n ∈ names ↔ n ∈ d.defs.filterMap extendedName) ∧
      d.typeExts = names.length := by
  obtain ⟨ts, -, e⟩ := parse_tokens (pf := pf) (input := input)
  rw [e] at h; unfold parseTokens at h
  have key : ∃ ds, d = mkDocument ds := by
    rcases e2 : parseDefs pf (ts.length + 1) ts with ⟨ds, _⟩ | ⟨er, _⟩ | _ | _ <;> rw [e2] at h
    · cases h; exact ⟨ds, rfl⟩
    · cases h
    · cases h
    · cases h
  obtain ⟨ds, rfl⟩ := key
  rw [mkDocument_defs]
  have := addDef_counts ds {} [] (by simp)
  unfold mkDocument
  rcases e3 : ds.foldl addDef ({}, []) with ⟨doc, exts⟩
  rw [e3] at this
  obtain ⟨h1, h2, h3, h4, h5, h6, h7, h8⟩ := this
  simp only [Nat.zero_add] at h1 h2 h3 h4 h5 h6
  exact ⟨h1, h2, h3, h4, h5, h6, exts, h7, by simpa using h8, rfl⟩

example : ∃ d, parse pf b!"{a} type T extend type A @x extend type B @x extend type A @y fragment F on T{a} query Q{b}" = .ok d ∧
    d.operations = 2 ∧ d.fragments = 1 ∧ d.types = 1 ∧ d.typeExts = 2 ∧ d.defs.length = 7 := ⟨_, (parse_eq (ts := [⟨.punctuator, b!"{", 1, 1⟩, ⟨.name, b!"a", 1, 2⟩, ⟨.punctuator, b!"}", 1, 3⟩, ⟨.name, b!"type", 1, 5⟩, ⟨.name, b!"T", 1, 10⟩, ⟨.name, b!"extend", 1, 12⟩, ⟨.name, b!"type", 1, 19⟩, ⟨.name, b!"A", 1, 24⟩, ⟨.punctuator, b!"@", 1, 26⟩, ⟨.name, b!"x", 1, 27⟩, ⟨.name, b!"extend", 1, 29⟩, ⟨.name, b!"type", 1, 36⟩, ⟨.name, b!"B", 1, 41⟩, ⟨.punctuator, b!"@", 1, 43⟩, ⟨.name, b!"x", 1, 44⟩, ⟨.name, b!"extend", 1, 46⟩, ⟨.name, b!"type", 1, 53⟩, ⟨.name, b!"A", 1, 58⟩, ⟨.punctuator, b!"@", 1, 60⟩, ⟨.name, b!"y", 1, 61⟩, ⟨.name, b!"fragment", 1, 63⟩, ⟨.name, b!"F", 1, 72⟩, ⟨.name, b!"on", 1, 74⟩, ⟨.name, b!"T", 1, 77⟩, ⟨.punctuator, b!"{", 1, 78⟩, ⟨.name, b!"a", 1, 79⟩, ⟨.punctuator, b!"}", 1, 80⟩, ⟨.name, b!"query", 1, 82⟩, ⟨.name, b!"Q", 1, 88⟩, ⟨.punctuator, b!"{", 1, 89⟩, ⟨.name, b!"b", 1, 90⟩, ⟨.punctuator, b!"}", 1, 91⟩, ⟨.eof, [], 1, 92⟩]) (by decide) rfl), rfl, rfl, rfl, rfl, rfl⟩

/-- The location `l` is in the bit set `m`. -/
def Spec.inMask (l : DirLoc) (m : Nat) : Prop := m &&& l.bit = l.bit

theorem bit_testBit (l : DirLoc) : ∃ i, l.bit = 2 ^ i := by
  cases l
  · exact ⟨0, rfl⟩
  · exact ⟨1, rfl⟩
  · exact ⟨2, rfl⟩
  · exact ⟨3, rfl⟩
  · exact ⟨4, rfl⟩
  · exact ⟨5, rfl⟩
  · exact ⟨6, rfl⟩
  · exact ⟨7, rfl⟩
  · exact ⟨8, rfl⟩
  · exact ⟨9, rfl⟩
  · exact ⟨10, rfl⟩
  · exact ⟨11, rfl⟩
  · exact ⟨12, rfl⟩
  · exact ⟨13, rfl⟩
  · exact ⟨14, rfl⟩
  · exact ⟨15, rfl⟩
  · exact ⟨16, rfl⟩
  · exact ⟨17, rfl⟩
  · exact ⟨18, rfl⟩

/-- C22: names and bits of locations are in one-to-one correspondence. -/
theorem C22_names_bits (a b : DirLoc) :
    (a.name = b.name ↔ a = b) ∧ (a.bit = b.bit ↔ a = b) ∧ locByName a.name = a.bit ∧ a ∈ DirLoc.all := by
  refine ⟨⟨?_, fun h => h ▸ rfl⟩, ⟨?_, fun h => h ▸ rfl⟩, ?_, ?_⟩
  · cases a <;> cases b <;> first | (intro _; rfl) | (intro h; exact absurd h (by decide))
  · cases a <;> cases b <;> first | (intro _; rfl) | (intro h; exact absurd h (by decide))
  · cases a <;> decide
  · cases a <;> decide

theorem inMask_iff {l : DirLoc} {i m : Nat} (h : l.bit = 2 ^ i) : inMask l m ↔ m.testBit i = true := by
  unfold inMask
  rw [h]
  constructor
  · intro e
    have := congrArg (fun x => x.testBit i) e
    simpa using this
  · intro e
    apply Nat.eq_of_testBit_eq
    intro j
    rw [Nat.testBit_and, Nat.testBit_two_pow]
    by_cases hj : i = j
    · subst hj; simp [e]
    · simp [hj]

theorem inMask_or {l : DirLoc} {m k : Nat} : inMask l (m ||| k) ↔ inMask l m ∨ inMask l k := by
  obtain ⟨i, h⟩ := bit_testBit l
  simp only [inMask_iff h, Nat.testBit_or, Bool.or_eq_true]

theorem inMask_bit {l l' : DirLoc} : inMask l l'.bit ↔ l = l' := by
  constructor
  · cases l <;> cases l' <;> first | (intro _; rfl) | (intro h; exact absurd h (by unfold inMask; decide))
  · rintro rfl; cases l <;> (unfold inMask; decide)

/-- C22: the bit set of a list of locations contains exactly these. -/
theorem C22_mask (ls : List DirLoc) (l : DirLoc) : inMask l (locMask ls) ↔ l ∈ ls := by
  have key : ∀ m, inMask l (ls.foldl (fun m l => m ||| l.bit) m) ↔ inMask l m ∨ l ∈ ls := by
    induction ls with
    | nil => intro m; simp
    | cons a as ih =>
      intro m
      rw [List.foldl_cons, ih, inMask_or, inMask_bit, List.mem_cons]
      simp only [or_assoc]
  have h0 : ¬ inMask l 0 := by cases l <;> (unfold inMask; decide)
  unfold locMask
  rw [key 0]
  simp [h0]

/-- C22: the locations of a directive definition are the set of the listed ones: parsing `|`-separated names,
with or without a leading `|`, gives the bit set that contains exactly them, and every such list is accepted. -/
theorem C22_parse (ts rest : Toks) (m : Nat) :
    parseDirectiveLocations ts = .ok m rest ↔
      ∃ r ls, OptPu b!"|" ts r ∧ SepBy LocName b!"|" r ls rest ∧ m = locMask ls := by
  constructor
  · intro h
    rw [parseDirectiveLocations, bind_ok] at h
    obtain ⟨b, r, h1, h⟩ := h
    rw [bind_ok] at h
    obtain ⟨tl, r2, h2, h⟩ := h
    obtain ⟨rfl, rfl⟩ := pure_ok.1 h
    have h3 := rloop_sep (doWhile_sound (R := LocTok) (fun _ _ _ h => (mustConsumen_ok (by decide) directiveLocations_ne).1 h)
      bsep_sound _ _ _ h2)
    obtain ⟨ls, hls, e⟩ := sep_locs h3
    exact ⟨r, ls, skip1_optPu h1, hls, foldl_locs e⟩
  · rintro ⟨r, ls, h6, h7, rfl⟩
    obtain ⟨b, h9⟩ := optPu_skip h6
    obtain ⟨tl, h10, h11⟩ := sepBy_locs h7
    rw [parseDirectiveLocations, bind_eq h9, bind_eq (doWhile_complete (N := r.length + 1)
      (R := fun ts (t : Token) r => ts = t :: r ∧ t.kind = .name ∧ t.lit ∈ directiveLocations)
      (fun _ _ _ _ h => (mustConsumen_ok (by decide) (by decide)).2 h) bsep_complete
      (fun _ _ _ h => by rw [h.1]; simp) bsep_noGrow _ _ _ (by omega) (sep_rloop h10)), locMask_eq tl ls 0 h11]
    rfl

/-- The mask of `| FIELD | ENUM | FIELD`. -/
example : ∃ d, parse (fun _ => none) b!"directive @x on | FIELD | ENUM | FIELD" = .ok d ∧
    d.defs.map (fun d => match d.body with | .directive x => x.locs | _ => 0) = [locMask [.field, .enum]] := ⟨_, (parse_eq (ts := [⟨.name, b!"directive", 1, 1⟩, ⟨.punctuator, b!"@", 1, 11⟩, ⟨.name, b!"x", 1, 12⟩, ⟨.name, b!"on", 1, 14⟩, ⟨.punctuator, b!"|", 1, 17⟩, ⟨.name, b!"FIELD", 1, 19⟩, ⟨.punctuator, b!"|", 1, 25⟩, ⟨.name, b!"ENUM", 1, 27⟩, ⟨.punctuator, b!"|", 1, 32⟩, ⟨.name, b!"FIELD", 1, 34⟩, ⟨.eof, [], 1, 39⟩]) (by decide) rfl), rfl⟩

end GQL
