/-
C96: building a schema again.
-/
import Verif.Model.HeapAgain
import Verif.Spec.Again
import Verif.Proofs.Idle

namespace GQL
variable {pf : Bytes → Option Nat}

/-- A program that may have called `ParseSDLDoc` before (state `st`) has parsed a text to the document `d`, in which `ValidateSDL` finds no errors; in the memory
`m` are the definitions, to which the context `q` points. -/
structure Validated (pf : Bytes → Option Nat) (st : PState) (input : Bytes) (d : Document) (m : PMem) (q : PSDL) : Prop where
  reachable : st.Reachable pf
  parsed : parse pf input = .ok d
  valid : ∃ c s, validateSDL d none (rulesWalker specifiedSDL) = .ret c ∧ c.errors = [] ∧ c.sdl = some s ∧ st.mem.allocSDL s = .ret (m, q)

/-! ### Memory and document -/

/-- What is known about the memory of a validated document. -/
structure Held (d : Document) (m : PMem) (q : PSDL) (A : AMem) : Prop where
  mem : Is m A
  globals : A.Globals
  new : ∃ N S, 2 ≤ N ∧ A.New N S q
  new' : q.isExtending = false
  exts : ∀ p ∈ q.typeExts, ∀ e ∈ p.2, A.get e ∈ Spec.typeExts d.defs ∧ (A.get e).name = p.1
  extOf : ∀ e ∈ Spec.typeExts d.defs, ∃ p ∈ q.typeExts, p.1 = e.name ∧ ∃ a ∈ p.2, A.get a = e
  types : ∀ n, (q.types.lookup n).map A.get = (Spec.typeDefs d.defs).find? (fun t => t.name == n)
  found : ∀ p ∈ q.typeExts, q.types.lookup p.1 ≠ none
  schemaDef : q.schemaDef.map A.sget = (Spec.schemaDefs d.defs).head?
  schemaExts : q.schemaExts.map A.sget = Spec.schemaExts d.defs
  typesOnce : (q.types.map (·.1)).Nodup
  directivesOnce : (q.directives.map (·.1)).Nodup

theorem lookup_of_mem {α : Type} {n : Bytes} {v : α} : ∀ {l : GMap α}, (l.map (·.1)).Nodup → (n, v) ∈ l → l.lookup n = some v
  | (k, w) :: l, hn, h => by
    rw [List.map_cons, List.nodup_cons] at hn
    rcases List.mem_cons.1 h with h | h
    · cases h
      simp [List.lookup]
    · have e : (n == k) = false := by
        rw [beq_eq_false_iff_ne]
        intro e
        exact hn.1 (List.mem_map.2 ⟨(n, v), h, e⟩)
      simp only [List.lookup, e]
      exact lookup_of_mem hn.2 h

theorem moreExts_some : ∀ (l : List TypeDef), moreExts none l = if l = [] then none else some l
  | [] => rfl
  | t :: l => by
    have := lookup_moreExts (t :: l)
    cases h : moreExts none (t :: l) with
    | none => rw [h] at this; cases this
    | some x => rw [h] at this; simpa using this

theorem Validated.held {st : PState} {input : Bytes} {d : Document} {m : PMem} {q : PSDL} (h : Validated pf st input d m q) : ∃ A, Held d m q A := by
  obtain ⟨B, hG⟩ := h.reachable.good
  obtain ⟨c, s, hv, he, hs, ha⟩ := h.valid
  have hx := sdlErrors_nil hv he
  obtain ⟨c', h1, -, hb⟩ := validateSDL_all d none
  rw [hv] at h1
  cases h1
  have hsdl : c.sdl.map SDLContext.noFlags = some (sdlOf d none).noFlags := congrArg Ctx.sdl hb
  rw [hs, Option.map_some, Option.some.injEq] at hsdl
  have a2 : s.directives = (sdlOf d none).directives := by have := congrArg SDLContext.directives hsdl; exact this
  have a1 : s.types = (sdlOf d none).types := by have := congrArg SDLContext.types hsdl; exact this
  have a3 : s.typeExts = (sdlOf d none).typeExts := by have := congrArg SDLContext.typeExts hsdl; exact this
  have a4 : s.schemaDef = (sdlOf d none).schemaDef := by have := congrArg SDLContext.schemaDef hsdl; exact this
  have a5 : s.schemaExts = (sdlOf d none).schemaExts := by have := congrArg SDLContext.schemaExts hsdl; exact this
  have a6 : s.isExtending = (sdlOf d none).isExtending := by have := congrArg SDLContext.isExtending hsdl; exact this
  obtain ⟨m1, A, q1, e1, i1, g1, s1, n1⟩ := allocSDL_is hG.mem s
  rw [ha] at e1
  cases e1
  have hl : ∀ p ∈ q.typeExts, ∃ l, l ≠ [] ∧ l = (Spec.typeExts d.defs).filter (fun t => t.name == p.1) ∧ p.2.map A.get = l := by
    intro p hp
    have hm : (p.1, p.2.map A.get) ∈ (sdlOf d none).typeExts := by
      rw [← a3, s1.typeExts]
      exact List.mem_map.2 ⟨p, hp, rfl⟩
    have := lookup_of_mem (sdlOf_nodup d none).2.2 hm
    rw [sdlOf_typeExts, moreExts_some] at this
    split at this
    · cases this
    · rename_i hne
      exact ⟨_, hne, rfl, (Option.some.inj this).symm⟩
  have ht : ∀ n, (q.types.lookup n).map A.get = (Spec.typeDefs d.defs).find? (fun t => t.name == n) := by
    intro n
    rw [← lookup_vals, ← s1.types, a1, sdlOf_types]
    rfl
  have hexts : ∀ p ∈ q.typeExts, ∀ e ∈ p.2, A.get e ∈ Spec.typeExts d.defs ∧ (A.get e).name = p.1 := by
    intro p hp e he
    obtain ⟨l, -, h2, h3⟩ := hl p hp
    have : A.get e ∈ p.2.map A.get := List.mem_map.2 ⟨e, he, rfl⟩
    rw [h3, h2, List.mem_filter, beq_iff_eq] at this
    exact this
  refine ⟨A, i1, hG.globals.grow g1 id id, ⟨_, _, hG.globals.string.1.head, n1⟩, ?_, hexts, ?_, ht, ?_, ?_, ?_, ?_, ?_⟩
  · rw [← s1.extending, a6, sdlOf_extending]
    rfl
  · intro e he
    have hlk : (sdlOf d none).typeExts.lookup e.name = some ((Spec.typeExts d.defs).filter (fun t => t.name == e.name)) := by
      rw [sdlOf_typeExts, moreExts_some, if_neg]
      intro hn
      have hm : e ∈ (Spec.typeExts d.defs).filter (fun t => t.name == e.name) := List.mem_filter.2 ⟨he, by simp⟩
      rw [hn] at hm
      cases hm
    have hm := lookup_mem hlk
    rw [← a3, s1.typeExts] at hm
    obtain ⟨p, hp, hpe⟩ := List.mem_map.1 hm
    have h1 : p.1 = e.name := congrArg Prod.fst hpe
    have h2 : p.2.map A.get = _ := congrArg Prod.snd hpe
    have hme : e ∈ p.2.map A.get := by
      rw [h2]
      exact List.mem_filter.2 ⟨he, by simp⟩
    obtain ⟨a, ha, hae⟩ := List.mem_map.1 hme
    exact ⟨p, hp, h1, a, ha, hae⟩
  · intro p hp hn
    obtain ⟨l, h1, h2, h3⟩ := hl p hp
    cases l with
    | nil => exact h1 rfl
    | cons e l =>
      have hm : e ∈ (Spec.typeExts d.defs).filter (fun t => t.name == p.1) := by rw [← h2]; simp
      rw [List.mem_filter, beq_iff_eq] at hm
      obtain ⟨t, ht', -⟩ := extensions_ok hx e hm.1
      unfold Spec.extendedType at ht'
      have ht'' := ht p.1
      rw [hn, ← hm.2] at ht''
      have : Spec.schemaTypes none = [] := rfl
      rw [this] at ht'
      dsimp only [List.lookup] at ht'
      rw [← ht''] at ht'
      cases ht'
  · rw [← s1.schemaDef, a4, sdlOf_schemaDef]
    rfl
  · rw [← s1.schemaExts, a5, sdlOf_schemaExts]
  · have := (sdlOf_nodup d none).1
    rw [← a1, s1.types] at this
    unfold AMem.vals at this
    rw [List.map_map] at this
    exact this
  · have := (sdlOf_nodup d none).2.1
    rw [← a2, s1.directives] at this
    exact this

/-! ### Rings -/

theorem Rep.both {α : Type} {m : Mem α} {s : Spec.Vars α} (hr : Rep m s) {x y : Nat} (hx : ∃ l, s x = some l) (hy : ∃ l, s y = some l) :
    NonNull m x y ↔ (s x).getD [] ≠ [] ∧ (s y).getD [] ≠ [] := and_congr (not_congr (hr.null hx)) (not_congr (hr.null hy))

/-- The pointers that are joined are the lists that are not empty. -/
theorem joinsType_iff {m : PMem} {A : AMem} (h : Is m A) {t e : Nat} (ht : A.Live t) (he : A.Live e) :
    JoinsType NonNull (A.head e).kind m t e ↔ Spec.AddsTo (A.get t) (A.get e) := by
  unfold JoinsType Spec.AddsTo
  refine or_congr (h.dirs.both ht.dirs he.dirs) ?_
  have hk : (A.get e).kind = (A.head e).kind := rfl
  rw [hk]
  cases (A.head e).kind with
  | scalar => exact Iff.rfl
  | object => exact or_congr (h.fields.both ht.fields he.fields) (h.tys.both ht.ifaces he.ifaces)
  | interface => exact h.fields.both ht.fields he.fields
  | union => exact h.tys.both ht.members he.members
  | enum => exact h.values.both ht.values he.values
  | inputObject => exact h.inputs.both ht.inputs he.inputs

theorem joinsSchema_iff {m : PMem} {A : AMem} (h : Is m A) {b e : Nat} (hb : A.SLive b) (he : A.SLive e) :
    JoinsSchema NonNull m b e ↔ Spec.AddsToSchema (A.sget b) (A.sget e) :=
  or_congr (h.dirs.both hb.dirs he.dirs) (h.ops.both hb.ops he.ops)

theorem head_is {m : PMem} {A : AMem} (h : Is m A) {e : Nat} (he : A.Live e) : m.heads[e]? = some (A.head e) := by
  unfold AMem.head
  rw [h.heads, List.getElem?_eq_getElem he.head]
  rfl

/-- A context of the same document: the pointers are the same, and the types are found. -/
structure SameDoc (q q' : PSDL) : Prop where
  typeExts : q'.typeExts = q.typeExts
  schemaDef : q'.schemaDef = q.schemaDef
  schemaExts : q'.schemaExts = q.schemaExts
  isExtending : q'.isExtending = q.isExtending
  types : ∀ n t, q.types.lookup n = some t → q'.types.lookup n = some t

theorem SameDoc.refl (q : PSDL) : SameDoc q q := ⟨rfl, rfl, rfl, rfl, fun _ _ h => h⟩

theorem mergeTarget_new {sch : PSchema} {q : PSDL} (h : q.isExtending = false) (n : Bytes) : mergeTarget sch q n = q.types.lookup n := by
  unfold mergeTarget
  rw [h]
  rfl

theorem buildTypesP_new {ord : Order Nat} {sch : PSchema} {q : PSDL} (h : q.isExtending = false) :
    (buildTypesP ord sch q).types = addMissing q.types (ord.arrange specifiedTypesP) ∧ (buildTypesP ord sch q).definition = sch.definition ∧
      (buildTypesP ord sch q).directives = sch.directives := by
  unfold buildTypesP
  rw [h]
  exact ⟨rfl, rfl, rfl⟩

theorem buildDirectivesP_new {ord : Order DirDef} {sch : PSchema} {q : PSDL} (h : q.isExtending = false) :
    (buildDirectivesP ord sch q).directives = addMissing q.directives (ord.arrange specifiedDirectives) ∧
      (buildDirectivesP ord sch q).definition = sch.definition := by
  unfold buildDirectivesP
  rw [h]
  exact ⟨rfl, rfl⟩

theorem buildSchema_ret {ord : POrders} {m m' : PMem} {sch S : PSchema} {q q' : PSDL} (hs : SameDoc q q') (hx : q.isExtending = false)
    (hf : ∀ p ∈ q.typeExts, q.types.lookup p.1 ≠ none) (r : m.buildSchema ord sch q' = .ret (m', S)) :
    KeptTypes m m' ∧ (∀ p ∈ q.typeExts, ∀ e ∈ p.2, ∀ t, q.types.lookup p.1 = some t → Merged m m' t e) ∧
    (∀ n t, q.types.lookup n = some t → S.types.lookup n = some t) ∧
    ∀ b, q.schemaDef = some b → KeptSchemas m m' ∧ S.definition = some b ∧ ∀ e ∈ q.schemaExts,
      (JoinsSchema NonNull m b e → JoinsSchema Linked m' b e) ∧ (JoinsSchema Linked m b e → JoinsSchema Ring m' b e) ∧ ¬ JoinsSchema Ring m b e := by
  have hx' : q'.isExtending = false := hs.isExtending.trans hx
  unfold PMem.buildSchema at r
  obtain ⟨m1, e1, r⟩ := bind_ret_inv r
  obtain ⟨m2, e2, r⟩ := bind_ret_inv r
  obtain ⟨⟨m3, S3⟩, e3, r⟩ := bind_ret_inv r
  cases r
  have hmem : ∀ p, p ∈ ord.exts.arrange q'.typeExts ↔ p ∈ q.typeExts := fun p => by rw [(ord.exts.perm _).mem_iff, hs.typeExts]
  have htgt : ∀ p ∈ q.typeExts, ∃ t, q.types.lookup p.1 = some t ∧ mergeTarget sch q' p.1 = some t := by
    intro p hp
    obtain ⟨t, ht⟩ := Option.ne_none_iff_exists'.1 (hf p hp)
    exact ⟨t, ht, by rw [mergeTarget_new hx']; exact hs.types _ _ ht⟩
  obtain ⟨k1, s1, b1⟩ := mergeSchemaExtensions_ret e1
  obtain ⟨k2, s2, b2⟩ := mergeTypeExts_ret (fun p hp hn => by
    obtain ⟨t, -, h⟩ := htgt p ((hmem p).1 hp)
    rw [hn] at h
    cases h) e2
  obtain ⟨k3, b3⟩ := buildSchemaDefinition_ret e3
  obtain ⟨t1, t2, -⟩ := buildTypesP_new (ord := ord.types) (sch := buildDirectivesP ord.dirs S3 q') hx'
  refine ⟨(k1.trans k2).trans k3, fun p hp e he t ht => ?_, fun n t ht => ?_, fun b hb => ?_⟩
  · obtain ⟨t', ht', h⟩ := htgt p hp
    rw [ht] at ht'
    cases ht'
    exact ((b2 p ((hmem p).2 hp) e he t h).after k1).before k3
  · rw [t1, addMissing_lookup, hs.types n t ht]
    rfl
  · rw [← hs.schemaDef] at hb
    rw [← hs.schemaExts]
    obtain ⟨rfl, h3, -⟩ := b3 b hb
    refine ⟨s1.trans s2, by rw [t2, (buildDirectivesP_new hx').2, h3], fun e he => ?_⟩
    obtain ⟨z1, z2, z3⟩ := b1 b hb e he
    exact ⟨fun h => s2.joins linked_kept (z1 h), fun h => s2.joins ring_kept (z2 h), z3⟩

/-- What `BuildSchema` has linked. -/
inductive Bound (R : ∀ {α : Type}, Mem α → Nat → Nat → Prop) (q : PSDL) (m : PMem) : Prop
  | type {p : Bytes × List Nat} {e t : Nat} {h : TypeHead} (hp : p ∈ q.typeExts) (he : e ∈ p.2) (ht : q.types.lookup p.1 = some t)
      (hh : m.heads[e]? = some h) (r : JoinsType R h.kind m t e) : Bound R q m
  | schema {b e : Nat} (hb : q.schemaDef = some b) (he : e ∈ q.schemaExts) (r : JoinsSchema R m b e) : Bound R q m

section
variable {ord : POrders} {m m' : PMem} {sch S : PSchema} {q q' : PSDL} (hs : SameDoc q q') (hx : q.isExtending = false)
    (hf : ∀ p ∈ q.typeExts, q.types.lookup p.1 ≠ none) (r : m.buildSchema ord sch q' = .ret (m', S))
include hs hx hf r

theorem Bound.link (h : Bound NonNull q m) : Bound Linked q m' := by
  obtain ⟨k, b1, -, b2⟩ := buildSchema_ret hs hx hf r
  cases h with
  | type hp he ht hh r => exact .type hp he ht (k.heads ▸ hh) ((b1 _ hp _ he _ ht _ hh).1 r)
  | schema hb he r => exact .schema hb he (((b2 _ hb).2.2 _ he).1 r)

theorem Bound.close (h : Bound Linked q m) : Bound Ring q m' := by
  obtain ⟨k, b1, -, b2⟩ := buildSchema_ret hs hx hf r
  cases h with
  | type hp he ht hh r => exact .type hp he ht (k.heads ▸ hh) ((b1 _ hp _ he _ ht _ hh).2.1 r)
  | schema hb he r => exact .schema hb he (((b2 _ hb).2.2 _ he).2.1 r)

theorem Bound.stuck (h : Bound Ring q m) : False := by
  obtain ⟨k, b1, -, b2⟩ := buildSchema_ret hs hx hf r
  cases h with
  | type hp he ht hh r => exact (b1 _ hp _ he _ ht _ hh).2.2 r
  | schema hb he r => exact ((b2 _ hb).2.2 _ he).2.2 r

end

/-- A schema that points to a ring cannot be read. -/
theorem Bound.unreadable {q : PSDL} {m : PMem} (h : Bound Ring q m) {S : PSchema} (ht : ∀ n t, q.types.lookup n = some t → S.types.lookup n = some t)
    (hd : ∀ b, q.schemaDef = some b → S.definition = some b) (v : Schema) : m.readSchema S ≠ .ret v := by
  intro r
  obtain ⟨r1, r2⟩ := readSchema_parts r
  cases h with
  | type hp he ht' hh r =>
    obtain ⟨d, hd⟩ := r1 _ (lookup_mem (ht _ _ ht'))
    exact r.unreadable d hd
  | schema hb he r =>
    obtain ⟨⟨l1, h1⟩, l2, h2⟩ := r2 _ (hd _ hb)
    rcases r with r | r
    · exact r.items _ h1
    · exact r.items _ h2

theorem Held.bound {d : Document} {m : PMem} {q : PSDL} {A : AMem} (h : Held d m q A) (he : Spec.Extends d.defs) : Bound NonNull q m := by
  obtain ⟨N, S, -, hn⟩ := h.new
  rcases he with ⟨e, he, t, ht, ha⟩ | ⟨e, he, t, ht, ha⟩
  · obtain ⟨p, hp, hpn, a, ha', rfl⟩ := h.extOf e he
    rw [← h.types] at ht
    obtain ⟨t', ht', rfl⟩ := Option.map_eq_some_iff.1 ht
    have hle := (hn.exts p hp a ha').1
    have hlt := (hn.types _ (lookup_mem ht')).1
    exact .type hp ha' (by rw [hpn]; exact ht') (head_is h.mem hle) ((joinsType_iff h.mem hlt hle).2 ha)
  · rw [← h.schemaExts] at he
    obtain ⟨a, ha', rfl⟩ := List.mem_map.1 he
    rw [← h.schemaDef] at ht
    obtain ⟨b, hb, rfl⟩ := Option.map_eq_some_iff.1 ht
    exact .schema hb ha' ((joinsSchema_iff h.mem (hn.schemaDef b hb).1 (hn.schemaExts a ha').1).2 ha)

theorem sameDoc_again {q : PSDL} {S : PSchema} (h : ∀ n t, q.types.lookup n = some t → S.types.lookup n = some t) :
    SameDoc q { q with directives := S.directives, types := S.types } := ⟨rfl, rfl, rfl, rfl, h⟩

/-- The first call returns a schema that can be read. -/
theorem Validated.first {st : PState} {input : Bytes} {d : Document} {m : PMem} {q : PSDL} (h : Validated pf st input d m q) (ord : POrders) :
    ∃ m1 S1 v, m.buildFresh ord q = .ret (m1, S1) ∧ m1.readSchema S1 = .ret v := by
  obtain ⟨B, hG⟩ := h.reachable.good
  obtain ⟨c, s, -, -, -, ha⟩ := h.valid
  obtain ⟨-, m1, m', q1, A', p', -, e1, e2, i2, -, hp, -⟩ := build_is hG (p := {}) ⟨(fun x hx => by cases hx), (fun b hb => by cases hb)⟩ List.nodup_nil s ord
  rw [ha] at e1
  cases e1
  exact ⟨m', p', _, e2, readSchema_is i2 hp⟩

/-- **C96 fails** for every document in which an extension adds something to a list that is not empty: the first call of `BuildSchema` returns a schema that can
be read; after a second one, be it with the same context or with another context of the document, neither the schema that it returns nor the one of the first
call can be read to the end; and a third call does not return. -/
theorem C96_rings {st : PState} {input : Bytes} {d : Document} {m : PMem} {q : PSDL} (h : Validated pf st input d m q) (he : Spec.Extends d.defs)
    (ord : POrders) : ∃ m1 S1 v, m.buildFresh ord q = .ret (m1, S1) ∧ m1.readSchema S1 = .ret v ∧
      ∀ ord2 m2 S2, m1.buildAgain ord2 S1 q = .ret (m2, S2) ∨ m1.buildFresh ord2 q = .ret (m2, S2) →
        (∀ v, m2.readSchema S2 ≠ .ret v) ∧ (∀ v, m2.readSchema S1 ≠ .ret v) ∧
        ∀ ord3 r, m2.buildAgain ord3 S2 q ≠ .ret r ∧ m2.buildAgain ord3 S1 q ≠ .ret r ∧ m2.buildFresh ord3 q ≠ .ret r := by
  obtain ⟨A, hA⟩ := h.held
  obtain ⟨m1, S1, v, e1, r1⟩ := h.first ord
  refine ⟨m1, S1, v, e1, r1, fun ord2 m2 S2 e2 => ?_⟩
  have l1 := (hA.bound he).link (.refl q) hA.new' hA.found e1
  obtain ⟨-, -, t1, d1⟩ := buildSchema_ret (.refl q) hA.new' hA.found e1
  have a1 := sameDoc_again t1
  have l2 : Bound Ring q m2 ∧ (∀ n t, q.types.lookup n = some t → S2.types.lookup n = some t) ∧ ∀ b, q.schemaDef = some b → S2.definition = some b := by
    rcases e2 with e2 | e2
    · obtain ⟨-, -, t2, d2⟩ := buildSchema_ret a1 hA.new' hA.found e2
      exact ⟨l1.close a1 hA.new' hA.found e2, t2, fun b hb => (d2 b hb).2.1⟩
    · obtain ⟨-, -, t2, d2⟩ := buildSchema_ret (.refl q) hA.new' hA.found e2
      exact ⟨l1.close (.refl q) hA.new' hA.found e2, t2, fun b hb => (d2 b hb).2.1⟩
  obtain ⟨l2, t2, d2⟩ := l2
  refine ⟨l2.unreadable t2 d2, l2.unreadable t1 fun b hb => (d1 b hb).2.1, fun ord3 r => ⟨fun e3 => ?_, fun e3 => ?_, fun e3 => ?_⟩⟩
  · exact l2.stuck (sameDoc_again t2) hA.new' hA.found e3
  · exact l2.stuck a1 hA.new' hA.found e3
  · exact l2.stuck (.refl q) hA.new' hA.found e3

/-- **C96 fails**, for a document with two lines: `type Query{a:ID}` and `extend type Query{b:ID}`.  The second call of `BuildSchema` returns; then reading the
schema does not end. -/
theorem C96_refuted : ∃ d m q m1 S1 v m2 S2, Validated pf .init b!"type Query{a:ID}extend type Query{b:ID}" d m q ∧
    m.buildFresh plainPOrders q = .ret (m1, S1) ∧ m1.readSchema S1 = .ret v ∧ m1.buildAgain plainPOrders S1 q = .ret (m2, S2) ∧
    (∀ w, m2.readSchema S2 ≠ .ret w) ∧ (∀ w, m2.readSchema S1 ≠ .ret w) := by
  have h : ∃ d m q, Validated pf .init b!"type Query{a:ID}extend type Query{b:ID}" d m q ∧ Spec.Extends d.defs ∧
      ∃ x, ((m.buildFresh plainPOrders q).bind fun r => r.1.buildAgain plainPOrders r.2 q) = .ret x := by
    refine ⟨_, _, _, ⟨⟨[], [], rfl⟩, (parse_eq (ts := [⟨.name, b!"type", 1, 1⟩, ⟨.name, b!"Query", 1, 6⟩, ⟨.punctuator, b!"{", 1, 11⟩, ⟨.name, b!"a", 1, 12⟩, ⟨.punctuator, b!":", 1, 13⟩, ⟨.name, b!"ID", 1, 14⟩, ⟨.punctuator, b!"}", 1, 16⟩, ⟨.name, b!"extend", 1, 17⟩, ⟨.name, b!"type", 1, 24⟩, ⟨.name, b!"Query", 1, 29⟩, ⟨.punctuator, b!"{", 1, 34⟩, ⟨.name, b!"b", 1, 35⟩, ⟨.punctuator, b!":", 1, 36⟩, ⟨.name, b!"ID", 1, 37⟩, ⟨.punctuator, b!"}", 1, 39⟩, ⟨.eof, [], 1, 40⟩]) (by decide) rfl), _, _, rfl, rfl, rfl, rfl⟩, ?_, ⟨_, rfl⟩⟩
    exact .inl ⟨_, .head _, _, rfl, .inr (.inl ⟨by decide, by decide⟩)⟩
  obtain ⟨d, m, q, hv, he, ⟨m2, S2⟩, r⟩ := h
  obtain ⟨m1, S1, v, e1, r1, hr⟩ := C96_rings hv he plainPOrders
  rw [e1] at r
  have hr := hr plainPOrders m2 S2 (.inl r)
  exact ⟨d, m, q, m1, S1, v, m2, S2, hv, e1, r1, r, hr.1, hr.2.1⟩

/-! ### Documents without such extensions -/

/-- The memory and the schemas that the program has after some calls of `BuildSchema` for contexts of one document, in any order: with a new context, or with the
context of a schema that it already has. -/
inductive Calls (m : PMem) (q : PSDL) : PMem → List PSchema → Prop
  | none : Calls m q m []
  | fresh {m1 m2 : PMem} {l : List PSchema} {ord : POrders} {S : PSchema} : Calls m q m1 l → m1.buildFresh ord q = .ret (m2, S) → Calls m q m2 (S :: l)
  | again {m1 m2 : PMem} {l : List PSchema} {ord : POrders} {S S' : PSchema} : Calls m q m1 l → S ∈ l → m1.buildAgain ord S q = .ret (m2, S') →
      Calls m q m2 (S' :: l)

theorem Held.idle {d : Document} {m : PMem} {q : PSDL} {A : AMem} (h : Held d m q A) (he : ¬ Spec.Extends d.defs) : Idle A q := by
  obtain ⟨N, S, -, hn⟩ := h.new
  refine ⟨h.globals, h.new', fun x hx => (hn.types x hx).1, h.typesOnce, h.directivesOnce, fun p hp t ht e hep => ⟨(hn.exts p hp e hep).1, ?_, ?_⟩, h.found,
    fun b hb => ⟨(hn.schemaDef b hb).1, fun e hes => ⟨(hn.schemaExts e hes).1, ?_, ?_⟩⟩⟩
  · rintro rfl
    exact hn.apart t (List.mem_flatMap.2 ⟨p, hp, hep⟩) (List.mem_map.2 ⟨_, lookup_mem ht, rfl⟩)
  · intro ha
    obtain ⟨h1, h2⟩ := h.exts p hp e hep
    refine he (.inl ⟨_, h1, _, ?_, ha⟩)
    rw [h2, ← h.types, ht]
    rfl
  · rintro rfl
    exact hn.schemaApart b hb hes
  · intro ha
    refine he (.inr ⟨A.sget e, ?_, A.sget b, ?_, ha⟩)
    · rw [← h.schemaExts]
      exact List.mem_map.2 ⟨e, hes, rfl⟩
    · rw [← h.schemaDef, hb]
      rfl

theorem Calls.idle {m m1 : PMem} {q : PSDL} {l : List PSchema} (h : Calls m q m1 l) {A : AMem} (hA : Is m A) (hi : Idle A q) :
    ∃ A1, Is m1 A1 ∧ Grow A A1 nowhere nowhere ∧ ∀ S ∈ l, Fit A1 q (theDef A q) S := by
  induction h with
  | none => exact ⟨A, hA, .refl _ _ _, fun S hS => by cases hS⟩
  | fresh _ e ih =>
    obtain ⟨A1, i1, g1, f1⟩ := ih
    obtain ⟨k1, k2⟩ := hi.grow g1
    obtain ⟨m2, A2, S, e2, i2, g2, f2⟩ := k1.fresh i1 _
    rw [e] at e2
    cases e2
    refine ⟨A2, i2, g1.trans g2, fun S' hS' => ?_⟩
    rcases List.mem_cons.1 hS' with rfl | hS'
    · exact k2 ▸ f2
    · exact (f1 S' hS').grow g2
  | again _ hS e ih =>
    obtain ⟨A1, i1, g1, f1⟩ := ih
    obtain ⟨k1, k2⟩ := hi.grow g1
    obtain ⟨m2, A2, S, e2, i2, g2, f2⟩ := k1.again i1 _ (k2 ▸ f1 _ hS)
    rw [e] at e2
    cases e2
    refine ⟨A2, i2, g1.trans g2, fun S' hS' => ?_⟩
    rcases List.mem_cons.1 hS' with rfl | hS'
    · exact k2 ▸ f2
    · exact (f1 S' hS').grow g2

/-- **C96**, where it holds: if no extension in the document adds anything to a list that is not empty, then `BuildSchema` can be called any number of times, with
one context or with several contexts of the document; every call returns, and all schemas contain the same, also those that earlier calls have returned. -/
theorem C96_partial {st : PState} {input : Bytes} {d : Document} {m : PMem} {q : PSDL} (h : Validated pf st input d m q) (he : ¬ Spec.Extends d.defs) :
    ∃ v, ∀ m1 l, Calls m q m1 l → (∀ S ∈ l, ∃ w, m1.readSchema S = .ret w ∧ Spec.Same v w) ∧
      ∀ ord, (∃ r, m1.buildFresh ord q = .ret r) ∧ ∀ S ∈ l, ∃ r, m1.buildAgain ord S q = .ret r := by
  obtain ⟨A, hA⟩ := h.held
  have hi := hA.idle he
  obtain ⟨m0, A0, S0, -, -, g0, f0⟩ := hi.fresh hA.mem ⟨.id, .id, .id, plainRun⟩
  have hi0 := (hi.grow g0).1
  refine ⟨A0.schema S0, fun m1 l hc => ?_⟩
  obtain ⟨A1, i1, g1, f1⟩ := hc.idle hA.mem hi
  obtain ⟨k1, k2⟩ := hi.grow g1
  refine ⟨fun S hS => ?_, fun ord => ⟨?_, fun S hS => ?_⟩⟩
  · have hp := (f1 S hS).live k1.globals k1.types
    exact ⟨_, readSchema_is i1 hp, f0.same (f1 S hS) g0 g1 (f0.typesLive hi.globals hi.types)⟩
  · obtain ⟨m2, A2, S, e, -⟩ := k1.fresh i1 ord
    exact ⟨_, e⟩
  · obtain ⟨m2, A2, S', e, -⟩ := k1.again i1 ord (k2 ▸ f1 S hS)
    exact ⟨_, e⟩

/-- The extension adds a directive to a list that is empty.  Three calls are made. -/
example : ∃ d m q m3 S1 S2 S3, Validated pf .init b!"directive@d on OBJECT type Query{a:ID}extend type Query@d" d m q ∧ ¬ Spec.Extends d.defs ∧
    Spec.typeExts d.defs ≠ [] ∧ Calls m q m3 [S3, S2, S1] := by
  have h : ∃ d m q, Validated pf .init b!"directive@d on OBJECT type Query{a:ID}extend type Query@d" d m q ∧ ¬ Spec.Extends d.defs ∧
      Spec.typeExts d.defs ≠ [] := by
    refine ⟨_, _, _, ⟨⟨[], [], rfl⟩, (parse_eq (ts := [⟨.name, b!"directive", 1, 1⟩, ⟨.punctuator, b!"@", 1, 10⟩, ⟨.name, b!"d", 1, 11⟩, ⟨.name, b!"on", 1, 13⟩, ⟨.name, b!"OBJECT", 1, 16⟩, ⟨.name, b!"type", 1, 23⟩, ⟨.name, b!"Query", 1, 28⟩, ⟨.punctuator, b!"{", 1, 33⟩, ⟨.name, b!"a", 1, 34⟩, ⟨.punctuator, b!":", 1, 35⟩, ⟨.name, b!"ID", 1, 36⟩, ⟨.punctuator, b!"}", 1, 38⟩, ⟨.name, b!"extend", 1, 39⟩, ⟨.name, b!"type", 1, 46⟩, ⟨.name, b!"Query", 1, 51⟩, ⟨.punctuator, b!"@", 1, 56⟩, ⟨.name, b!"d", 1, 57⟩, ⟨.eof, [], 1, 58⟩]) (by decide) rfl), _, _, rfl, rfl, rfl, rfl⟩, ?_, by decide⟩
    rintro (⟨e, he, t, ht, ha⟩ | ⟨e, he, -⟩)
    · cases he with
      | head =>
        cases ht
        rcases ha with ha | ha | ha
        · exact ha.1 rfl
        · exact ha.2 rfl
        · exact ha.2 rfl
      | tail _ he => cases he
    · cases he
  obtain ⟨d, m, q, hv, he, hne⟩ := h
  obtain ⟨v, hc⟩ := C96_partial hv he
  obtain ⟨⟨m1, S1⟩, e1⟩ := ((hc m [] .none).2 plainPOrders).1
  have c1 := Calls.fresh .none e1
  obtain ⟨⟨m2, S2⟩, e2⟩ := ((hc m1 _ c1).2 plainPOrders).2 S1 (List.mem_cons_self ..)
  have c2 := Calls.again c1 (List.mem_cons_self ..) e2
  obtain ⟨⟨m3, S3⟩, e3⟩ := ((hc m2 _ c2).2 plainPOrders).1
  exact ⟨d, m, q, m3, S1, S2, S3, hv, he, hne, .fresh c2 e3⟩
end GQL
