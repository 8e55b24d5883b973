/-
`ParseSDLDoc` with pointers (Model/HeapBuild.lean) does what `ParseSDLDoc` with values (Model/Api.lean) does.
-/
import Verif.Proofs.HeapBuild

namespace GQL

/-! ### Maps with other values -/

def mapVals {α β : Type} (f : α → β) (m : GMap α) : GMap β := m.map fun p => (p.1, f p.2)

theorem mapVals_lookup {α β : Type} (f : α → β) (n : Bytes) : ∀ l : GMap α, (mapVals f l).lookup n = (l.lookup n).map f
  | [] => rfl
  | (k, a) :: l => by
    unfold mapVals
    rw [List.map_cons]
    by_cases e : (n == k) = true
    · simp only [List.lookup, e]
      rfl
    · rw [Bool.not_eq_true] at e
      simp only [List.lookup, e]
      exact mapVals_lookup f n l

theorem mapVals_set {α β : Type} (f : α → β) (n : Bytes) (v : α) : ∀ l : GMap α, mapVals f (mapSet l n v) = mapSet (mapVals f l) n (f v)
  | [] => rfl
  | (k, a) :: l => by
    unfold mapSet
    by_cases e : (k == n) = true
    · simp [e, mapVals]
    · simp only [e]
      show (k, f a) :: mapVals f (mapSet l n v) = _
      rw [mapVals_set f n v l]
      simp [mapVals, e]

theorem mapVals_copyInto {α β : Type} (f : α → β) : ∀ (l m : GMap α), mapVals f (l.foldl (fun m p => mapSet m p.1 p.2) m) =
    (mapVals f l).foldl (fun m p => mapSet m p.1 p.2) (mapVals f m)
  | [], _ => rfl
  | p :: l, m => by
    show mapVals f (l.foldl _ (mapSet m p.1 p.2)) = (mapVals f l).foldl _ (mapSet (mapVals f m) p.1 (f p.2))
    rw [mapVals_copyInto f l, mapVals_set]

theorem mapVals_copyMap {α β : Type} (f : α → β) (l : GMap α) : mapVals f (copyMap l) = copyMap (mapVals f l) := mapVals_copyInto f l []

theorem mapVals_addMissing {α β : Type} (f : α → β) : ∀ (l m : GMap α), mapVals f (addMissing m l) = addMissing (mapVals f m) (mapVals f l)
  | [], _ => rfl
  | p :: l, m => by
    show mapVals f (addMissing (if (m.lookup p.1).isSome then m else mapSet m p.1 p.2) l) =
      addMissing (if ((mapVals f m).lookup p.1).isSome then mapVals f m else mapSet (mapVals f m) p.1 (f p.2)) (mapVals f l)
    rw [mapVals_addMissing f l, mapVals_lookup, Option.isSome_map]
    split
    · rfl
    · rw [mapVals_set]

/-- The values of a map in which one is set. -/
theorem mapSet_values {α : Type} (k : Bytes) (v : α) : ∀ m : GMap α, (m.map (·.2)).Nodup → v ∉ m.map (·.2) →
    ((mapSet m k v).map (·.2)).Nodup ∧ ∀ x ∈ (mapSet m k v).map (·.2), x ∈ m.map (·.2) ∨ x = v
  | [], _, _ => by simp [mapSet]
  | (k', v') :: m, h, hv => by
    rw [List.map_cons, List.nodup_cons] at h
    rw [List.map_cons, List.mem_cons, not_or] at hv
    unfold mapSet
    split
    · refine ⟨?_, ?_⟩
      · rw [List.map_cons, List.nodup_cons]
        exact ⟨hv.2, h.2⟩
      · intro x hx
        rw [List.map_cons, List.mem_cons] at hx ⊢
        rcases hx with rfl | hx
        · exact .inr rfl
        · exact .inl (.inr hx)
    · obtain ⟨h1, h2⟩ := mapSet_values k v m h.2 hv.2
      refine ⟨?_, ?_⟩
      · rw [List.map_cons, List.nodup_cons]
        refine ⟨fun hm => ?_, h1⟩
        rcases h2 _ hm with h' | h'
        · exact h.1 h'
        · exact hv.1 h'.symm
      · intro x hx
        rw [List.map_cons, List.mem_cons] at hx ⊢
        rcases hx with rfl | hx
        · exact .inl (.inl rfl)
        · exact (h2 x hx).imp .inr id

theorem copyInto_values {α : Type} : ∀ (l m : GMap α), (m.map (·.2) ++ l.map (·.2)).Nodup →
    ((l.foldl (fun m p => mapSet m p.1 p.2) m).map (·.2)).Nodup ∧
    ∀ x ∈ (l.foldl (fun m p => mapSet m p.1 p.2) m).map (·.2), x ∈ m.map (·.2) ∨ x ∈ l.map (·.2)
  | [], m, h => by simpa using h
  | p :: l, m, h => by
    rw [List.map_cons, List.nodup_append, List.nodup_cons] at h
    obtain ⟨h1, ⟨h2, h3⟩, h4⟩ := h
    obtain ⟨k1, k2⟩ := mapSet_values p.1 p.2 m h1 (fun hm => h4 _ hm _ (by simp) rfl)
    obtain ⟨k3, k4⟩ := copyInto_values l (mapSet m p.1 p.2) (by
      rw [List.nodup_append]
      refine ⟨k1, h3, fun a ha b hb e => ?_⟩
      subst e
      rcases k2 a ha with h' | rfl
      · exact h4 _ h' _ (by simp [hb]) rfl
      · exact h2 hb)
    refine ⟨k3, fun x hx => ?_⟩
    rcases k4 x hx with h' | h'
    · rcases k2 x h' with h' | rfl
      · exact .inl h'
      · simp
    · exact .inr (by rw [List.map_cons]; exact List.mem_cons_of_mem _ h')

theorem addMissing_values {α : Type} : ∀ (l m : GMap α), (m.map (·.2) ++ l.map (·.2)).Nodup →
    ((addMissing m l).map (·.2)).Nodup ∧ ∀ x ∈ (addMissing m l).map (·.2), x ∈ m.map (·.2) ∨ x ∈ l.map (·.2)
  | [], m, h => by
    show (m.map (·.2)).Nodup ∧ ∀ x ∈ m.map (·.2), _
    simpa using h
  | p :: l, m, h => by
    show ((addMissing (if (m.lookup p.1).isSome then m else mapSet m p.1 p.2) l).map (·.2)).Nodup ∧
      ∀ x ∈ (addMissing (if (m.lookup p.1).isSome then m else mapSet m p.1 p.2) l).map (·.2), _
    rw [List.map_cons, List.nodup_append, List.nodup_cons] at h
    obtain ⟨h1, ⟨h2, h3⟩, h4⟩ := h
    obtain ⟨k1, k2⟩ := mapSet_values p.1 p.2 m h1 (fun hm => h4 _ hm _ (by simp) rfl)
    generalize hm' : (if (m.lookup p.1).isSome then m else mapSet m p.1 p.2) = m'
    have k1' : (m'.map (·.2)).Nodup ∧ ∀ x ∈ m'.map (·.2), x ∈ m.map (·.2) ∨ x = p.2 := by
      subst hm'
      split
      · exact ⟨h1, fun x hx => .inl hx⟩
      · exact ⟨k1, k2⟩
    obtain ⟨k3, k4⟩ := addMissing_values l m' (by
      rw [List.nodup_append]
      refine ⟨k1'.1, h3, fun a ha b hb e => ?_⟩
      subst e
      rcases k1'.2 a ha with h' | rfl
      · exact h4 _ h' _ (by simp [hb]) rfl
      · exact h2 hb)
    refine ⟨k3, fun x hx => ?_⟩
    rcases k4 x hx with h' | h'
    · rcases k1'.2 x h' with h' | rfl
      · exact .inl h'
      · simp
    · exact .inr (by rw [List.map_cons]; exact List.mem_cons_of_mem _ h')

open Classical in
/-- An order of iteration that is given for one map. -/
noncomputable def Order.at {α : Type} (m r : GMap α) (h : r.Perm m) : Order α where
  arrange := fun k => if k = m then r else k
  perm := fun k => by
    by_cases e : k = m
    · subst e; simpa using h
    · simp [e]

theorem Order.at_arrange {α : Type} {m r : GMap α} (h : r.Perm m) : (Order.at m r h).arrange m = r := by simp [Order.at]

/-! ### `buildSchema` -/

/-- The SDL context `q` with pointers stands for `s`. -/
structure AMem.SDL (A : AMem) (q : PSDL) (s : SDLContext) : Prop where
  directives : s.directives = q.directives
  types : s.types = A.vals q.types
  typeExts : s.typeExts = A.lists q.typeExts
  schemaDef : s.schemaDef = q.schemaDef.map A.sget
  schemaExts : s.schemaExts = q.schemaExts.map A.sget
  extending : s.isExtending = q.isExtending

/-- The structs that `q` points to are new: their numbers are `N` and `S` or more, and no two pointers lead to the same one. -/
structure AMem.New (A : AMem) (N S : Nat) (q : PSDL) : Prop where
  types : ∀ x ∈ q.types, A.Live x.2 ∧ N ≤ x.2
  exts : ∀ x ∈ q.typeExts, ∀ a ∈ x.2, A.Live a ∧ N ≤ a
  schemaDef : ∀ b, q.schemaDef = some b → A.SLive b ∧ S ≤ b
  schemaExts : ∀ b ∈ q.schemaExts, A.SLive b ∧ S ≤ b
  typesOnce : (q.types.map (·.2)).Nodup
  extsOnce : (q.typeExts.flatMap (·.2)).Nodup
  apart : ∀ a ∈ q.typeExts.flatMap (·.2), a ∉ q.types.map (·.2)
  schemaOnce : q.schemaExts.Nodup
  schemaApart : ∀ b, q.schemaDef = some b → b ∉ q.schemaExts

theorem allocSDL_is {m : PMem} {A : AMem} (h : Is m A) (s : SDLContext) : ∃ m' A' q, m.allocSDL s = .ret (m', q) ∧ Is m' A' ∧ Grow A A' nowhere nowhere ∧
    A'.SDL q s ∧ A'.New A.heads.length A.sdefs q := by
  obtain ⟨m1, A1, r1, e1, h1, g1, s1, v1, l1, n1⟩ := allocTypeMap_is s.types h
  obtain ⟨m2, A2, r2, e2, h2, g2, s2, v2, l2, n2⟩ := allocExts_is s.typeExts h1
  obtain ⟨m3, A3, r3, e3, h3, g3, hh3, v3, l3⟩ : ∃ m3 A3 r3, allocOpt PMem.allocSchemaDef m2 s.schemaDef = .ret (m3, r3) ∧ Is m3 A3 ∧
      Grow A2 A3 nowhere nowhere ∧ A3.heads = A2.heads ∧ r3.map A3.sget = s.schemaDef ∧ (∀ b, r3 = some b → A3.SLive b ∧ A2.sdefs ≤ b) := by
    cases s.schemaDef with
    | none => exact ⟨m2, A2, none, rfl, h2, .refl _ _ _, rfl, rfl, by intro b hb; cases hb⟩
    | some d =>
      obtain ⟨m3, e3, h3⟩ := allocSchemaDef_is h2 d
      refine ⟨m3, A2.addSchemaDef d, some A2.sdefs, ?_, h3, addSchemaDef_grow _ _ _ _, rfl, ?_, ?_⟩
      · simp only [allocOpt, e3, Out.bind]
      · simp only [Option.map_some, (addSchemaDef_live A2 d).2]
      · intro b hb
        cases hb
        exact ⟨(addSchemaDef_live A2 d).1, Nat.le_refl _⟩
  obtain ⟨m4, A4, r4, e4, h4, g4, hh4, v4, l4, n4⟩ := allocSchemaDefs_is s.schemaExts h3
  have g24 : Grow A2 A4 nowhere nowhere := g3.trans g4
  have g14 : Grow A1 A4 nowhere nowhere := g2.trans g24
  refine ⟨m4, A4, { directives := s.directives, types := r1, typeExts := r2, schemaDef := r3, schemaExts := r4, isExtending := s.isExtending }, ?_, h4,
    g1.trans g14, ⟨rfl, ?_, ?_, ?_, v4.symm, rfl⟩, ⟨?_, ?_, ?_, ?_, n1, n2, ?_, n4, ?_⟩⟩
  · unfold PMem.allocSDL
    simp only [e1, e2, e3, e4, Out.bind]
  · show s.types = A4.vals r1
    rw [← v1]
    exact (vals_congr fun p hp => (g14.types _ (l1 p hp).1 id).2).symm
  · show s.typeExts = A4.lists r2
    rw [← v2]
    unfold AMem.lists
    refine List.map_congr_left fun x hx => ?_
    rw [List.map_congr_left fun e he => (g24.types _ (l2 x hx e he).1 id).2.symm]
  · show s.schemaDef = r3.map A4.sget
    rw [← v3]
    cases hr : r3 with
    | none => rfl
    | some b =>
      simp only [Option.map_some, Option.some.injEq]
      exact (g4.schemas b (l3 b hr).1 id).2.symm
  · exact fun x hx => ⟨(g14.types _ (l1 x hx).1 id).1, (l1 x hx).2⟩
  · exact fun x hx a ha => ⟨(g24.types _ (l2 x hx a ha).1 id).1, Nat.le_trans g1.heads (l2 x hx a ha).2⟩
  · intro b hb
    refine ⟨(g4.schemas b (l3 b hb).1 id).1, ?_⟩
    have := (l3 b hb).2
    omega
  · intro b hb
    refine ⟨(l4 b hb).1, ?_⟩
    have := (l4 b hb).2
    have := g3.sdefs
    omega
  · intro a ha hm
    obtain ⟨x, hx, ha⟩ := List.mem_flatMap.1 ha
    obtain ⟨y, hy, e⟩ := List.mem_map.1 hm
    dsimp only at hx hy
    have k1 := (l2 x hx a ha).2
    have k2 := (l1 y hy).1.head
    omega
  · intro b hb hm
    dsimp only at hb hm
    have k1 := (l4 b hm).2
    have k2 := (l3 b hb).1.lt
    omega

/-- The value of a schema into which root types are entered. -/
theorem setRootTypes_is (A : AMem) : ∀ (l : List OpTypeDef) (p : PSchema), A.schema (l.foldl setRootTypeP p) = l.foldl setRootType (A.schema p) ∧
    (l.foldl setRootTypeP p).types = p.types ∧ (l.foldl setRootTypeP p).directives = p.directives
  | [], p => ⟨rfl, rfl, rfl⟩
  | o :: l, p => by
    obtain ⟨h1, h2, h3⟩ := setRootTypes_is A l (setRootTypeP p o)
    rw [List.foldl_cons, List.foldl_cons, h1, h2, h3]
    unfold setRootTypeP setRootType
    cases o.op <;> exact ⟨rfl, rfl, rfl⟩

theorem foldl_setRootType_congr : ∀ (l : List OpTypeDef) (a : Schema) (d : Option SchemaDef) (T : GMap TypeDef),
    l.foldl setRootType { a with definition := d, types := T } = { l.foldl setRootType a with definition := d, types := T }
  | [], _, _, _ => rfl
  | o :: l, a, d, T => by
    rw [List.foldl_cons, List.foldl_cons, ← foldl_setRootType_congr l]
    congr 1
    unfold setRootType
    cases o.op <;> rfl

/-- `mergeSchemaExtensions`. -/
theorem mergeSchemaExtensions_is {m : PMem} {A : AMem} (h : Is m A) {N S : Nat} {q : PSDL} {s : SDLContext} (hs : A.SDL q s) (hq : A.New N S q) :
    ∃ m' A', m.mergeSchemaExtensions q = .ret m' ∧ Is m' A' ∧ A'.heads = A.heads ∧ A'.sdefs = A.sdefs ∧ Grow A A' nowhere (fun b => S ≤ b) ∧
      (∀ b, q.schemaDef = some b → A'.SLive b) ∧ (mergeSchemaExtensions s).schemaDef = q.schemaDef.map A'.sget ∧
      mergeSchemaExtensions s = { s with schemaDef := (mergeSchemaExtensions s).schemaDef } := by
  have hself : mergeSchemaExtensions s = { s with schemaDef := (mergeSchemaExtensions s).schemaDef } := by
    unfold mergeSchemaExtensions
    split
    · rfl
    · split <;> rfl
  cases hd : q.schemaDef with
  | none =>
    refine ⟨m, A, ?_, h, rfl, rfl, .refl _ _ _, (fun b hb => by cases hb), ?_, hself⟩
    · unfold PMem.mergeSchemaExtensions
      rw [hd]
    · have hn : s.schemaDef = none := by rw [hs.schemaDef, hd]; rfl
      unfold mergeSchemaExtensions
      rw [hn]
      exact hn
  | some b =>
    obtain ⟨m1, A1, e1, i1, a1, s1, g1, l1, v1⟩ := mergeSchemaExts_is b q.schemaExts h (hq.schemaDef b hd).1 (fun e he => (hq.schemaExts e he).1)
      (hq.schemaApart b hd) hq.schemaOnce
    refine ⟨m1, A1, ?_, i1, a1, s1, ?_, ?_, ?_, hself⟩
    · unfold PMem.mergeSchemaExtensions
      rw [hd]
      exact e1
    · refine g1.mono (fun _ h => h) ?_
      rintro a (rfl | ha)
      · exact (hq.schemaDef _ hd).2
      · exact (hq.schemaExts _ ha).2
    · intro b' hb'
      cases hb'
      exact l1
    · have hn : s.schemaDef = some (A.sget b) := by rw [hs.schemaDef, hd]; rfl
      rw [Option.map_some, v1, ← hs.schemaExts]
      unfold mergeSchemaExtensions
      rw [hn]
      dsimp only
      split
      · rename_i h0
        rw [hn, List.eq_nil_of_length_eq_zero h0]
        rfl
      · rfl

/-- `buildSchemaDefinition`. -/
theorem buildSchemaDefinition_is {m : PMem} {A : AMem} (h : Is m A) {p : PSchema} {q : PSDL} {sch : Schema} {s : SDLContext}
    (hl : ∀ b, q.schemaDef = some b → A.SLive b) (hd : s.schemaDef = q.schemaDef.map A.sget)
    (hsch : { A.schema p with definition := none } = { sch with definition := none }) (hp : ∀ x ∈ p.types, A.Live x.2) :
    ∃ m' A' p', m.buildSchemaDefinition p q = .ret (m', p') ∧ Is m' A' ∧ Grow A A' nowhere nowhere ∧ (∀ b, p'.definition = some b → A'.SLive b) ∧
      p'.types = p.types ∧ p'.directives = p.directives ∧ A'.schema p' = buildSchemaDefinition sch s := by
  have key : ∀ (m' : PMem) (A' : AMem) (b : Nat), Is m' A' → Grow A A' nowhere nowhere → A'.SLive b → A'.sget b = s.schemaDef.getD defaultSchemaDef →
      (m'.ops.items b).bind (fun ops => .ret (m', { ops.foldl setRootTypeP p with definition := some b })) =
        .ret (m', { (A'.sget b).ops.foldl setRootTypeP p with definition := some b }) ∧
      A'.schema { (A'.sget b).ops.foldl setRootTypeP p with definition := some b } = buildSchemaDefinition sch s := by
    intro m' A' b i g l v
    obtain ⟨k, hk⟩ := l.ops
    have hk' : (A'.sget b).ops = k := by
      show (A'.ops b).getD [] = k
      rw [hk]
      rfl
    refine ⟨?_, ?_⟩
    · rw [i.ops.items hk, hk']
      rfl
    · show { A'.schema ((A'.sget b).ops.foldl setRootTypeP p) with definition := some (A'.sget b) } = _
      rw [(setRootTypes_is A' _ p).1]
      unfold buildSchemaDefinition
      dsimp only
      rw [v]
      have hv : A'.vals p.types = A.vals p.types := vals_congr fun x hx => (g.types _ (hp x hx) id).2
      have hT : A.vals p.types = sch.types := congrArg Schema.types hsch
      have hA : A'.schema p = { sch with definition := p.definition.map A'.sget, types := sch.types } := by
        have h1 : { A'.schema p with definition := none } = { A.schema p with definition := none } := by
          unfold AMem.schema
          dsimp only
          rw [hv]
        have h2 := h1.trans hsch
        have h3 : A'.schema p = { ({ A'.schema p with definition := none } : Schema) with definition := p.definition.map A'.sget } := rfl
        rw [h3, h2]
      rw [hA, foldl_setRootType_congr]
      have hB : sch = { sch with definition := sch.definition, types := sch.types } := rfl
      conv => rhs; rw [hB, foldl_setRootType_congr]
  cases hq : q.schemaDef with
  | some b =>
    have hv : A.sget b = s.schemaDef.getD defaultSchemaDef := by rw [hd, hq]; rfl
    obtain ⟨k1, k2⟩ := key m A b h (.refl _ _ _) (hl b hq) hv
    refine ⟨m, A, _, ?_, h, .refl _ _ _, ?_, ?_, ?_, k2⟩
    · unfold PMem.buildSchemaDefinition
      rw [hq]
      exact k1
    · intro b' hb'
      cases hb'
      exact hl b hq
    · exact (setRootTypes_is A _ p).2.1
    · exact (setRootTypes_is A _ p).2.2
  | none =>
    obtain ⟨m1, e1, i1⟩ := allocSchemaDef_is h defaultSchemaDef
    obtain ⟨l1, v1⟩ := addSchemaDef_live A defaultSchemaDef
    have hv : (A.addSchemaDef defaultSchemaDef).sget A.sdefs = s.schemaDef.getD defaultSchemaDef := by rw [hd, hq]; exact v1
    obtain ⟨k1, k2⟩ := key m1 _ _ i1 (addSchemaDef_grow _ _ _ _) l1 hv
    refine ⟨m1, _, _, ?_, i1, addSchemaDef_grow _ _ _ _, ?_, ?_, ?_, k2⟩
    · unfold PMem.buildSchemaDefinition
      rw [hq]
      dsimp only
      rw [e1]
      exact k1
    · intro b' hb'
      cases hb'
      exact l1
    · exact (setRootTypes_is A _ p).2.1
    · exact (setRootTypes_is A _ p).2.2

/-- The two global variables are in memory. -/
structure AMem.Globals (A : AMem) : Prop where
  id : A.Live 0 ∧ A.get 0 = idType
  string : A.Live 1 ∧ A.get 1 = stringType

theorem AMem.Globals.specified {A : AMem} (h : A.Globals) : A.vals specifiedTypesP = specifiedTypes := by
  show [(b!"ID", A.get 0), (b!"String", A.get 1)] = _
  rw [h.id.2, h.string.2]
  rfl

theorem AMem.Globals.grow {A A' : AMem} {T U : Nat → Prop} (h : A.Globals) (g : Grow A A' T U) (h0 : ¬ T 0) (h1 : ¬ T 1) : A'.Globals := by
  obtain ⟨a1, a2⟩ := g.types 0 h.id.1 h0
  obtain ⟨b1, b2⟩ := g.types 1 h.string.1 h1
  exact ⟨⟨a1, a2.trans h.id.2⟩, ⟨b1, b2.trans h.string.2⟩⟩

theorem AMem.Globals.inert {A : AMem} (h : A.Globals) {a : Nat} (ha : a < 2) : Inert (A.get a) := by
  have h0 : a = 0 ∨ a = 1 := by omega
  rcases h0 with rfl | rfl
  · rw [h.id.2]; exact ⟨rfl, rfl, rfl, rfl, rfl, rfl⟩
  · rw [h.string.2]; exact ⟨rfl, rfl, rfl, rfl, rfl, rfl⟩

/-- `buildDirectives` and `buildTypes`. -/
theorem buildMaps_is {A : AMem} (hg : A.Globals) {p : PSchema} {q : PSDL} {sch : Schema} {s : SDLContext} (hsch : A.schema p = sch)
    (hq : ∀ x ∈ q.types, A.Live x.2 ∧ 2 ≤ x.2) (hn : (q.types.map (·.2)).Nodup) (hd : s.directives = q.directives) (ht : s.types = A.vals q.types)
    (he : s.isExtending = q.isExtending) (ord : POrders) : ∃ (ordt : Order TypeDef),
      A.schema (buildTypesP ord.types (buildDirectivesP ord.dirs p q) q) = buildTypes ordt (buildDirectives ord.dirs sch s) s ∧
      (buildTypesP ord.types (buildDirectivesP ord.dirs p q) q).definition = p.definition ∧
      ((buildTypesP ord.types (buildDirectivesP ord.dirs p q) q).types.map (·.2)).Nodup ∧
      ∀ x ∈ (buildTypesP ord.types (buildDirectivesP ord.dirs p q) q).types, x.2 < 2 ∨ x.2 ∈ q.types.map (·.2) := by
  subst hsch
  unfold buildTypesP buildDirectivesP buildTypes buildDirectives
  rw [he, hd, ht]
  cases q.isExtending with
  | false =>
    have hperm := ord.types.perm specifiedTypesP
    have hperm' : (A.vals (ord.types.arrange specifiedTypesP)).Perm specifiedTypes := by
      rw [← hg.specified]
      exact hperm.map _
    refine ⟨Order.at specifiedTypes (A.vals (ord.types.arrange specifiedTypesP)) hperm', ?_, rfl, ?_⟩
    · simp only [Bool.not_false, if_true]
      unfold AMem.schema
      dsimp only
      rw [Order.at_arrange]
      congr 1
      exact mapVals_addMissing A.get _ _
    · simp only [Bool.not_false, if_true]
      have hv : ((ord.types.arrange specifiedTypesP).map (·.2)).Perm [0, 1] := hperm.map _
      have hsp : ∀ x ∈ (ord.types.arrange specifiedTypesP).map (·.2), x < 2 := by
        intro x hx
        have := hv.mem_iff.1 hx
        simp at this
        omega
      obtain ⟨k1, k2⟩ := addMissing_values (ord.types.arrange specifiedTypesP) q.types (by
        rw [List.nodup_append]
        refine ⟨hn, hv.nodup_iff.2 (by decide), fun a ha b hb e => ?_⟩
        subst e
        obtain ⟨x, hx, rfl⟩ := List.mem_map.1 ha
        have h1 := (hq x hx).2
        have h2 := hsp _ hb
        omega)
      refine ⟨k1, fun x hx => ?_⟩
      rcases k2 x.2 (List.mem_map.2 ⟨x, hx, rfl⟩) with h' | h'
      · exact .inr h'
      · exact .inl (hsp _ h')
  | true =>
    have hperm := ord.types.perm q.types
    have hperm' : (A.vals (ord.types.arrange q.types)).Perm (A.vals q.types) := hperm.map _
    refine ⟨Order.at (A.vals q.types) (A.vals (ord.types.arrange q.types)) hperm', ?_, rfl, ?_⟩
    · simp only [Bool.not_true, Bool.false_eq_true, if_false]
      unfold AMem.schema
      dsimp only
      rw [Order.at_arrange]
      congr 1
      exact mapVals_copyMap A.get _
    · simp only [Bool.not_true, Bool.false_eq_true, if_false]
      have hv := hperm.map (·.2)
      obtain ⟨k1, k2⟩ := copyInto_values (ord.types.arrange q.types) [] (by simpa using hv.nodup_iff.2 hn)
      refine ⟨k1, fun x hx => ?_⟩
      rcases k2 x.2 (List.mem_map.2 ⟨x, hx, rfl⟩) with h' | h'
      · cases h'
      · exact .inr (hv.mem_iff.1 h')

/-- `buildSchema`: the schema `p` and the SDL context `q` with pointers stand for `sch` and `s`; `N` and `S` structs were there before those of `q`. -/
theorem buildSchema_is {m : PMem} {A : AMem} (h : Is m A) {N S : Nat} {p : PSchema} {q : PSDL} {s : SDLContext} (hg : A.Globals)
    (hp : A.Has p) (hpn : (p.types.map (·.2)).Nodup) (hpN : ∀ x ∈ p.types, x.2 < N) (hN : 2 ≤ N) (hs : A.SDL q s) (hq : A.New N S q) (ord : POrders) :
    ∃ (ord' : BuildOrders) (m' : PMem) (A' : AMem) (p' : PSchema), ord'.dirs = ord.dirs ∧ m.buildSchema ord p q = .ret (m', p') ∧
      Is m' A' ∧ A'.Has p' ∧
      A'.schema p' = buildSchemaOf ord' (A.schema p) s ∧ (p'.types.map (·.2)).Nodup ∧ (∀ x ∈ p'.types, x.2 < 2 ∨ N ≤ x.2) ∧
      Grow A A' (fun a => N ≤ a ∨ (a ∈ p.types.map (·.2) ∧ 2 ≤ a)) (fun b => S ≤ b) := by
  obtain ⟨m1, A1, e1, i1, a1, s1, g1, l1, v1, w1⟩ := mergeSchemaExtensions_is h hs hq
  have hA1 : ∀ a, A.Live a → A1.Live a ∧ A1.get a = A.get a := fun a ha => g1.types a ha id
  have hperm := ord.exts.perm q.typeExts
  have hmem : ∀ {x}, x ∈ ord.exts.arrange q.typeExts → x ∈ q.typeExts := fun hx => hperm.mem_iff.1 hx
  have hflat : ((ord.exts.arrange q.typeExts).flatMap (·.2)).Perm (q.typeExts.flatMap (·.2)) := hperm.flatMap_right _
  have hlist : A1.lists q.typeExts = s.typeExts := by
    rw [hs.typeExts]
    unfold AMem.lists
    refine List.map_congr_left fun x hx => ?_
    rw [List.map_congr_left fun e he => (hA1 e (hq.exts x hx e he).1).2]
  have hvp : (A.schema p).types = A1.vals p.types := (vals_congr fun x hx => (hA1 _ (hp.types x hx)).2).symm
  have hvq : (mergeSchemaExtensions s).types = A1.vals q.types := by
    rw [w1]
    show s.types = _
    rw [hs.types]
    exact (vals_congr fun x hx => (hA1 _ (hq.types x hx).1).2).symm
  have hold : ∀ a ∈ p.types.map (·.2), a < N := by
    intro a ha
    obtain ⟨x, hx, rfl⟩ := List.mem_map.1 ha
    exact hpN x hx
  have hnew : ∀ a ∈ q.types.map (·.2), N ≤ a := by
    intro a ha
    obtain ⟨x, hx, rfl⟩ := List.mem_map.1 ha
    exact (hq.types x hx).2
  obtain ⟨m2, A2, T, T', e2, i2, a2, s2, lp2, lq2, v2, hT, hT', g2⟩ := mergeTypeExts_is p q (ord.exts.arrange q.typeExts) (sch := A.schema p)
    (s := mergeSchemaExtensions s) i1 (fun x hx => (hA1 _ (hp.types x hx)).1) (fun x hx => (hA1 _ (hq.types x hx).1).1)
    (by
      rw [List.nodup_append]
      refine ⟨hpn, hq.typesOnce, fun a ha b hb e => ?_⟩
      have h1 := hold a ha
      have h2 := hnew b hb
      omega)
    (fun x hx e he => (hA1 _ (hq.exts x (hmem hx) e he).1).1) (hflat.nodup_iff.2 hq.extsOnce)
    (by
      intro x hx e he hm
      rcases List.mem_append.1 hm with hm | hm
      · have h1 := hold e hm
        have h2 := (hq.exts x (hmem hx) e he).2
        omega
      · exact hq.apart e (List.mem_flatMap.2 ⟨x, hmem hx, he⟩) hm)
    hvp hvq (by rw [w1]; exact hs.extending)
  have hsd : ∀ b, q.schemaDef = some b → A2.SLive b ∧ A2.sget b = A1.sget b := fun b hb => g2.schemas b (l1 b hb) id
  obtain ⟨m3, A3, p3, e3, i3, g3, l3, t3, d3, v3⟩ := buildSchemaDefinition_is (p := p) (q := q) (sch := { A.schema p with types := T })
    (s := { mergeSchemaExtensions s with types := T' }) i2 (fun b hb => (hsd b hb).1)
    (by
      show (mergeSchemaExtensions s).schemaDef = _
      rw [v1]
      cases hb : q.schemaDef with
      | none => rfl
      | some b => rw [Option.map_some, Option.map_some, (hsd b hb).2])
    (by
      unfold AMem.schema
      dsimp only
      rw [hT])
    lp2
  have hG1 : A1.Globals := hg.grow g1 id id
  have hG2 : A2.Globals := by
    refine hG1.grow g2 ?_ ?_
    · rintro (h' | ⟨-, h'⟩)
      · obtain ⟨x, hx, he⟩ := List.mem_flatMap.1 (hflat.mem_iff.1 h')
        have := (hq.exts x hx _ he).2
        omega
      · exact h' (hG1.inert (by omega))
    · rintro (h' | ⟨-, h'⟩)
      · obtain ⟨x, hx, he⟩ := List.mem_flatMap.1 (hflat.mem_iff.1 h')
        have := (hq.exts x hx _ he).2
        omega
      · exact h' (hG1.inert (by omega))
  have hG3 : A3.Globals := hG2.grow g3 id id
  obtain ⟨ordt, v4, d4, n4, t4⟩ := buildMaps_is (p := p3) (q := q) (s := { mergeSchemaExtensions s with types := T' }) hG3 v3
    (fun x hx => ⟨(g3.types _ (lq2 x hx) id).1, Nat.le_trans hN (hq.types x hx).2⟩) hq.typesOnce (by rw [w1]; exact hs.directives)
    (by
      show T' = _
      rw [hT']
      exact (vals_congr fun x hx => (g3.types _ (lq2 x hx) id).2).symm)
    (by rw [w1]; exact hs.extending) ord
  have hpl : (A1.lists (ord.exts.arrange q.typeExts)).Perm s.typeExts := by
    rw [← hlist]
    exact hperm.map _
  refine ⟨⟨Order.at s.typeExts _ hpl, ord.dirs, ordt⟩, m3, A3, _, rfl, ?_, i3, ⟨?_, ?_⟩, ?_, n4, ?_, ?_⟩
  · unfold PMem.buildSchema
    rw [e1, Out.bind_ret, e2, Out.bind_ret, e3, Out.bind_ret]
  · intro x hx
    rcases t4 x hx with h' | h'
    · have h0 : x.2 = 0 ∨ x.2 = 1 := by omega
      rcases h0 with h0 | h0 <;> rw [h0]
      · exact hG3.id.1
      · exact hG3.string.1
    · obtain ⟨y, hy, e⟩ := List.mem_map.1 h'
      rw [← e]
      exact (g3.types _ (lq2 y hy) id).1
  · intro b hb
    exact l3 b (d4 ▸ hb)
  · rw [v4]
    unfold buildSchemaOf mergeTypeExtensions
    have h5 : (Order.at s.typeExts _ hpl).arrange (mergeSchemaExtensions s).typeExts = A1.lists (ord.exts.arrange q.typeExts) := by
      have h6 : (mergeSchemaExtensions s).typeExts = s.typeExts := by rw [w1]
      rw [h6, Order.at_arrange]
    dsimp only
    rw [h5, v2]
  · intro x hx
    exact (t4 x hx).imp id fun h' => hnew _ h'
  · refine ((g1.mono (fun a h => h.elim) fun _ h => h).trans (Grow.mono (U := nowhere) ?_ (fun _ h => h) fun a h => h.elim)).trans
      (g3.mono (fun a h => h.elim) fun a h => h.elim)
    refine ⟨g2.heads, g2.sdefs, fun a ha hn => g2.types a ha ?_, g2.schemas⟩
    rintro (h' | ⟨h', h''⟩)
    · obtain ⟨x, hx, he⟩ := List.mem_flatMap.1 (hflat.mem_iff.1 h')
      exact hn (.inl (hq.exts x hx _ he).2)
    · rcases List.mem_append.1 h' with h' | h'
      · refine hn (.inr ⟨h', ?_⟩)
        exact Nat.le_of_not_lt fun hlt => h'' (hG1.inert hlt)
      · exact hn (.inl (hnew a h'))

end GQL
