/-
What `BuildSchema` computes, whatever the orders of iteration.
-/
import Verif.Proofs.PrepareErrors
import Verif.Model.Schema

namespace GQL

/-! ### Maps -/

section
variable {α : Type}

theorem mem_keys_mapSet (m : GMap α) (k : Bytes) (v : α) (n : Bytes) : n ∈ (mapSet m k v).map (·.1) ↔ n ∈ m.map (·.1) ∨ n = k := by
  rw [keys_lookup, lookup_mapSet, keys_lookup]
  by_cases h : n = k
  · simp [h]
  · have : (n == k) = false := by simpa using h
    simp [this, h]

theorem nodup_mapSet (k : Bytes) (v : α) : ∀ (m : GMap α), (m.map (·.1)).Nodup → ((mapSet m k v).map (·.1)).Nodup
  | [], _ => by simp [mapSet]
  | (k', v') :: m, h => by
    rw [List.map_cons, List.nodup_cons] at h
    unfold mapSet
    split
    · rw [List.map_cons, List.nodup_cons]; exact h
    · rename_i hk
      rw [List.map_cons, List.nodup_cons]
      refine ⟨fun hm => ?_, nodup_mapSet k v m h.2⟩
      rcases (mem_keys_mapSet m k v k').1 hm with h1 | h1
      · exact h.1 h1
      · exact hk (by simp [h1])

theorem lookup_cons (p : Bytes × α) (m : GMap α) (n : Bytes) : List.lookup n (p :: m) = if n == p.1 then some p.2 else List.lookup n m := by
  obtain ⟨a, b⟩ := p
  rw [List.lookup_cons]
  dsimp only
  cases n == a <;> rfl

theorem lookup_perm {m m' : GMap α} (h : m.Perm m') (hn : (m.map (·.1)).Nodup) (n : Bytes) : m.lookup n = m'.lookup n := by
  induction h with
  | nil => rfl
  | cons p _ ih =>
    rw [List.map_cons, List.nodup_cons] at hn
    rw [lookup_cons, lookup_cons, ih hn.2]
  | swap p q l =>
    rw [List.map_cons, List.map_cons, List.nodup_cons] at hn
    simp only [lookup_cons]
    by_cases h1 : n = p.1
    · have : ¬ n = q.1 := fun e => hn.1 (by rw [← e, h1]; simp)
      simp [h1, show ¬ p.1 = q.1 from h1 ▸ this]
    · simp [h1]
  | trans h1 _ ih1 ih2 => exact (ih1 hn).trans (ih2 ((h1.map _).nodup_iff.1 hn))

theorem addMissing_lookup : ∀ (b m : GMap α) (n : Bytes), (addMissing m b).lookup n = (m.lookup n).or (b.lookup n)
  | [], m, n => by simp [addMissing]
  | p :: b, m, n => by
    have ih := addMissing_lookup b (if (m.lookup p.1).isSome then m else mapSet m p.1 p.2) n
    refine Eq.trans ih ?_
    rw [lookup_cons]
    by_cases h : (m.lookup p.1).isSome
    · rw [if_pos h]
      by_cases hn : n = p.1
      · subst hn
        obtain ⟨x, hx⟩ := Option.isSome_iff_exists.1 h
        simp [hx]
      · simp [hn]
    · rw [if_neg h, lookup_mapSet]
      by_cases hn : n = p.1
      · subst hn
        rw [Option.not_isSome_iff_eq_none.1 h]; simp
      · have : (n == p.1) = false := by simpa using hn
        simp [this]

theorem addMissing_nodup : ∀ (b m : GMap α), (m.map (·.1)).Nodup → ((addMissing m b).map (·.1)).Nodup
  | [], _, h => h
  | p :: b, m, h => by
    refine addMissing_nodup b (if (m.lookup p.1).isSome then m else mapSet m p.1 p.2) ?_
    split
    · exact h
    · exact nodup_mapSet _ _ _ h

theorem copyInto_lookup : ∀ (l m : GMap α) (n : Bytes), (l.map (·.1)).Nodup →
    (l.foldl (fun m p => mapSet m p.1 p.2) m).lookup n = (l.lookup n).or (m.lookup n)
  | [], m, n, _ => by simp
  | p :: l, m, n, h => by
    rw [List.map_cons, List.nodup_cons] at h
    rw [List.foldl_cons, copyInto_lookup l _ n h.2, lookup_mapSet, lookup_cons]
    by_cases hn : n = p.1
    · subst hn
      have : l.lookup p.1 = none := Option.not_isSome_iff_eq_none.1 fun e => h.1 ((keys_lookup _ _).2 e)
      simp [this]
    · have : (n == p.1) = false := by simpa using hn
      simp [this]

theorem copyMap_lookup {l : GMap α} (h : (l.map (·.1)).Nodup) (n : Bytes) : (copyMap l).lookup n = l.lookup n :=
  (copyInto_lookup l [] n h).trans (by simp)

theorem copyInto_nodup : ∀ (l m : GMap α), (m.map (·.1)).Nodup → ((l.foldl (fun m p => mapSet m p.1 p.2) m).map (·.1)).Nodup
  | [], _, h => h
  | p :: l, m, h => copyInto_nodup l _ (nodup_mapSet _ _ _ h)

theorem copyMap_nodup (l : GMap α) : ((copyMap l).map (·.1)).Nodup := copyInto_nodup l [] List.nodup_nil

end

theorem Order.nodup {α : Type} (o : Order α) {m : GMap α} (h : (m.map (·.1)).Nodup) : ((o.arrange m).map (·.1)).Nodup :=
  ((o.perm m).map _).nodup_iff.2 h

theorem Order.lookup {α : Type} (o : Order α) {m : GMap α} (h : (m.map (·.1)).Nodup) (n : Bytes) : (o.arrange m).lookup n = m.lookup n :=
  lookup_perm (o.perm m) (o.nodup h) n

theorem lookup_map_set {α : Type} (m : GMap α) (k n : Bytes) (v : α) :
    (mapSet m k v).lookup n = if n = k then some v else m.lookup n := by
  rw [lookup_mapSet]
  by_cases h : n = k <;> simp [h]

/-! ### Extensions -/

/-- A definition with all extensions of a list merged into it. -/
def withExts (exts : Option (List TypeDef)) (t : TypeDef) : TypeDef := (exts.getD []).foldl mergeTypeExt t

/-- The type that the merging of extensions finds. -/
def extTarget (sch : Schema) (s : SDLContext) (n : Bytes) : Option TypeDef :=
  match (if s.isExtending then sch.types.lookup n else none) with
  | some t => some t
  | none => s.types.lookup n

theorem mergeTypeExts_spec : ∀ (l : List (Bytes × List TypeDef)) (sch : Schema) (s : SDLContext), (l.map (·.1)).Nodup →
    (∀ p ∈ l, (extTarget sch s p.1).isSome) → ∃ T T' : GMap TypeDef,
      mergeTypeExts l (sch, s) = ({ sch with types := T }, { s with types := T' }) ∧
      ((s.types.map (·.1)).Nodup → (T'.map (·.1)).Nodup) ∧
      ((sch.types.map (·.1)).Nodup → (T.map (·.1)).Nodup) ∧
      (∀ n, T'.lookup n = if s.isExtending ∧ (sch.types.lookup n).isSome then s.types.lookup n else (s.types.lookup n).map (withExts (l.lookup n))) ∧
      (∀ n, T.lookup n = if s.isExtending then (sch.types.lookup n).map (withExts (l.lookup n)) else sch.types.lookup n)
  | [], sch, s, _, _ => ⟨sch.types, s.types, rfl, fun h => h, fun h => h, fun n => by
      have : withExts ((([] : List (Bytes × List TypeDef))).lookup n) = id := by funext t; rfl
      rw [this]; simp, fun n => by
      have : withExts ((([] : List (Bytes × List TypeDef))).lookup n) = id := by funext t; rfl
      rw [this]; simp⟩
  | (k, exts) :: l, sch, s, hn, hk => by
    rw [List.map_cons, List.nodup_cons] at hn
    have hkl : l.lookup k = none := Option.not_isSome_iff_eq_none.1 fun e => hn.1 ((keys_lookup _ _).2 e)
    have hid : withExts none = id := by funext t; rfl
    have hhd := hk (k, exts) (by simp)
    unfold extTarget at hhd
    rw [mergeTypeExts]
    cases h1 : (if s.isExtending then sch.types.lookup k else none) with
    | some t =>
      have he : s.isExtending = true := by
        cases h : s.isExtending with
        | true => rfl
        | false => rw [h] at h1; simp at h1
      rw [if_pos he] at h1
      obtain ⟨T, T', e1, e2, e3, e4, e5⟩ := mergeTypeExts_spec l { sch with types := mapSet sch.types k (exts.foldl mergeTypeExt t) } s hn.2 (by
        intro p hp
        have := hk p (by simp [hp])
        unfold extTarget at this ⊢
        rw [if_pos he] at this ⊢
        dsimp only
        rw [lookup_map_set]
        by_cases hpk : p.1 = k
        · simp [hpk]
        · rw [if_neg hpk]; exact this)
      refine ⟨T, T', e1, e2, fun h => e3 (nodup_mapSet _ _ _ h), fun n => ?_, fun n => ?_⟩
      · rw [e4]
        dsimp only
        rw [lookup_map_set, lookup_cons]
        by_cases hnk : n = k
        · subst hnk; simp [he, h1]
        · have hb : (n == k) = false := by simpa using hnk
          simp only [hnk, hb, Bool.false_eq_true, ↓reduceIte]
      · rw [e5]
        dsimp only
        rw [lookup_map_set, lookup_cons]
        by_cases hnk : n = k
        · subst hnk; simp [he, h1, hkl, hid]; rfl
        · simp [hnk]
    | none =>
      dsimp only
      rw [h1] at hhd
      obtain ⟨t, ht⟩ := Option.isSome_iff_exists.1 hhd
      dsimp only at ht
      rw [ht]
      have hnot : ¬ (s.isExtending = true ∧ (sch.types.lookup k).isSome = true) := by
        rintro ⟨a, b⟩
        rw [if_pos a] at h1
        rw [h1] at b; cases b
      obtain ⟨T, T', e1, e2, e3, e4, e5⟩ := mergeTypeExts_spec l sch { s with types := mapSet s.types k (exts.foldl mergeTypeExt t) } hn.2 (by
        intro p hp
        have := hk p (by simp [hp])
        unfold extTarget at this ⊢
        dsimp only
        split
        · rfl
        · rename_i h2
          rw [h2] at this
          rw [lookup_map_set]
          split
          · rfl
          · exact this)
      refine ⟨T, T', e1, fun h => e2 (nodup_mapSet _ _ _ h), e3, fun n => ?_, fun n => ?_⟩
      · rw [e4]
        dsimp only
        rw [lookup_map_set, lookup_cons]
        by_cases hnk : n = k
        · subst hnk; rw [if_neg hnot, if_neg hnot]; simp [ht, hkl, hid]; rfl
        · simp [hnk]
      · rw [e5]
        dsimp only
        rw [lookup_cons]
        by_cases hnk : n = k
        · subst hnk
          cases he : s.isExtending with
          | false => simp
          | true =>
            rw [if_pos he] at h1
            simp [h1]
        · simp [hnk]

/-! ### The whole -/

/-- The maps that `PrepareContextSDL` fills have one entry for each name. -/
theorem prepare_nodup : ∀ (ds : List (Definition × Nat)) (p : Ctx × SDLContext), (p.2.types.map (·.1)).Nodup → (p.2.directives.map (·.1)).Nodup →
    (p.2.typeExts.map (·.1)).Nodup → ((prepare ds p).2.types.map (·.1)).Nodup ∧ ((prepare ds p).2.directives.map (·.1)).Nodup ∧
      ((prepare ds p).2.typeExts.map (·.1)).Nodup
  | [], _, h1, h2, h3 => ⟨h1, h2, h3⟩
  | ((⟨loc, b⟩, i) :: ds), p, h1, h2, h3 => by
    have key : ((prepareStep p.1 p.2 (⟨loc, b⟩, i)).2.types.map (·.1)).Nodup ∧ ((prepareStep p.1 p.2 (⟨loc, b⟩, i)).2.directives.map (·.1)).Nodup ∧
        ((prepareStep p.1 p.2 (⟨loc, b⟩, i)).2.typeExts.map (·.1)).Nodup := by
      cases b <;> simp only [prepareStep] <;> (try exact ⟨h1, h2, h3⟩) <;> (try exact ⟨h1, h2, nodup_mapSet _ _ _ h3⟩) <;> split <;>
        (try exact ⟨h1, h2, h3⟩) <;> split <;> first
          | exact ⟨h1, h2, h3⟩
          | exact ⟨nodup_mapSet _ _ _ h1, h2, h3⟩
          | exact ⟨h1, nodup_mapSet _ _ _ h2, h3⟩
    exact prepare_nodup ds (prepareStep p.1 p.2 (⟨loc, b⟩, i)) key.1 key.2.1 key.2.2

theorem sdlOf_nodup (doc : Document) (schema : Option Schema) : ((sdlOf doc schema).types.map (·.1)).Nodup ∧
    ((sdlOf doc schema).directives.map (·.1)).Nodup ∧ ((sdlOf doc schema).typeExts.map (·.1)).Nodup :=
  prepare_nodup _ _ List.nodup_nil List.nodup_nil List.nodup_nil

theorem specifiedTypes_nodup : (specifiedTypes.map (·.1)).Nodup := by decide
theorem specifiedDirectives_nodup : (specifiedDirectives.map (·.1)).Nodup := by decide

theorem mergeSchemaExtensions_eq (s : SDLContext) : mergeSchemaExtensions s = { s with schemaDef := s.schemaDef.map fun d => mergeSchemaExts d s.schemaExts } := by
  unfold mergeSchemaExtensions
  cases h : s.schemaDef with
  | none => simp only [Option.map_none]; rw [← h]
  | some d =>
    dsimp only
    split
    · rename_i hl
      have e : mergeSchemaExts d s.schemaExts = d := by rw [List.eq_nil_of_length_eq_zero hl]; rfl
      rw [Option.map_some, e, ← h]
    · rfl

theorem rootFold_keeps : ∀ (l : List OpTypeDef) (sch : Schema), (l.foldl setRootType sch).types = sch.types ∧
    (l.foldl setRootType sch).directives = sch.directives
  | [], _ => ⟨rfl, rfl⟩
  | o :: l, sch => by
    obtain ⟨h1, h2⟩ := rootFold_keeps l (setRootType sch o)
    rw [List.foldl_cons, h1, h2]
    unfold setRootType
    split <;> exact ⟨rfl, rfl⟩

/-- The schema in terms of the SDL context, when all extended types are known. -/
theorem buildSchemaOf_spec (ord : BuildOrders) (sch : Schema) (s : SDLContext) (h1 : (s.types.map (·.1)).Nodup) (h2 : (s.directives.map (·.1)).Nodup)
    (h3 : (s.typeExts.map (·.1)).Nodup) (hk : ∀ p ∈ s.typeExts, (extTarget sch s p.1).isSome)
    (hd : s.isExtending → ∀ n, (sch.types.lookup n).isSome → s.types.lookup n = none) :
    let b := buildSchemaOf ord sch s
    let d := (s.schemaDef.map fun d => mergeSchemaExts d s.schemaExts).getD defaultSchemaDef
    (b.types.map (·.1)).Nodup ∧ (b.directives.map (·.1)).Nodup ∧
    (∀ n, b.types.lookup n = ((s.types.lookup n).map (withExts (s.typeExts.lookup n))).or (if s.isExtending then none else specifiedTypes.lookup n)) ∧
    (∀ n, b.directives.lookup n = (s.directives.lookup n).or (if s.isExtending then none else specifiedDirectives.lookup n)) ∧
    b.definition = some d ∧ b.queryType = (d.ops.foldl setRootType sch).queryType ∧ b.mutationType = (d.ops.foldl setRootType sch).mutationType ∧
    b.subscriptionType = (d.ops.foldl setRootType sch).subscriptionType := by
  intro b d
  obtain ⟨T, T', e1, e2, e3, e4, e5⟩ := mergeTypeExts_spec (ord.exts.arrange s.typeExts) sch
    { s with schemaDef := s.schemaDef.map fun d => mergeSchemaExts d s.schemaExts } (ord.exts.nodup h3)
    (fun p hp => hk p ((ord.exts.perm _).mem_iff.1 hp))
  have hb : b = buildTypes ord.types (buildDirectives ord.dirs (buildSchemaDefinition { sch with types := T }
      { s with schemaDef := s.schemaDef.map fun d => mergeSchemaExts d s.schemaExts, types := T' })
      { s with schemaDef := s.schemaDef.map fun d => mergeSchemaExts d s.schemaExts, types := T' })
      { s with schemaDef := s.schemaDef.map fun d => mergeSchemaExts d s.schemaExts, types := T' } := by
    show buildSchemaOf ord sch s = _
    unfold buildSchemaOf mergeTypeExtensions
    rw [mergeSchemaExtensions_eq]
    dsimp only
    rw [e1]
  have hroot : ∀ (l : List OpTypeDef) (sch : Schema) (T : GMap TypeDef),
      (l.foldl setRootType { sch with types := T }) = { l.foldl setRootType sch with types := T } := by
    intro l
    induction l with
    | nil => intro sch T; rfl
    | cons o l ih =>
      intro sch T
      rw [List.foldl_cons, List.foldl_cons]
      have : setRootType { sch with types := T } o = { setRootType sch o with types := T } := by
        unfold setRootType; cases o.op <;> rfl
      rw [this, ih]
  have e4' : ∀ n, T'.lookup n = (s.types.lookup n).map (withExts (s.typeExts.lookup n)) := by
    intro n
    rw [e4, ord.exts.lookup h3]
    dsimp only
    split
    · rename_i h
      rw [hd h.1 n h.2]; rfl
    · rfl
  rw [hb]
  unfold buildTypes buildDirectives buildSchemaDefinition
  cases he : s.isExtending
  · simp only [Bool.not_false, ↓reduceIte]
    rw [hroot]
    refine ⟨addMissing_nodup _ _ (e2 h1), addMissing_nodup _ _ h2, fun n => ?_, fun n => ?_, rfl, rfl, rfl, rfl⟩
    · rw [addMissing_lookup, e4', ord.types.lookup specifiedTypes_nodup]; simp
    · rw [addMissing_lookup, ord.dirs.lookup specifiedDirectives_nodup]; simp
  · simp only [Bool.not_true, Bool.false_eq_true, ↓reduceIte]
    rw [hroot]
    refine ⟨copyMap_nodup _, copyMap_nodup _, fun n => ?_, fun n => ?_, rfl, rfl, rfl, rfl⟩
    · rw [copyMap_lookup (ord.types.nodup (e2 h1)), ord.types.lookup (e2 h1), e4']; simp
    · rw [copyMap_lookup (ord.dirs.nodup h2), ord.dirs.lookup h2]; simp

end GQL
