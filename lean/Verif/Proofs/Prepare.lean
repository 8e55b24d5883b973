/-
What `PrepareContextSDL` computes.
-/
import Verif.Proofs.Uses
import Verif.Spec.Definitions

namespace GQL

theorem repeats_congr : ∀ (ns k k' : List Bytes), (∀ n, n ∈ k ↔ n ∈ k') → repeats k ns = repeats k' ns
  | [], _, _, _ => rfl
  | n :: ns, k, k', h => by
    have e : k.contains n = k'.contains n := by
      rw [Bool.eq_iff_iff, List.contains_iff_mem, List.contains_iff_mem, h]
    simp only [repeats, e]
    split
    · rw [repeats_congr ns k k' h]
    · exact repeats_congr ns _ _ fun m => by simp [h]

theorem repeats_count (m : Bytes) : ∀ (ns k : List Bytes), (repeats k ns).count m = if m ∈ k then ns.count m else ns.count m - 1
  | [], k => by simp [repeats]
  | n :: ns, k => by
    simp only [repeats]
    by_cases hk : n ∈ k
    · rw [if_pos (List.contains_iff_mem.2 hk), List.count_cons, repeats_count m ns k, List.count_cons]
      by_cases hm : n = m
      · subst hm; simp [hk]
      · simp [hm]
    · rw [if_neg (fun h => hk (List.contains_iff_mem.1 h)), repeats_count m ns (n :: k), List.count_cons]
      by_cases hm : n = m
      · subst hm; simp [hk]
      · have : ¬ m = n := fun e => hm e.symm
        simp [hm, this]

theorem repeats_isRepeats (l : List Bytes) : Spec.IsRepeats l (repeats [] l) := fun n => by simp [repeats_count]

theorem keys_lookup {β : Type} (m : GMap β) (k : Bytes) : k ∈ m.map (·.1) ↔ (m.lookup k).isSome = true := by
  induction m with
  | nil => simp
  | cons p m ih =>
    obtain ⟨a, b⟩ := p
    simp only [List.map_cons, List.mem_cons, List.lookup, ih]
    by_cases h : k = a
    · subst h; simp
    · have : (k == a) = false := by simpa using h
      simp [this, h]

section
variable (p : Ctx × SDLContext)

/-- The loop of `PrepareContextSDL`. -/
def prepare (ds : List (Definition × Nat)) (p : Ctx × SDLContext) : Ctx × SDLContext :=
  ds.foldl (fun (p : Ctx × SDLContext) d => prepareStep p.1 p.2 d) p

/-- What the loop keeps. -/
theorem prepareStep_keeps (d : Definition × Nat) : (prepareStep p.1 p.2 d).1.schema = p.1.schema ∧ (prepareStep p.1 p.2 d).1.doc = p.1.doc ∧
    (prepareStep p.1 p.2 d).2.isExtending = p.2.isExtending ∧ (prepareStep p.1 p.2 d).1.usages = p.1.usages ∧
    (prepareStep p.1 p.2 d).2.defined = p.2.defined ∧ (prepareStep p.1 p.2 d).1.cur = p.1.cur := by
  have e : ∀ s s' : SDLContext, s.queryDefined = s'.queryDefined → s.mutationDefined = s'.mutationDefined →
      s.subscriptionDefined = s'.subscriptionDefined → s.defined = s'.defined := by
    intro s s' h1 h2 h3; funext k; cases k <;> assumption
  obtain ⟨⟨loc, b⟩, i⟩ := d
  cases b <;> (unfold prepareStep; dsimp only) <;> (try exact ⟨rfl, rfl, rfl, rfl, e _ _ rfl rfl rfl, rfl⟩) <;> split <;>
    (try exact ⟨rfl, rfl, rfl, rfl, e _ _ rfl rfl rfl, rfl⟩) <;> split <;> exact ⟨rfl, rfl, rfl, rfl, e _ _ rfl rfl rfl, rfl⟩

/-- The type definitions collected: the first one with the name, unless the schema has it. -/
def pickType (sch : Schema) (ds : List Definition) (n : Bytes) : Option TypeDef :=
  if (sch.types.lookup n).isSome then none else (Spec.typeDefs ds).find? (fun t => t.name == n)

def pickDir (sch : Schema) (ds : List Definition) (n : Bytes) : Option DirDef :=
  if (sch.directives.lookup n).isSome then none else (Spec.directiveDefs ds).find? (fun t => t.name == n)

theorem prepare_keeps : ∀ (ds : List (Definition × Nat)) (p : Ctx × SDLContext),
    (prepare ds p).1.schema = p.1.schema ∧ (prepare ds p).1.doc = p.1.doc ∧
    (prepare ds p).2.isExtending = p.2.isExtending ∧ (prepare ds p).1.usages = p.1.usages ∧ (prepare ds p).2.defined = p.2.defined
  | [], _ => ⟨rfl, rfl, rfl, rfl, rfl⟩
  | d :: ds, p => by
    obtain ⟨a1, a2, a3, a4, a5, _⟩ := prepareStep_keeps p d
    obtain ⟨b1, b2, b3, b4, b5⟩ := prepare_keeps ds (prepareStep p.1 p.2 d)
    exact ⟨b1.trans a1, b2.trans a2, b3.trans a3, b4.trans a4, b5.trans a5⟩

theorem prepare_types : ∀ (ds : List (Definition × Nat)) (p : Ctx × SDLContext) (n : Bytes),
    (prepare ds p).2.types.lookup n = (p.2.types.lookup n).or (pickType p.1.schema (ds.map (·.1)) n)
  | [], p, n => by simp [prepare, pickType, Spec.typeDefs]
  | ((⟨loc, b⟩, i) :: ds), p, n => by
    have ih := prepare_types ds (prepareStep p.1 p.2 (⟨loc, b⟩, i)) n
    have hs := (prepareStep_keeps p (⟨loc, b⟩, i)).1
    refine Eq.trans ih ?_
    rw [hs]
    have triv : ∀ (hb : ∀ t, b ≠ .type t) (ht : (prepareStep p.1 p.2 (⟨loc, b⟩, i)).2.types = p.2.types),
        ((prepareStep p.1 p.2 (⟨loc, b⟩, i)).2.types.lookup n).or (pickType p.1.schema (ds.map (·.1)) n) =
          (p.2.types.lookup n).or (pickType p.1.schema (((⟨loc, b⟩, i) :: ds).map (·.1)) n) := by
      intro hb ht
      rw [ht]
      congr 1
      unfold pickType
      congr 1
      unfold Spec.typeDefs
      rw [List.map_cons, List.filterMap_cons]
      cases b <;> first | rfl | exact absurd rfl (hb _)
    cases b with
    | type t =>
      simp only [prepareStep]
      by_cases h1 : (p.1.schema.types.lookup t.name).isSome
      · rw [if_pos h1]
        dsimp only
        congr 1
        unfold pickType
        split
        · rfl
        · rename_i h2
          have : ¬ t.name = n := fun e => h2 (e ▸ h1)
          simp [Spec.typeDefs, this]
      · rw [if_neg h1]
        by_cases h2 : (p.2.types.lookup t.name).isSome
        · rw [if_pos h2]
          dsimp only
          by_cases hn : t.name = n
          · subst hn
            obtain ⟨x, hx⟩ := Option.isSome_iff_exists.1 h2
            simp [hx]
          · congr 1
            simp [pickType, Spec.typeDefs, hn]
        · rw [if_neg h2]
          dsimp only
          rw [lookup_mapSet]
          by_cases hn : t.name = n
          · subst hn
            have e2 : p.2.types.lookup t.name = none := Option.not_isSome_iff_eq_none.1 h2
            simp only [Bool.not_eq_true] at h1
            simp [e2, pickType, h1, Spec.typeDefs]
          · have : (n == t.name) = false := by simpa using fun e => hn (Eq.symm e)
            simp only [this, Bool.false_eq_true, ↓reduceIte]
            congr 1
            simp [pickType, Spec.typeDefs, hn]
    | directive d =>
      refine triv (by simp) ?_
      simp only [prepareStep]
      split <;> (try rfl) <;> split <;> rfl
    | schema d =>
      refine triv (by simp) ?_
      simp only [prepareStep]
      split <;> (try rfl) <;> split <;> rfl
    | _ => exact triv (by simp) rfl

theorem prepare_dirs : ∀ (ds : List (Definition × Nat)) (p : Ctx × SDLContext) (n : Bytes),
    (prepare ds p).2.directives.lookup n = (p.2.directives.lookup n).or (pickDir p.1.schema (ds.map (·.1)) n)
  | [], p, n => by simp [prepare, pickDir, Spec.directiveDefs]
  | ((⟨loc, b⟩, i) :: ds), p, n => by
    have ih := prepare_dirs ds (prepareStep p.1 p.2 (⟨loc, b⟩, i)) n
    have hs := (prepareStep_keeps p (⟨loc, b⟩, i)).1
    refine Eq.trans ih ?_
    rw [hs]
    have triv : ∀ (hb : ∀ t, b ≠ .directive t) (ht : (prepareStep p.1 p.2 (⟨loc, b⟩, i)).2.directives = p.2.directives),
        ((prepareStep p.1 p.2 (⟨loc, b⟩, i)).2.directives.lookup n).or (pickDir p.1.schema (ds.map (·.1)) n) =
          (p.2.directives.lookup n).or (pickDir p.1.schema (((⟨loc, b⟩, i) :: ds).map (·.1)) n) := by
      intro hb ht
      rw [ht]
      congr 1
      unfold pickDir
      congr 1
      unfold Spec.directiveDefs
      rw [List.map_cons, List.filterMap_cons]
      cases b <;> first | rfl | exact absurd rfl (hb _)
    cases b with
    | directive t =>
      simp only [prepareStep]
      by_cases h1 : (p.1.schema.directives.lookup t.name).isSome
      · rw [if_pos h1]
        dsimp only
        congr 1
        unfold pickDir
        split
        · rfl
        · rename_i h2
          have : ¬ t.name = n := fun e => h2 (e ▸ h1)
          simp [Spec.directiveDefs, this]
      · rw [if_neg h1]
        by_cases h2 : (p.2.directives.lookup t.name).isSome
        · rw [if_pos h2]
          dsimp only
          by_cases hn : t.name = n
          · subst hn
            obtain ⟨x, hx⟩ := Option.isSome_iff_exists.1 h2
            simp [hx]
          · congr 1
            simp [pickDir, Spec.directiveDefs, hn]
        · rw [if_neg h2]
          dsimp only
          rw [lookup_mapSet]
          by_cases hn : t.name = n
          · subst hn
            have e2 : p.2.directives.lookup t.name = none := Option.not_isSome_iff_eq_none.1 h2
            simp only [Bool.not_eq_true] at h1
            simp [e2, pickDir, h1, Spec.directiveDefs]
          · have : (n == t.name) = false := by simpa using fun e => hn (Eq.symm e)
            simp only [this, Bool.false_eq_true, ↓reduceIte]
            congr 1
            simp [pickDir, Spec.directiveDefs, hn]
    | type d =>
      refine triv (by simp) ?_
      simp only [prepareStep]
      split <;> (try rfl) <;> split <;> rfl
    | schema d =>
      refine triv (by simp) ?_
      simp only [prepareStep]
      split <;> (try rfl) <;> split <;> rfl
    | _ => exact triv (by simp) rfl

theorem prepare_schemaDef : ∀ (ds : List (Definition × Nat)) (p : Ctx × SDLContext),
    (prepare ds p).2.schemaDef = p.2.schemaDef.or (if p.2.isExtending then none else (Spec.schemaDefs (ds.map (·.1))).head?)
  | [], p => by simp [prepare, Spec.schemaDefs]
  | ((⟨loc, b⟩, i) :: ds), p => by
    have ih := prepare_schemaDef ds (prepareStep p.1 p.2 (⟨loc, b⟩, i))
    have hs := (prepareStep_keeps p (⟨loc, b⟩, i)).2.2.1
    refine Eq.trans ih ?_
    rw [hs]
    cases b with
    | schema d =>
      simp only [prepareStep]
      cases he : p.2.isExtending
      · simp only [Bool.false_eq_true, ↓reduceIte, List.map_cons, Spec.schemaDefs, List.filterMap_cons, List.head?_cons]
        cases hp : p.2.schemaDef with
        | none => simp
        | some x => simp [hp]
      · simp
    | directive d =>
      simp only [prepareStep]
      split <;> (try rfl) <;> split <;> rfl
    | type d =>
      simp only [prepareStep]
      split <;> (try rfl) <;> split <;> rfl
    | _ => rfl

theorem prepare_schemaExts : ∀ (ds : List (Definition × Nat)) (p : Ctx × SDLContext),
    (prepare ds p).2.schemaExts = p.2.schemaExts ++ Spec.schemaExts (ds.map (·.1))
  | [], p => by simp [prepare, Spec.schemaExts]
  | ((⟨loc, b⟩, i) :: ds), p => by
    have ih := prepare_schemaExts ds (prepareStep p.1 p.2 (⟨loc, b⟩, i))
    refine Eq.trans ih ?_
    cases b with
    | schemaExt d => simp [prepareStep, Spec.schemaExts]
    | schema d =>
      simp only [prepareStep]
      split <;> (try rfl) <;> split <;> rfl
    | directive d =>
      simp only [prepareStep]
      split <;> (try rfl) <;> split <;> rfl
    | type d =>
      simp only [prepareStep]
      split <;> (try rfl) <;> split <;> rfl
    | _ => rfl

/-- The extensions of one type, once more have been met. -/
def moreExts : Option (List TypeDef) → List TypeDef → Option (List TypeDef)
  | none, [] => none
  | l, l' => some (l.getD [] ++ l')

theorem prepare_typeExts : ∀ (ds : List (Definition × Nat)) (p : Ctx × SDLContext) (n : Bytes),
    (prepare ds p).2.typeExts.lookup n =
      moreExts (p.2.typeExts.lookup n) ((Spec.typeExts (ds.map (·.1))).filter (fun t => t.name == n))
  | [], p, n => by
    simp only [prepare, List.foldl_nil, Spec.typeExts, List.map_nil, List.filterMap_nil, List.filter_nil]
    cases p.2.typeExts.lookup n <;> simp [moreExts]
  | ((⟨loc, b⟩, i) :: ds), p, n => by
    have ih := prepare_typeExts ds (prepareStep p.1 p.2 (⟨loc, b⟩, i)) n
    refine Eq.trans ih ?_
    cases b with
    | typeExt d =>
      simp only [prepareStep, lookup_mapSet, Spec.typeExts, List.map_cons, List.filterMap_cons, List.filter_cons]
      by_cases hn : d.name = n
      · subst hn
        simp only [beq_self_eq_true, ↓reduceIte]
        cases p.2.typeExts.lookup d.name <;> cases List.filter (fun (t : TypeDef) => t.name == d.name) _ <;> simp [moreExts]
      · have h1 : (d.name == n) = false := by simpa using hn
        have h2 : (n == d.name) = false := by simpa using fun e => hn (Eq.symm e)
        simp only [h1, h2, Bool.false_eq_true, ↓reduceIte]
    | schema d =>
      simp only [prepareStep]
      split <;> (try rfl) <;> split <;> rfl
    | directive d =>
      simp only [prepareStep]
      split <;> (try rfl) <;> split <;> rfl
    | type d =>
      simp only [prepareStep]
      split <;> (try rfl) <;> split <;> rfl
    | _ => rfl

end

end GQL
