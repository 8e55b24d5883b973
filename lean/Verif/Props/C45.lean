/-
C45: root operation types.
-/
import Verif.Props.C40

namespace GQL
open Classical
open Spec (traceAll)

/-- The schema definitions (`false`) and schema extensions (`true`) of a document in source order, with the operations they name. -/
def Spec.rootBlocks (ds : List Definition) : List (Bool × List OpKind) :=
  ds.filterMap fun d => match d.body with
    | .schema s => some (false, s.ops.map (·.op))
    | .schemaExt s => some (true, s.ops.map (·.op))
    | _ => none

/-- The schema to be extended has a type for the operation. -/
def Spec.hasRoot (schema : Option Schema) (k : OpKind) : Prop := ∃ s, schema = some s ∧ (match k with
  | .query => s.queryType | .mutation => s.mutationType | .subscription => s.subscriptionType) ≠ none

/-- The errors for the entries of an extension after the entries `seen`. -/
noncomputable def Spec.entryErrors (schema : Option Schema) : List OpKind → List OpKind → List GErr
  | _, [] => []
  | seen, k :: ks =>
    (if hasRoot schema k then [Says.existingRoot k] else if k ∈ seen then [Says.repeatedRoot k] else []) ++
      entryErrors schema (seen ++ [k]) ks

/-- What `ValidateSDL` reports: in a schema definition the repetitions within it, in an extension the entries that the schema has or that have
occurred in the extension or in an *earlier* definition or extension. -/
noncomputable def Spec.rootErrors (schema : Option Schema) : List OpKind → List (Bool × List OpKind) → List GErr
  | _, [] => []
  | seen, (false, ks) :: bs => (repeated ks).map Says.repeatedRoot ++ rootErrors schema (seen ++ ks) bs
  | seen, (true, ks) :: bs => entryErrors schema seen ks ++ rootErrors schema (seen ++ ks) bs

/-- The operations named in a node. -/
def blockOf : ANode → Option (Bool × List OpTypeDef)
  | .schemaDefinition s => some (false, s.ops)
  | .schemaExtension s => some (true, s.ops)
  | _ => none

/-- `opTypesAll` on the blocks. -/
def blockErrors (sch : Schema) : (OpKind → Bool) → List (Bool × List OpTypeDef) → List GErr
  | _, [] => []
  | f, (b, os) :: bs =>
    (if b then opTypeExtRepeats sch f os else opTypeRepeats (fun _ => false) os) ++
      blockErrors sch (fun k => os.any (fun o => o.op == k) || f k) bs

theorem defineAll_defined : ∀ (os : List OpTypeDef) (s : SDLContext), (s.defineAll os).defined = fun k => os.any (fun o => o.op == k) || s.defined k
  | [], s => by funext k; simp [SDLContext.defineAll]
  | o :: os, s => by
    have := defineAll_defined os (s.define o.op)
    unfold SDLContext.defineAll at this ⊢
    rw [List.foldl_cons, this, SDLContext.defined_define]
    funext k
    dsimp only
    rw [List.any_cons, show (k == o.op) = (o.op == k) by cases k <;> cases o.op <;> rfl]
    cases (o.op == k) <;> cases (os.any fun o => o.op == k) <;> rfl

theorem opTypesAll_blocks : ∀ (es : List Event) (c : Ctx) (s : SDLContext), c.sdl = some s →
    opTypesAll c es = blockErrors c.schema s.defined ((leaves es).filterMap blockOf)
  | [], _, _, _ => rfl
  | .enter n :: es, c, s, h => by
    simp only [opTypesAll, leaves]
    rw [show opTypesErrs c (.enter n) = [] from rfl, show c.flagAfter (.enter n) = c from rfl]
    exact opTypesAll_blocks es c s h
  | .leave n :: es, c, s, h => by
    simp only [opTypesAll, leaves, List.filterMap_cons]
    have hskip : ∀ n, blockOf n = none → opTypesErrs c (.leave n) = [] ∧ c.flagAfter (.leave n) = c := by
      intro n hn; cases n <;> first | exact ⟨rfl, rfl⟩ | cases hn
    rcases hb : blockOf n with _ | ⟨b, os⟩
    · obtain ⟨h1, h2⟩ := hskip n hb
      rw [h1, h2]
      exact opTypesAll_blocks es c s h
    · have hn : (b = false ∧ ∃ d : SchemaDef, n = .schemaDefinition d ∧ d.ops = os) ∨ (b = true ∧ ∃ d : SchemaDef, n = .schemaExtension d ∧ d.ops = os) := by
        cases n <;> first | (cases hb; done) | skip
        · cases hb; exact .inl ⟨rfl, _, rfl, rfl⟩
        · cases hb; exact .inr ⟨rfl, _, rfl, rfl⟩
      rcases hn with ⟨rfl, d, rfl, rfl⟩ | ⟨rfl, d, rfl, rfl⟩
      · rw [opTypesAll_blocks es (c.flagAfter _) (s.defineAll d.ops) (by simp [Ctx.flagAfter, h]), defineAll_defined]
        rfl
      · rw [opTypesAll_blocks es (c.flagAfter _) (s.defineAll d.ops) (by simp [Ctx.flagAfter, h]), defineAll_defined]
        simp only [opTypesErrs, Ctx.defined_some h, blockErrors]
        rfl

theorem leaves_map_enter (ns : List ANode) : leaves (ns.map Event.enter) = [] := by
  induction ns with
  | nil => rfl
  | cons n ns ih => exact ih

theorem leaves_map_leave (ns : List ANode) : leaves (ns.map Event.leave) = ns := by
  induction ns with
  | nil => rfl
  | cons n ns ih => exact congrArg (n :: ·) ih

theorem inner_blocks (d : Definition) : (leaves (traceAll (innerTrees false d))).filterMap blockOf = [] := by
  rw [List.filterMap_eq_nil_iff]
  intro n hn
  have hm := (leaves_traceAll (innerTrees false d)).mem_iff.1 hn
  have hk := innerTrees_kinds_all false d n hm
  cases n <;> first | rfl | (simp only [ANode.kind] at hk; exact absurd hk (by decide))

/-- The blocks of a definition. -/
def defBlock (d : Definition) : Option (Bool × List OpTypeDef) :=
  match d.body with
  | .schema s => some (false, s.ops)
  | .schemaExt s => some (true, s.ops)
  | _ => none

theorem doc_blocks (doc : Document) : (leaves (Spec.docTree false doc).trace).filterMap blockOf = doc.defs.filterMap defBlock := by
  rw [docTree_trace]
  have key : ∀ (ds : List Definition) (i : Nat), (leaves ((ds.zipIdx i).flatMap fun p =>
        (topNodes p.2 p.1).map Event.enter ++ traceAll (innerTrees false p.1) ++ (topNodes p.2 p.1).reverse.map Event.leave)).filterMap blockOf =
      ds.filterMap defBlock := by
    intro ds
    induction ds with
    | nil => intro i; rfl
    | cons d ds ih =>
      intro i
      rw [List.zipIdx_cons, List.flatMap_cons, leaves_append, List.filterMap_append, ih, leaves_append, leaves_append, leaves_map_enter, List.nil_append,
        List.filterMap_append, inner_blocks, leaves_map_leave, List.nil_append, List.filterMap_cons]
      obtain ⟨loc, b⟩ := d
      cases b with
      | op o => obtain ⟨k, _, _, _, _⟩ := o; cases k <;> rfl
      | type t => obtain ⟨_, _, k, _, _, _, _, _, _⟩ := t; cases k <;> rfl
      | typeExt t => obtain ⟨_, _, k, _, _, _, _, _, _⟩ := t; cases k <;> rfl
      | _ => rfl
  rw [leaves_append, leaves_append, leaves_append, List.filterMap_append, List.filterMap_append, List.filterMap_append, key]
  cases doc.defs <;> simp [leaves, blockOf]

/-- The operations that are repeated. -/
def opRepeats : (OpKind → Bool) → List OpKind → List OpKind
  | _, [] => []
  | f, o :: os => (if f o then [o] else []) ++ opRepeats (fun k => k == o || f k) os

theorem opTypeRepeats_eq : ∀ (os : List OpTypeDef) (f : OpKind → Bool),
    opTypeRepeats f os = (opRepeats f (os.map (·.op))).map fun k => duplicateOperationTypeError k.str
  | [], _ => rfl
  | o :: os, f => by
    simp only [opTypeRepeats, List.map_cons, opRepeats, List.map_append, opTypeRepeats_eq os]
    cases f o.op <;> rfl

theorem opRepeats_count (k : OpKind) : ∀ (os : List OpKind) (f : OpKind → Bool),
    (opRepeats f os).count k = if f k then os.count k else os.count k - 1
  | [], f => by simp [opRepeats]
  | o :: os, f => by
    rw [opRepeats, List.count_append, opRepeats_count k os, List.count_cons]
    by_cases hk : k = o
    · subst hk; cases f k <;> simp [Nat.add_comm]
    · have : ¬ o = k := fun e => hk e.symm
      cases f o <;> simp [hk, this]

theorem hasRoot_iff (schema : Option Schema) (k : OpKind) : ((schema.getD {}).rootType k).isSome = true ↔ Spec.hasRoot schema k := by
  unfold Spec.hasRoot
  cases schema with
  | none => cases k <;> simp [Schema.rootType]
  | some s => cases k <;> simp [Schema.rootType, Option.isSome_iff_ne_none]

theorem entry_eq (schema : Option Schema) : ∀ (os : List OpTypeDef) (f : OpKind → Bool) (seen : List OpKind), (∀ k, f k = true ↔ k ∈ seen) →
    opTypeExtRepeats (schema.getD {}) f os = Spec.entryErrors schema seen (os.map (·.op))
  | [], _, _, _ => rfl
  | o :: os, f, seen, h => by
    simp only [opTypeExtRepeats, List.map_cons, Spec.entryErrors]
    rw [entry_eq schema os _ (seen ++ [o.op]) (by intro k; simp only [Bool.or_eq_true, beq_iff_eq, h, List.mem_append, List.mem_singleton, or_comm])]
    congr 1
    simp only [hasRoot_iff, h, says_existingRoot, says_repeatedRoot]

theorem blocks_perm (schema : Option Schema) : ∀ (bs : List (Bool × List OpTypeDef)) (f : OpKind → Bool) (seen : List OpKind),
    (∀ k, f k = true ↔ k ∈ seen) →
    (blockErrors (schema.getD {}) f bs).Perm (Spec.rootErrors schema seen (bs.map fun p => (p.1, p.2.map (·.op))))
  | [], _, _, _ => .refl _
  | (b, os) :: bs, f, seen, h => by
    have h' : ∀ k, (os.any (fun o => o.op == k) || f k) = true ↔ k ∈ seen ++ os.map (·.op) := by
      intro k
      simp only [Bool.or_eq_true, List.any_eq_true, beq_iff_eq, h, List.mem_append, List.mem_map]
      exact or_comm
    have ih := blocks_perm schema bs _ _ h'
    cases b with
    | false =>
      simp only [blockErrors, List.map_cons, Spec.rootErrors, Bool.false_eq_true, ↓reduceIte]
      refine List.Perm.append ?_ ih
      rw [opTypeRepeats_eq]
      refine List.Perm.map _ ?_
      rw [List.perm_iff_count]
      intro k
      rw [opRepeats_count, repeated_count]
      rfl
    | true =>
      simp only [blockErrors, List.map_cons, Spec.rootErrors, ↓reduceIte]
      rw [entry_eq schema os f seen h]
      exact ih.append_left _

section
variable (doc : Document) (schema : Option Schema)

/-- **C45, exactly**. -/
theorem C45_exact : SDLErrors .uniqueOperationTypes doc schema (Spec.rootErrors schema [] (Spec.rootBlocks doc.defs)) := by
  obtain ⟨c, X, h1, h2, h3⟩ := validateSDL_one doc schema .uniqueOperationTypes
  refine ⟨c, _, X, h1, validateSDL_nil doc schema, h2, h3.trans ?_⟩
  unfold Rule.errsAll
  rw [if_pos rfl, opTypesAll_blocks _ _ _ (sdlCtx_sdl doc schema), doc_blocks, sdlCtx_schema, sdlOf_defined, sdlCtx_doc]
  refine (blocks_perm schema _ _ [] (fun k => by simp)).trans (.of_eq ?_)
  congr 1
  unfold namedDoc Spec.rootBlocks
  rw [filterMap_nameAnonymous defBlock (fun d o h => by simp [defBlock, h]), List.map_filterMap]
  congr 1
  funext d
  obtain ⟨loc, b⟩ := d
  cases b <;> rfl

/-- All entries, those of definitions first. -/
def Spec.rootEntries : List OpKind := ((schemaDefs doc.defs ++ schemaExts doc.defs).flatMap (·.ops)).map (·.op)

/-- One error for each entry that the schema has, and one for each repetition of any other. -/
noncomputable def Spec.rootTypeErrors : List GErr :=
  ((rootEntries doc).filter fun k => hasRoot schema k).map Says.existingRoot ++
    (repeated ((rootEntries doc).filter fun k => ¬ hasRoot schema k)).map Says.repeatedRoot

/-- At most one schema definition, none when a schema is extended, and no schema extension before it. -/
def DefinitionFirst : Prop :=
  ∃ (first : List (List OpKind)) (exts : List (List OpKind)), first.length ≤ 1 ∧ (schema.isSome → first = []) ∧
    Spec.rootBlocks doc.defs = first.map (fun l => (false, l)) ++ exts.map (fun l => (true, l))

end

theorem entry_perm (schema : Option Schema) : ∀ (ks seen : List OpKind), (Spec.entryErrors schema seen ks).Perm
    ((ks.filter fun k => Spec.hasRoot schema k).map (fun k => existedOperationTypeError k.str) ++
      (opRepeats (fun k => seen.contains k) (ks.filter fun k => ¬ Spec.hasRoot schema k)).map fun k => duplicateOperationTypeError k.str)
  | [], _ => .refl _
  | k :: ks, seen => by
    have ih := entry_perm schema ks (seen ++ [k])
    simp only [Spec.entryErrors, List.filter_cons]
    by_cases h : Spec.hasRoot schema k
    · have e : opRepeats (fun x => (seen ++ [k]).contains x) (ks.filter fun k => ¬ Spec.hasRoot schema k) =
          opRepeats (fun x => seen.contains x) (ks.filter fun k => ¬ Spec.hasRoot schema k) := by
        have : ∀ (l : List OpKind) (f g : OpKind → Bool), (∀ x, f x = g x ∨ x = k) → k ∉ l → opRepeats f l = opRepeats g l := by
          intro l
          induction l with
          | nil => intros; rfl
          | cons a l ih =>
            intro f g hfg hk
            rw [List.mem_cons, not_or] at hk
            simp only [opRepeats]
            rw [ih _ (fun x => x == a || g x) (fun x => by rcases hfg x with e | e <;> simp [e]) hk.2]
            rcases hfg a with e | e
            · rw [e]
            · exact absurd e.symm hk.1
        refine this _ _ _ (fun x => ?_) (by simp [h])
        by_cases hx : x = k
        · exact .inr hx
        · left; rw [Bool.eq_iff_iff]; simp [hx]
      rw [e] at ih
      simp only [h, ↓reduceIte, decide_true, not_true_eq_false, decide_false, Bool.false_eq_true, List.map_cons, List.cons_append]
      exact ih.cons _
    · have e : (fun x => (seen ++ [k]).contains x) = fun x => x == k || seen.contains x := by
        funext x; rw [Bool.eq_iff_iff]; simp [or_comm]
      rw [e] at ih
      simp only [h, ↓reduceIte, decide_true, not_false_eq_true, decide_false, Bool.false_eq_true, opRepeats]
      by_cases hs : k ∈ seen
      · simp only [hs, ↓reduceIte, List.contains_iff_mem.2 hs, List.map_append, List.map_cons, List.map_nil]
        refine (ih.append_left _).trans ?_
        simp only [List.singleton_append]
        exact List.perm_middle.symm
      · have : seen.contains k = false := by simpa using hs
        simp only [hs, ↓reduceIte, this, Bool.false_eq_true, List.nil_append]
        exact ih

theorem entry_append (schema : Option Schema) : ∀ (a seen b : List OpKind),
    Spec.entryErrors schema seen (a ++ b) = Spec.entryErrors schema seen a ++ Spec.entryErrors schema (seen ++ a) b
  | [], seen, b => by simp [Spec.entryErrors]
  | k :: a, seen, b => by
    simp only [List.cons_append, Spec.entryErrors, entry_append schema a, List.append_assoc, List.nil_append]

theorem exts_errors (schema : Option Schema) : ∀ (exts : List (List OpKind)) (seen : List OpKind),
    Spec.rootErrors schema seen (exts.map fun l => (true, l)) = Spec.entryErrors schema seen exts.flatten
  | [], _ => rfl
  | l :: exts, seen => by
    rw [List.map_cons, Spec.rootErrors, exts_errors schema exts, List.flatten_cons, entry_append]

theorem blocks_entries : ∀ (ds : List Definition),
    (Spec.schemaDefs ds).map (fun s => s.ops.map (·.op)) = ((Spec.rootBlocks ds).filter fun p => !p.1).map (·.2) ∧
    (Spec.schemaExts ds).map (fun s => s.ops.map (·.op)) = ((Spec.rootBlocks ds).filter fun p => p.1).map (·.2)
  | [] => ⟨rfl, rfl⟩
  | ⟨loc, b⟩ :: ds => by
    obtain ⟨h1, h2⟩ := blocks_entries ds
    unfold Spec.schemaDefs Spec.schemaExts Spec.rootBlocks at *
    cases b <;> simp [h1, h2]

/-- **C45 when the schema definition comes first**: each entry that the schema has is reported as existing, each repetition of another one once.
Missing for the full property: schema extensions before the schema definition (`C45_refuted`), and several schema definitions, which are reported anyway. -/
theorem C45_partial (doc : Document) (schema : Option Schema) (h : DefinitionFirst doc schema) :
    SDLErrors .uniqueOperationTypes doc schema (Spec.rootTypeErrors doc schema) := by
  refine (C45_exact doc schema).perm ?_
  obtain ⟨first, exts, hl, hs, hb⟩ := h
  obtain ⟨e1, e2⟩ := blocks_entries doc.defs
  have f1 : ∀ (l : List (List OpKind)) (b : Bool), ((l.map fun x => (b, x)).filter fun p => !p.1) = if b then [] else l.map fun x => (b, x) := by
    intro l b; induction l with
    | nil => cases b <;> rfl
    | cons a l ih => rw [List.map_cons, List.filter_cons, ih]; cases b <;> rfl
  have f2 : ∀ (l : List (List OpKind)) (b : Bool), ((l.map fun x => (b, x)).filter fun p => p.1) = if b then l.map fun x => (b, x) else [] := by
    intro l b; induction l with
    | nil => cases b <;> rfl
    | cons a l ih => rw [List.map_cons, List.filter_cons, ih]; cases b <;> rfl
  have hmm : ∀ (l : List (List OpKind)) (b : Bool), ((l.map fun x => (b, x)).map (·.2)) = l := by
    intro l b; rw [List.map_map]; exact List.map_id'' (fun _ => rfl) l
  rw [hb, List.filter_append, f1, f1] at e1
  rw [hb, List.filter_append, f2, f2] at e2
  simp only [Bool.false_eq_true, ↓reduceIte, List.append_nil, List.nil_append, hmm] at e1 e2
  have hent : Spec.rootEntries doc = first.flatten ++ exts.flatten := by
    unfold Spec.rootEntries
    rw [List.map_flatMap, List.flatMap_append, List.flatMap_def, List.flatMap_def, e1, e2]
  unfold Spec.rootTypeErrors
  rw [hent, hb]
  have fin : ∀ (ks : List OpKind), (Spec.entryErrors schema [] ks).Perm
      ((ks.filter fun k => Spec.hasRoot schema k).map (fun k => existedOperationTypeError k.str) ++
        (Spec.repeated (ks.filter fun k => ¬ Spec.hasRoot schema k)).map fun k => duplicateOperationTypeError k.str) := by
    intro ks
    refine (entry_perm schema ks []).trans (List.Perm.append_left _ (List.Perm.map _ ?_))
    rw [List.perm_iff_count]
    intro k
    rw [opRepeats_count, repeated_count]
    rfl
  match first, hl, hs with
  | [], _, _ =>
    simp only [List.map_nil, List.nil_append, List.flatten_nil, exts_errors]
    exact fin _
  | [l], _, hs =>
    have hn : schema = none := by
      cases schema with
      | none => rfl
      | some s => cases hs rfl
    subst hn
    refine List.Perm.trans ?_ (fin _)
    rw [List.map_cons, List.map_nil, List.singleton_append, Spec.rootErrors, exts_errors, List.nil_append, List.flatten_cons, List.flatten_nil, List.append_nil,
      entry_append, List.nil_append]
    refine List.Perm.append_right _ ?_
    refine List.Perm.trans ?_ (fin l).symm
    have h0 : ∀ k, ¬ Spec.hasRoot none k := by rintro k ⟨s, hs, _⟩; cases hs
    have g1 : (l.filter fun k => decide (Spec.hasRoot none k)) = [] := List.filter_eq_nil_iff.2 fun k _ => by simp [h0 k]
    have g2 : (l.filter fun k => decide (¬ Spec.hasRoot none k)) = l := List.filter_eq_self.2 fun k _ => by simp [h0 k]
    rw [g1, g2]
    exact .refl _

/-- C45 as stated fails: both the extension and the definition give a query type, and nothing is reported. -/
theorem C45_refuted : ∃ d, parse (fun _ => none) b!"extend schema { query: A } schema { query: B }" = .ok d ∧
    (validateSDL d none (rulesWalker [.uniqueOperationTypes])).errors? = some [] ∧ Spec.rootTypeErrors d none ≠ [] := by
  refine ⟨_, (parse_eq (ts := [⟨.name, b!"extend", 1, 1⟩, ⟨.name, b!"schema", 1, 8⟩, ⟨.punctuator, b!"{", 1, 15⟩, ⟨.name, b!"query", 1, 17⟩, ⟨.punctuator, b!":", 1, 22⟩, ⟨.name, b!"A", 1, 24⟩, ⟨.punctuator, b!"}", 1, 26⟩, ⟨.name, b!"schema", 1, 28⟩, ⟨.punctuator, b!"{", 1, 35⟩, ⟨.name, b!"query", 1, 37⟩, ⟨.punctuator, b!":", 1, 42⟩, ⟨.name, b!"B", 1, 44⟩, ⟨.punctuator, b!"}", 1, 46⟩, ⟨.eof, [], 1, 47⟩]) (by decide) rfl), rfl, ?_⟩
  have h0 : ∀ k, ¬ Spec.hasRoot none k := by rintro k ⟨s, hs, _⟩; cases hs
  unfold Spec.rootTypeErrors
  have e : (fun k => decide (¬ Spec.hasRoot none k)) = fun _ => true := by funext k; simp [h0 k]
  rw [e]
  exact fun h => absurd (List.append_eq_nil_iff.1 h).2 (by
    refine fun x => ?_
    have := List.map_eq_nil_iff.1 x
    revert this
    decide)

set_option maxRecDepth 4000 in
/-- `C45_partial` applies, with and without a schema. -/
example : ∃ d, parse (fun _ => none) b!"schema { query: A mutation: A query: B } extend schema { mutation: M subscription: S }" = .ok d ∧
    DefinitionFirst d none ∧ (validateSDL d none (rulesWalker [.uniqueOperationTypes])).errors? =
      some [duplicateOperationTypeError b!"mutation", duplicateOperationTypeError b!"query"] := by
  refine ⟨_, (parse_eq (ts := [⟨.name, b!"schema", 1, 1⟩, ⟨.punctuator, b!"{", 1, 8⟩, ⟨.name, b!"query", 1, 10⟩, ⟨.punctuator, b!":", 1, 15⟩, ⟨.name, b!"A", 1, 17⟩, ⟨.name, b!"mutation", 1, 19⟩, ⟨.punctuator, b!":", 1, 27⟩, ⟨.name, b!"A", 1, 29⟩, ⟨.name, b!"query", 1, 31⟩, ⟨.punctuator, b!":", 1, 36⟩, ⟨.name, b!"B", 1, 38⟩, ⟨.punctuator, b!"}", 1, 40⟩, ⟨.name, b!"extend", 1, 42⟩, ⟨.name, b!"schema", 1, 49⟩, ⟨.punctuator, b!"{", 1, 56⟩, ⟨.name, b!"mutation", 1, 58⟩, ⟨.punctuator, b!":", 1, 66⟩, ⟨.name, b!"M", 1, 68⟩, ⟨.name, b!"subscription", 1, 70⟩, ⟨.punctuator, b!":", 1, 82⟩, ⟨.name, b!"S", 1, 84⟩, ⟨.punctuator, b!"}", 1, 86⟩, ⟨.eof, [], 1, 87⟩]) (by decide) rfl), ?_, rfl⟩
  exact ⟨[[.query, .mutation, .query]], [[.mutation, .subscription]], by decide, by simp, rfl⟩

example : ∃ d, parse (fun _ => none) b!"extend schema { query: M mutation: S }" = .ok d ∧
    DefinitionFirst d (some { queryType := some (.named b!"Query" false) }) ∧
    (validateSDL d (some { queryType := some (.named b!"Query" false) }) (rulesWalker [.uniqueOperationTypes])).errors? =
      some [existedOperationTypeError b!"query"] := by
  refine ⟨_, (parse_eq (ts := [⟨.name, b!"extend", 1, 1⟩, ⟨.name, b!"schema", 1, 8⟩, ⟨.punctuator, b!"{", 1, 15⟩, ⟨.name, b!"query", 1, 17⟩, ⟨.punctuator, b!":", 1, 22⟩, ⟨.name, b!"M", 1, 24⟩, ⟨.name, b!"mutation", 1, 26⟩, ⟨.punctuator, b!":", 1, 34⟩, ⟨.name, b!"S", 1, 36⟩, ⟨.punctuator, b!"}", 1, 38⟩, ⟨.eof, [], 1, 39⟩]) (by decide) rfl), ?_, rfl⟩
  exact ⟨[], [[.query, .mutation]], by decide, by simp, rfl⟩

end GQL
