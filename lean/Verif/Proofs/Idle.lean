/-
`BuildSchema` for definitions whose extensions add nothing to a list that is not empty: it changes nothing in them, and may be called again.
-/
import Verif.Model.HeapAgain
import Verif.Spec.Again
import Verif.Proofs.Twice
import Verif.Props.C74
import Verif.Props.C46

namespace GQL

/-! ### Joining with an empty list -/

theorem Rep.null {α : Type} {m : Mem α} {s : Spec.Vars α} (hr : Rep m s) {x : Nat} (h : ∃ l, s x = some l) : m.vars x = none ↔ (s x).getD [] = [] := by
  obtain ⟨N, h1, -⟩ := hr
  obtain ⟨l, hx⟩ := h
  have := (h1 x l hx).1
  rw [hx, Option.getD_some]
  cases l with
  | nil =>
    refine ⟨fun _ => rfl, fun _ => ?_⟩
    cases hN : N x with
    | nil => rw [hN] at this; exact this
    | cons a l => rw [hN] at this; exact this.elim
  | cons a l =>
    refine ⟨fun hn => ?_, fun h => by cases h⟩
    cases hN : N x with
    | nil => rw [hN] at this; exact this.elim
    | cons b l' =>
      rw [hN] at this
      obtain ⟨h, -⟩ := this
      rw [hn] at h
      cases h

theorem joinVar_vars {α : Type} {m m' : Mem α} {x y : Nat} (r : m.joinVar x y = .ret m') : m'.vars = m.vars := by
  unfold Mem.joinVar at r
  obtain ⟨h, -, r⟩ := bind_ret_inv r
  cases r
  rfl

/-- Joining changes nothing if one of the lists is empty. -/
theorem Rep.idle {α : Type} {m : Mem α} {s : Spec.Vars α} (hr : Rep m s) {x y : Nat} (hx : ∃ l, s x = some l) (hy : ∃ l, s y = some l) (hxy : x ≠ y)
    (h : ¬ ((s x).getD [] ≠ [] ∧ (s y).getD [] ≠ [])) : ∃ m', m.joinVar x y = .ret m' ∧ Rep m' s := by
  by_cases h1 : (s x).getD [] = []
  · have := (hr.null hx).2 h1
    refine ⟨m, ?_, hr⟩
    unfold Mem.joinVar
    rw [this]
    rfl
  · have h2 : (s y).getD [] = [] := Classical.byContradiction fun h2 => h ⟨h1, h2⟩
    have hn := (hr.null hy).2 h2
    obtain ⟨l, hl⟩ := hx
    obtain ⟨k, hk⟩ := hy
    rw [hk, Option.getD_some] at h2
    subst h2
    obtain ⟨m', e, r⟩ := hr.joinVar hl hk hxy
    refine ⟨m', e, ?_⟩
    have hj : joined l [] = l := by unfold joined; split <;> simp
    rw [hj, Spec.Vars.set_self s hl] at r
    obtain ⟨N, r1, r2⟩ := r
    have hother : ∀ z, z ≠ y → s.set y none z = s z := fun z hz => by unfold Spec.Vars.set; rw [if_neg hz]
    refine ⟨fun z => if z = y then [] else N z, fun z l' hz => ?_, fun z w hzw hz hw a ha => ?_⟩
    · by_cases e' : z = y
      · subst e'
        rw [hk] at hz
        cases hz
        dsimp only
        rw [if_pos rfl, joinVar_vars e, hn]
        exact ⟨rfl, True.intro, List.nodup_nil⟩
      · dsimp only
        rw [if_neg e']
        exact r1 z l' ((hother z e').trans hz)
    · dsimp only at ha ⊢
      by_cases e1 : z = y
      · rw [if_pos e1] at ha
        cases ha
      · rw [if_neg e1] at ha
        by_cases e2 : w = y
        · rw [if_pos e2]
          exact List.not_mem_nil
        · rw [if_neg e2]
          exact r2 z w hzw (by rw [hother z e1]; exact hz) (by rw [hother w e2]; exact hw) a ha

theorem mergeTypeExt_idle {m : PMem} {A : AMem} (h : Is m A) {t e : Nat} (ht : A.Live t) (he : A.Live e) (hte : t ≠ e)
    (hn : ¬ Spec.AddsTo (A.get t) (A.get e)) : ∃ m', m.mergeTypeExt t e = .ret m' ∧ Is m' A := by
  have hk : (A.get e).kind = (A.head e).kind := rfl
  unfold Spec.AddsTo at hn
  rw [hk, not_or] at hn
  obtain ⟨n1, n2⟩ := hn
  obtain ⟨d, e1, r1⟩ := h.dirs.idle ht.dirs he.dirs (by omega) n1
  have hh : m.heads[e]? = some (A.head e) := by
    unfold AMem.head
    rw [h.heads, List.getElem?_eq_getElem he.head]
    rfl
  unfold PMem.mergeTypeExt
  rw [hh]
  dsimp only
  rw [e1, Out.bind_ret]
  cases hkk : (A.head e).kind with
  | scalar => exact ⟨_, rfl, h.heads, h.sdefs, r1, h.fields, h.tys, h.values, h.inputs, h.ops⟩
  | object =>
    rw [hkk] at n2
    dsimp only at n2
    rw [not_or] at n2
    obtain ⟨f, e2, r2⟩ := h.fields.idle ht.fields he.fields hte n2.1
    obtain ⟨i, e3, r3⟩ := h.tys.idle ht.ifaces he.ifaces (by omega) n2.2
    dsimp only
    rw [e2, Out.bind_ret, e3]
    exact ⟨_, rfl, h.heads, h.sdefs, r1, r2, r3, h.values, h.inputs, h.ops⟩
  | interface =>
    rw [hkk] at n2
    obtain ⟨f, e2, r2⟩ := h.fields.idle ht.fields he.fields hte n2
    dsimp only
    rw [e2]
    exact ⟨_, rfl, h.heads, h.sdefs, r1, r2, h.tys, h.values, h.inputs, h.ops⟩
  | union =>
    rw [hkk] at n2
    obtain ⟨i, e3, r3⟩ := h.tys.idle ht.members he.members (by omega) n2
    dsimp only
    rw [e3]
    exact ⟨_, rfl, h.heads, h.sdefs, r1, h.fields, r3, h.values, h.inputs, h.ops⟩
  | enum =>
    rw [hkk] at n2
    obtain ⟨i, e3, r3⟩ := h.values.idle ht.values he.values hte n2
    dsimp only
    rw [e3]
    exact ⟨_, rfl, h.heads, h.sdefs, r1, h.fields, h.tys, r3, h.inputs, h.ops⟩
  | inputObject =>
    rw [hkk] at n2
    obtain ⟨i, e3, r3⟩ := h.inputs.idle ht.inputs he.inputs hte n2
    dsimp only
    rw [e3]
    exact ⟨_, rfl, h.heads, h.sdefs, r1, h.fields, h.tys, h.values, r3, h.ops⟩

theorem mergeInto_idle {A : AMem} {t : Nat} (ht : A.Live t) : ∀ {es : List Nat} {m : PMem}, Is m A →
    (∀ e ∈ es, A.Live e ∧ t ≠ e ∧ ¬ Spec.AddsTo (A.get t) (A.get e)) → ∃ m', m.mergeInto t es = .ret m' ∧ Is m' A
  | [], m, h, _ => ⟨m, rfl, h⟩
  | e :: es, m, h, hl => by
    obtain ⟨k1, k2, k3⟩ := hl e (List.mem_cons_self ..)
    obtain ⟨m1, e1, h1⟩ := mergeTypeExt_idle h ht k1 k2 k3
    obtain ⟨m2, e2, h2⟩ := mergeInto_idle ht h1 (es := es) fun x hx => hl x (List.mem_cons_of_mem _ hx)
    refine ⟨m2, ?_, h2⟩
    unfold PMem.mergeInto
    rw [e1]
    exact e2

theorem mergeTypeExts_idle {A : AMem} {sch : PSchema} {q : PSDL} : ∀ {l : List (Bytes × List Nat)} {m : PMem}, Is m A →
    (∀ p ∈ l, ∀ t, mergeTarget sch q p.1 = some t → A.Live t ∧ ∀ e ∈ p.2, A.Live e ∧ t ≠ e ∧ ¬ Spec.AddsTo (A.get t) (A.get e)) →
    ∃ m', PMem.mergeTypeExts sch q l m = .ret m' ∧ Is m' A
  | [], m, h, _ => ⟨m, rfl, h⟩
  | (n, es) :: l, m, h, hl => by
    unfold PMem.mergeTypeExts
    cases ht : mergeTarget sch q n with
    | none => exact ⟨m, rfl, h⟩
    | some t =>
      obtain ⟨k1, k2⟩ := hl (n, es) (List.mem_cons_self ..) t ht
      obtain ⟨m1, e1, h1⟩ := mergeInto_idle k1 h k2
      obtain ⟨m2, e2, h2⟩ := mergeTypeExts_idle h1 (l := l) fun x hx => hl x (List.mem_cons_of_mem _ hx)
      refine ⟨m2, ?_, h2⟩
      dsimp only
      rw [e1]
      exact e2

theorem mergeSchemaExts_idle {A : AMem} {b : Nat} (hb : A.SLive b) : ∀ {es : List Nat} {m : PMem}, Is m A →
    (∀ e ∈ es, A.SLive e ∧ b ≠ e ∧ ¬ Spec.AddsToSchema (A.sget b) (A.sget e)) → ∃ m', m.mergeSchemaExts b es = .ret m' ∧ Is m' A
  | [], m, h, _ => ⟨m, rfl, h⟩
  | e :: es, m, h, hl => by
    obtain ⟨k1, k2, k3⟩ := hl e (List.mem_cons_self ..)
    unfold Spec.AddsToSchema at k3
    rw [not_or] at k3
    obtain ⟨d, e1, r1⟩ := h.dirs.idle hb.dirs k1.dirs (by omega) k3.1
    obtain ⟨o, e2, r2⟩ := h.ops.idle hb.ops k1.ops k2 k3.2
    have h1 : Is { m with dirs := d, ops := o } A := ⟨h.heads, h.sdefs, r1, h.fields, h.tys, h.values, h.inputs, r2⟩
    obtain ⟨m2, e3, h2⟩ := mergeSchemaExts_idle hb h1 (es := es) fun x hx => hl x (List.mem_cons_of_mem _ hx)
    refine ⟨m2, ?_, h2⟩
    unfold PMem.mergeSchemaExts
    rw [e1, Out.bind_ret, e2, Out.bind_ret]
    exact e3

/-! ### The schema -/

/-- The schema definition that counts. -/
def theDef (A : AMem) (q : PSDL) : SchemaDef := (q.schemaDef.map A.sget).getD defaultSchemaDef

/-- The schema is one that `BuildSchema` makes from `q`. -/
structure Fit (A : AMem) (q : PSDL) (D : SchemaDef) (S : PSchema) : Prop where
  typesOnce : (S.types.map (·.1)).Nodup
  types : ∀ n, S.types.lookup n = (q.types.lookup n).or (specifiedTypesP.lookup n)
  directivesOnce : (S.directives.map (·.1)).Nodup
  directives : ∀ n, S.directives.lookup n = (q.directives.lookup n).or (specifiedDirectives.lookup n)
  definition : ∃ b, S.definition = some b ∧ A.SLive b ∧ A.sget b = D
  query : S.queryType = Spec.rootOf D.ops .query
  mutation : S.mutationType = Spec.rootOf D.ops .mutation
  subscription : S.subscriptionType = Spec.rootOf D.ops .subscription

theorem Fit.grow {A A' : AMem} {q : PSDL} {D : SchemaDef} {S : PSchema} (h : Fit A q D S) (g : Grow A A' nowhere nowhere) : Fit A' q D S := by
  obtain ⟨b, h1, h2, h3⟩ := h.definition
  obtain ⟨k1, k2⟩ := g.schemas b h2 id
  exact ⟨h.typesOnce, h.types, h.directivesOnce, h.directives, ⟨b, h1, k1, k2.trans h3⟩, h.query, h.mutation, h.subscription⟩

theorem Fit.typesLive {A B : AMem} {q : PSDL} {D : SchemaDef} {S : PSchema} (h : Fit A q D S) (hg : B.Globals) (hq : ∀ x ∈ q.types, B.Live x.2) :
    ∀ x ∈ S.types, B.Live x.2 := by
  intro x hx
  have hl := (mem_iff_lookup h.typesOnce x.1 x.2).1 hx
  rw [h.types] at hl
  cases hn : q.types.lookup x.1 with
  | some t =>
    rw [hn] at hl
    cases hl
    exact hq _ (lookup_mem hn)
  | none =>
    rw [hn, Option.none_or] at hl
    have hm := lookup_mem hl
    simp only [specifiedTypesP, List.mem_cons, List.not_mem_nil, or_false] at hm
    rcases hm with hm | hm
    · have : x.2 = 0 := congrArg Prod.snd hm
      rw [this]
      exact hg.id.1
    · have : x.2 = 1 := congrArg Prod.snd hm
      rw [this]
      exact hg.string.1

theorem Fit.live {A : AMem} {q : PSDL} {D : SchemaDef} {S : PSchema} (h : Fit A q D S) (hg : A.Globals) (hq : ∀ x ∈ q.types, A.Live x.2) : A.Has S := by
  refine ⟨h.typesLive hg hq, fun b hb => ?_⟩
  obtain ⟨b', h1, h2, -⟩ := h.definition
  rw [hb] at h1
  cases h1
  exact h2

theorem Fit.same {B A A' : AMem} {q : PSDL} {D : SchemaDef} {S S' : PSchema} (h : Fit A q D S) (h' : Fit A' q D S') (g : Grow B A nowhere nowhere)
    (g' : Grow B A' nowhere nowhere) (hp : ∀ x ∈ S.types, B.Live x.2) : Spec.Same (A.schema S) (A'.schema S') := by
  have ht : S.types.Perm S'.types := perm_of_lookup h.typesOnce h'.typesOnce fun n => (h.types n).trans (h'.types n).symm
  have hd : S.directives.Perm S'.directives := perm_of_lookup h.directivesOnce h'.directivesOnce fun n => (h.directives n).trans (h'.directives n).symm
  refine ⟨?_, hd, ?_, h.query.trans h'.query.symm, h.mutation.trans h'.mutation.symm, h.subscription.trans h'.subscription.symm⟩
  · show (A.vals S.types).Perm (A'.vals S'.types)
    have hv : A.vals S.types = A'.vals S.types := (vals_congr fun x hx => (g.types _ (hp x hx) id).2.trans (g'.types _ (hp x hx) id).2.symm)
    rw [hv]
    exact ht.map _
  · show S.definition.map A.sget = S'.definition.map A'.sget
    obtain ⟨b, h1, -, h3⟩ := h.definition
    obtain ⟨b', h1', -, h3'⟩ := h'.definition
    rw [h1, h1', Option.map_some, Option.map_some, h3, h3']

/-! ### The calls -/

/-- The definitions of a document in memory. -/
structure Idle (A : AMem) (q : PSDL) : Prop where
  globals : A.Globals
  new' : q.isExtending = false
  types : ∀ x ∈ q.types, A.Live x.2
  typesOnce : (q.types.map (·.1)).Nodup
  directivesOnce : (q.directives.map (·.1)).Nodup
  exts : ∀ p ∈ q.typeExts, ∀ t, q.types.lookup p.1 = some t → ∀ e ∈ p.2, A.Live e ∧ t ≠ e ∧ ¬ Spec.AddsTo (A.get t) (A.get e)
  found : ∀ p ∈ q.typeExts, q.types.lookup p.1 ≠ none
  schemas : ∀ b, q.schemaDef = some b → A.SLive b ∧ ∀ e ∈ q.schemaExts, A.SLive e ∧ b ≠ e ∧ ¬ Spec.AddsToSchema (A.sget b) (A.sget e)

theorem Idle.grow {A A' : AMem} {q : PSDL} (h : Idle A q) (g : Grow A A' nowhere nowhere) : Idle A' q ∧ theDef A' q = theDef A q := by
  refine ⟨⟨h.globals.grow g id id, h.new', fun x hx => (g.types _ (h.types x hx) id).1, h.typesOnce, h.directivesOnce, fun p hp t ht e he => ?_, h.found,
    fun b hb => ?_⟩, ?_⟩
  · obtain ⟨k1, k2, k3⟩ := h.exts p hp t ht e he
    obtain ⟨l1, l2⟩ := g.types e k1 id
    obtain ⟨-, l4⟩ := g.types t (h.types _ (lookup_mem ht)) id
    exact ⟨l1, k2, by rw [l2, l4]; exact k3⟩
  · obtain ⟨k1, k2⟩ := h.schemas b hb
    obtain ⟨l1, l2⟩ := g.schemas b k1 id
    refine ⟨l1, fun e he => ?_⟩
    obtain ⟨k3, k4, k5⟩ := k2 e he
    obtain ⟨l3, l4⟩ := g.schemas e k3 id
    exact ⟨l3, k4, by rw [l2, l4]; exact k5⟩
  · unfold theDef
    cases hb : q.schemaDef with
    | none => rfl
    | some b => rw [Option.map_some, Option.map_some, (g.schemas b (h.schemas b hb).1 id).2]

theorem rootFoldP (l : List OpTypeDef) : ∀ p : PSchema, (l.foldl setRootTypeP p).queryType = (Spec.rootOf l .query).or p.queryType ∧
    (l.foldl setRootTypeP p).mutationType = (Spec.rootOf l .mutation).or p.mutationType ∧
    (l.foldl setRootTypeP p).subscriptionType = (Spec.rootOf l .subscription).or p.subscriptionType := by
  intro p
  have hA := (setRootTypes_is ⟨[], 0, fun _ => none, fun _ => none, fun _ => none, fun _ => none, fun _ => none, fun _ => none⟩ l p).1
  refine ⟨?_, ?_, ?_⟩
  · have := congrArg Schema.queryType hA
    rw [rootFold_query] at this
    exact this
  · have := congrArg Schema.mutationType hA
    rw [rootFold_mutation] at this
    exact this
  · have := congrArg Schema.subscriptionType hA
    rw [rootFold_subscription] at this
    exact this

/-- A call of `BuildSchema` with the definitions `q`, for a schema that is new or that it has made before. -/
theorem Idle.build {A : AMem} {q : PSDL} (h : Idle A q) {m : PMem} (hm : Is m A) (ord : POrders) {sch : PSchema} {T : GMap Nat} {U : GMap DirDef}
    (hT : (T.map (·.1)).Nodup) (hU : (U.map (·.1)).Nodup)
    (ht : ∀ n, (T.lookup n).or (specifiedTypesP.lookup n) = (q.types.lookup n).or (specifiedTypesP.lookup n))
    (hu : ∀ n, (U.lookup n).or (specifiedDirectives.lookup n) = (q.directives.lookup n).or (specifiedDirectives.lookup n))
    (hq : ∀ n t, q.types.lookup n = some t → T.lookup n = some t)
    (hr : (sch.queryType = none ∧ sch.mutationType = none ∧ sch.subscriptionType = none) ∨ Fit A q (theDef A q) sch) :
    ∃ m' A' S, m.buildSchema ord sch { q with directives := U, types := T } = .ret (m', S) ∧ Is m' A' ∧ Grow A A' nowhere nowhere ∧ Fit A' q (theDef A q) S := by
  obtain ⟨m1, e1, i1⟩ : ∃ m1, m.mergeSchemaExtensions { q with directives := U, types := T } = .ret m1 ∧ Is m1 A := by
    unfold PMem.mergeSchemaExtensions
    dsimp only
    cases hb : q.schemaDef with
    | none => exact ⟨m, rfl, hm⟩
    | some b =>
      obtain ⟨k1, k2⟩ := h.schemas b hb
      exact mergeSchemaExts_idle k1 hm k2
  obtain ⟨m2, e2, i2⟩ := mergeTypeExts_idle (A := A) (sch := sch) (q := { q with directives := U, types := T }) (l := ord.exts.arrange q.typeExts) i1
    (fun p hp t hpt => by
      have hp := (ord.exts.perm _).mem_iff.1 hp
      obtain ⟨t', ht'⟩ := Option.ne_none_iff_exists'.1 (h.found p hp)
      unfold mergeTarget at hpt
      dsimp only at hpt
      rw [h.new'] at hpt
      have hpt : T.lookup p.1 = some t := hpt
      rw [hq _ _ ht'] at hpt
      cases hpt
      exact ⟨h.types _ (lookup_mem ht'), h.exts p hp _ ht'⟩)
  obtain ⟨m3, A3, b, e3, i3, g3, l3, v3⟩ : ∃ m3 A3 b, m2.buildSchemaDefinition sch { q with directives := U, types := T } =
      .ret (m3, { (theDef A q).ops.foldl setRootTypeP sch with definition := some b }) ∧ Is m3 A3 ∧ Grow A A3 nowhere nowhere ∧ A3.SLive b ∧
      A3.sget b = theDef A q := by
    have key : ∀ {m3 : PMem} {A3 : AMem} {b : Nat}, Is m3 A3 → A3.SLive b → A3.sget b = theDef A q →
        (m3.ops.items b).bind (fun ops => Out.ret (m3, { ops.foldl setRootTypeP sch with definition := some b })) =
          .ret (m3, { (theDef A q).ops.foldl setRootTypeP sch with definition := some b }) := by
      intro m3 A3 b i l v
      obtain ⟨k, hk⟩ := l.ops
      have hk' : (theDef A q).ops = k := by
        rw [← v]
        show (A3.ops b).getD [] = k
        rw [hk]
        rfl
      rw [i.ops.items hk, hk']
      rfl
    cases hb : q.schemaDef with
    | some b =>
      have hv : A.sget b = theDef A q := by unfold theDef; rw [hb]; rfl
      have hl := (h.schemas b hb).1
      refine ⟨m2, A, b, ?_, i2, .refl _ _ _, hl, hv⟩
      unfold PMem.buildSchemaDefinition
      exact key i2 hl hv
    | none =>
      obtain ⟨m3, e3, i3⟩ := allocSchemaDef_is i2 defaultSchemaDef
      obtain ⟨l1, v1⟩ := addSchemaDef_live A defaultSchemaDef
      have hv : (A.addSchemaDef defaultSchemaDef).sget A.sdefs = theDef A q := by unfold theDef; rw [hb]; exact v1
      refine ⟨m3, _, A.sdefs, ?_, i3, addSchemaDef_grow _ _ _ _, l1, hv⟩
      unfold PMem.buildSchemaDefinition
      dsimp only
      rw [e3]
      exact key i3 l1 hv
  refine ⟨m3, A3, buildTypesP ord.types (buildDirectivesP ord.dirs { (theDef A q).ops.foldl setRootTypeP sch with definition := some b }
    { q with directives := U, types := T }) { q with directives := U, types := T }, ?_, i3, g3, ?_⟩
  · unfold PMem.buildSchema
    rw [e1, Out.bind_ret, e2, Out.bind_ret, e3, Out.bind_ret]
  · have hst : (specifiedTypesP.map (·.1)).Nodup := by decide
    have hsd : (specifiedDirectives.map (·.1)).Nodup := by decide
    obtain ⟨r1, r2, r3⟩ := rootFoldP (theDef A q).ops sch
    have hroots : (Spec.rootOf (theDef A q).ops .query).or sch.queryType = Spec.rootOf (theDef A q).ops .query ∧
        (Spec.rootOf (theDef A q).ops .mutation).or sch.mutationType = Spec.rootOf (theDef A q).ops .mutation ∧
        (Spec.rootOf (theDef A q).ops .subscription).or sch.subscriptionType = Spec.rootOf (theDef A q).ops .subscription := by
      rcases hr with ⟨h1, h2, h3⟩ | hf
      · rw [h1, h2, h3, Option.or_none, Option.or_none, Option.or_none]
        exact ⟨rfl, rfl, rfl⟩
      · rw [hf.query, hf.mutation, hf.subscription, Option.or_self, Option.or_self, Option.or_self]
        exact ⟨rfl, rfl, rfl⟩
    have hx : ({ q with directives := U, types := T } : PSDL).isExtending = false := h.new'
    unfold buildTypesP buildDirectivesP
    rw [hx]
    refine ⟨addMissing_nodup _ _ hT, fun n => ?_, addMissing_nodup _ _ hU, fun n => ?_, ⟨b, rfl, l3, v3⟩, r1.trans hroots.1, r2.trans hroots.2.1,
      r3.trans hroots.2.2⟩
    · show (addMissing T (ord.types.arrange specifiedTypesP)).lookup n = _
      rw [addMissing_lookup, lookup_perm (ord.types.perm _) (((ord.types.perm _).map _).nodup_iff.2 hst), ht]
    · show (addMissing U (ord.dirs.arrange specifiedDirectives)).lookup n = _
      rw [addMissing_lookup, lookup_perm (ord.dirs.perm _) (((ord.dirs.perm _).map _).nodup_iff.2 hsd), hu]

theorem Idle.fresh {A : AMem} {q : PSDL} (h : Idle A q) {m : PMem} (hm : Is m A) (ord : POrders) :
    ∃ m' A' S, m.buildFresh ord q = .ret (m', S) ∧ Is m' A' ∧ Grow A A' nowhere nowhere ∧ Fit A' q (theDef A q) S :=
  h.build hm ord h.typesOnce h.directivesOnce (fun _ => rfl) (fun _ => rfl) (fun _ _ h => h) (.inl ⟨rfl, rfl, rfl⟩)

theorem Idle.again {A : AMem} {q : PSDL} (h : Idle A q) {m : PMem} (hm : Is m A) (ord : POrders) {S : PSchema} (hS : Fit A q (theDef A q) S) :
    ∃ m' A' S', m.buildAgain ord S q = .ret (m', S') ∧ Is m' A' ∧ Grow A A' nowhere nowhere ∧ Fit A' q (theDef A q) S' := by
  refine h.build hm ord hS.typesOnce hS.directivesOnce (fun n => ?_) (fun n => ?_) (fun n t hn => ?_) (.inr hS)
  · rw [hS.types, Option.or_assoc, Option.or_self]
  · rw [hS.directives, Option.or_assoc, Option.or_self]
  · rw [hS.types, hn]
    rfl

end GQL
