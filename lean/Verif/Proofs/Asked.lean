/-
The maps of a context, and that rules do not change them.
-/
import Verif.Proofs.OpNames
import Verif.Props.C29
import Verif.Spec.Asked

namespace GQL

theorem lookups_append {α : Type} (p : α → Bool) (a b : List α) : (a ++ b).reverse.find? p = (b.reverse.find? p).or (a.reverse.find? p) := by
  rw [List.reverse_append, List.find?_append]

theorem prepare_fragments (n : Bytes) : ∀ (l : List (Definition × Nat)) (p : Ctx × SDLContext),
    (prepare l p).1.fragments.lookup n =
      ((Spec.fragments (l.map (·.1))).reverse.find? fun f => f.name == n).or (p.1.fragments.lookup n)
  | [], p => rfl
  | (d, i) :: l, p => by
    refine (prepare_fragments n l (prepareStep p.1 p.2 (d, i))).trans ?_
    obtain ⟨loc, b⟩ := d
    have triv : (∀ f, b ≠ .frag f) → (prepareStep p.1 p.2 (⟨loc, b⟩, i)).1.fragments = p.1.fragments := by
      intro hb
      cases b <;> (unfold prepareStep; dsimp only) <;> (try exact absurd rfl (hb _)) <;> (repeat' split) <;> rfl
    have other : (∀ f, b ≠ .frag f) → Spec.fragments (((⟨loc, b⟩, i) :: l).map (·.1)) = Spec.fragments (l.map (·.1)) := by
      intro hb
      unfold Spec.fragments
      rw [List.map_cons, List.filterMap_cons]
      cases b <;> first | rfl | exact absurd rfl (hb _)
    by_cases hb : ∃ f, b = .frag f
    · obtain ⟨f, rfl⟩ := hb
      have e : Spec.fragments (((⟨loc, .frag f⟩, i) :: l).map (·.1)) = [f] ++ Spec.fragments (l.map (·.1)) := rfl
      rw [e, lookups_append, Option.or_assoc]
      congr 1
      show (mapSet p.1.fragments f.name f).lookup n = _
      rw [lookup_mapSet]
      by_cases h : n = f.name
      · subst h; simp
      · have h' : ¬ f.name = n := fun x => h x.symm
        simp [h, h']
    · have hb : ∀ f, b ≠ .frag f := fun f e => hb ⟨f, e⟩
      rw [triv hb, other hb]

theorem fragments_named (ds : List Definition) : Spec.fragments (ds.map nameAnonymous) = Spec.fragments ds :=
  filterMap_nameAnonymous _ (fun d o h => by simp [h]) ds

section
variable (doc : Document) (schema : Option Schema)

theorem sdlCtx_fragment (n : Bytes) : (newSDLContext doc schema).fragments.lookup n = Spec.lastFragment doc n := by
  show (prepare _ _).1.fragments.lookup n = _
  rw [prepare_fragments, zipIdx_fst]
  show ((Spec.fragments (doc.defs.map nameAnonymous)).reverse.find? _).or none = _
  rw [fragments_named, Option.or_none]
  rfl

/-- The fragment of a node. -/
def fragNode : ANode → List FragDef
  | .fragmentDefinition f => [f]
  | _ => []

theorem decorates_fragments (n : Bytes) : ∀ (ns : List ANode) (c : Ctx),
    (ns.foldl decorate c).fragments.lookup n = ((ns.flatMap fragNode).reverse.find? fun f => f.name == n).or (c.fragments.lookup n)
  | [], _ => rfl
  | x :: ns, c => by
    rw [List.foldl_cons, decorates_fragments n ns, List.flatMap_cons, lookups_append, Option.or_assoc]
    congr 1
    have triv : (decorate c x).fragments = c.fragments → fragNode x = [] → 
        (decorate c x).fragments.lookup n = ((fragNode x).reverse.find? fun f => f.name == n).or (c.fragments.lookup n) := by
      intro h1 h2; rw [h1, h2]; rfl
    cases x <;> try exact triv rfl rfl
    case fragmentDefinition f =>
      show (mapSet c.fragments f.name f).lookup n = _
      rw [lookup_mapSet]
      by_cases h : n = f.name
      · subst h; simp [fragNode]
      · have h' : ¬ f.name = n := fun x => h x.symm
        simp [h, h', fragNode]
    case fragmentSpreadSelection s =>
      cases s <;> try exact triv rfl rfl
      exact triv (refSteps_spec _ _ c).2.2.2.2.2.2.2.1 rfl
    case variableValue v =>
      cases v <;> try exact triv rfl rfl
      refine triv ?_ rfl
      show (if _ then c else _).fragments = _
      split <;> rfl

theorem queryCtx_fragment (n : Bytes) : (queryCtx doc schema).fragments.lookup n = Spec.lastFragment doc n := by
  rw [queryCtx, decorates_fragments, nodes_flatMap_top _ fragNode
    (fun n hn => by cases n <;> first | rfl | (simp only [ANode.kind] at hn; exact absurd hn (by decide))) (fun _ => rfl) (fun _ => rfl)]
  have e : (doc.defs.zipIdx.flatMap fun p => (topNodes p.2 p.1).flatMap fragNode) = Spec.fragments doc.defs := by
    rw [show Spec.fragments doc.defs = (doc.defs.zipIdx.map (·.1)).filterMap (fun d => match d.body with | .frag f => some f | _ => none) by
      rw [zipIdx_fst]; rfl, List.filterMap_map]
    generalize doc.defs.zipIdx = l
    induction l with
    | nil => rfl
    | cons p l ih =>
      rw [List.flatMap_cons, ih, List.filterMap_cons]
      obtain ⟨⟨loc, b⟩, i⟩ := p
      cases b with
      | op o => obtain ⟨k, _, _, _, _⟩ := o; cases k <;> rfl
      | type t => obtain ⟨_, _, k, _, _, _, _, _, _⟩ := t; cases k <;> rfl
      | typeExt t => obtain ⟨_, _, k, _, _, _, _, _, _⟩ := t; cases k <;> rfl
      | _ => rfl
  rw [e]
  exact Option.or_none

/-! ### No repetitions -/

theorem refStep_nodup (name : Bytes) (d : Definition × Nat) (c : Ctx) (h : ∀ k, (c.referencedFragments k).Nodup) :
    ∀ k, ((refStep name c d).referencedFragments k).Nodup := by
  intro k
  obtain ⟨⟨loc, b⟩, i⟩ := d
  cases b <;> try exact h k
  rename_i f
  simp only [refStep]
  split
  · by_cases hc : (c.referencedFragments c.cur).contains i
    · rw [if_pos hc]; exact h k
    · rw [if_neg hc]
      have hc' : i ∉ c.referencedFragments c.cur := fun x => hc (List.contains_iff_mem.2 x)
      unfold Ctx.referencedFragments
      rw [lookup_mapSet]
      by_cases hk : k = c.cur
      · subst hk
        simp only [beq_self_eq_true, ↓reduceIte, Option.getD_some]
        rw [List.nodup_append]
        refine ⟨h _, by simp, ?_⟩
        rintro a ha b hb rfl
        rw [List.mem_singleton] at hb
        subst hb
        exact hc' ha
      · have := h k
        unfold Ctx.referencedFragments at this
        simp [hk, this]
  · exact h k

theorem decorate_nodup (n : ANode) (c : Ctx) (h : ∀ k, (c.referencedFragments k).Nodup) (h' : ∀ k, (c.variableUsages k).Nodup) :
    (∀ k, ((decorate c n).referencedFragments k).Nodup) ∧ ∀ k, ((decorate c n).variableUsages k).Nodup := by
  cases n <;> try exact ⟨h, h'⟩
  case fragmentSpreadSelection s =>
    cases s <;> try exact ⟨h, h'⟩
    rename_i name ds
    constructor
    · show ∀ k, ((c.doc.defs.zipIdx.foldl (refStep name) c).referencedFragments k).Nodup
      generalize c.doc.defs.zipIdx = l
      clear h'
      induction l generalizing c with
      | nil => exact h
      | cons d l ih => rw [List.foldl_cons]; exact ih _ (refStep_nodup name d c h)
    · intro k
      have := (refSteps_spec name c.doc.defs.zipIdx c).2.2.1
      unfold Ctx.variableUsages
      rw [show (decorate c (.fragmentSpreadSelection (.spread name ds))).usages = c.usages from this]
      exact h' k
  case variableValue v =>
    cases v <;> try exact ⟨h, h'⟩
    rename_i name
    by_cases hc : (c.variableUsages c.cur).contains name
    · have : decorate c (.variableValue (.var name)) = c := if_pos hc
      rw [this]; exact ⟨h, h'⟩
    · have : decorate c (.variableValue (.var name)) = { c with usages := mapSet c.usages c.cur (c.variableUsages c.cur ++ [name]) } := if_neg hc
      rw [this]
      refine ⟨h, fun k => ?_⟩
      have hc' : name ∉ c.variableUsages c.cur := fun x => hc (List.contains_iff_mem.2 x)
      unfold Ctx.variableUsages
      rw [lookup_mapSet]
      by_cases hk : k = c.cur
      · subst hk
        simp only [beq_self_eq_true, ↓reduceIte, Option.getD_some]
        rw [List.nodup_append]
        refine ⟨h' _, by simp, ?_⟩
        rintro a ha b hb rfl
        rw [List.mem_singleton] at hb
        subst hb
        exact hc' ha
      · have := h' k
        unfold Ctx.variableUsages at this
        simp [hk, this]

theorem decorates_nodup : ∀ (ns : List ANode) (c : Ctx), (∀ k, (c.referencedFragments k).Nodup) → (∀ k, (c.variableUsages k).Nodup) →
    (∀ k, ((ns.foldl decorate c).referencedFragments k).Nodup) ∧ ∀ k, ((ns.foldl decorate c).variableUsages k).Nodup
  | [], _, h, h' => ⟨h, h'⟩
  | n :: ns, c, h, h' => decorates_nodup ns (decorate c n) (decorate_nodup n c h h').1 (decorate_nodup n c h h').2

theorem queryCtx_nodup : (∀ k, ((queryCtx doc schema).referencedFragments k).Nodup) ∧ ∀ k, ((queryCtx doc schema).variableUsages k).Nodup :=
  decorates_nodup _ _ (fun _ => List.nodup_nil) (fun _ => List.nodup_nil)

/-! ### During the walk -/

theorem base_afterAll : ∀ (rs : List Rule) (c : Ctx) (e : Event), (afterAll rs c e).base = c.base
  | [], _, _ => rfl
  | r :: rs, c, e => (base_afterAll rs (r.after c e) e).trans (r.base_after c e)

theorem base_during (rs : List Rule) : ∀ (es : List Event) (c : Ctx), (∀ r ∈ rs, r.ready c) →
    ∃ c', es.foldl (fun o e => Walker.on (rulesWalker rs) e o) (.ret c) = .ret c' ∧ c'.base = c.base
  | [], c, _ => ⟨c, rfl, rfl⟩
  | e :: es, c, h => by
    rw [List.foldl_cons, on_rules rs c e h]
    obtain ⟨c', h1, h2⟩ := base_during rs es (afterAll rs c e) fun r hr => (Rule.ready_congr (base_afterAll rs c e)).2 (h r hr)
    exact ⟨c', h1, h2.trans (base_afterAll rs c e)⟩

end

end GQL
