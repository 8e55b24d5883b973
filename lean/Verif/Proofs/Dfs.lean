/-
The two recursive searches over the fragment graph (validation/context.go:147-207) as instances of one depth-first search, and what
that search computes.
-/
import Verif.Model.Context

namespace GQL

/-- The common shape of `recursiveVariableUsagesIter` and `recursivelyReferencedFragmentsIter`. -/
def dfs {α : Type} (succ : Option Nat → List Nat) (start : Option Nat → List α → List α) (edge : Nat → List α → List α) :
    Nat → Option Nat → List α × List (Option Nat) → Out (List α × List (Option Nat))
  | 0, _, _ => .oof
  | fuel + 1, d, p =>
    (succ d).foldl
      (fun acc rd => acc.bind fun q =>
        if q.2.contains (some rd) then .ret (edge rd q.1, q.2)
        else dfs succ start edge fuel (some rd) (edge rd q.1, setAdd q.2 (some rd)))
      (.ret (start d p.1, p.2))

theorem usagesIter_dfs (c : Ctx) : ∀ fuel d p, c.variableUsagesIter fuel d p =
    dfs c.referencedFragments (fun d a => (c.variableUsages d).foldl setAdd a) (fun _ a => a) fuel d p
  | 0, _, _ => rfl
  | fuel + 1, d, p => by
    unfold Ctx.variableUsagesIter dfs
    simp only [usagesIter_dfs c fuel]

theorem refsIter_dfs (c : Ctx) : ∀ fuel d p, c.referencedFragmentsIter fuel d p =
    dfs c.referencedFragments (fun _ a => a) (fun rd a => setAdd a rd) fuel d p
  | 0, _, _ => rfl
  | fuel + 1, d, p => by
    unfold Ctx.referencedFragmentsIter dfs
    simp only [refsIter_dfs c fuel]

theorem mem_setAdd {α : Type} [BEq α] [LawfulBEq α] {s : List α} {x y : α} : x ∈ setAdd s y ↔ x ∈ s ∨ x = y := by
  unfold setAdd
  split
  · rename_i h
    have := List.contains_iff_mem.1 h
    constructor
    · exact .inl
    · rintro (h | rfl)
      · exact h
      · exact this
  · simp

theorem mem_foldl_setAdd {α : Type} [BEq α] [LawfulBEq α] (l : List α) : ∀ (s : List α) (x : α), x ∈ l.foldl setAdd s ↔ x ∈ s ∨ x ∈ l := by
  induction l with
  | nil => simp
  | cons a l ih => intro s x; rw [List.foldl_cons, ih, mem_setAdd, List.mem_cons, or_assoc]

/-- Reachable by one or more steps. -/
inductive Reachable (succ : Option Nat → List Nat) : Option Nat → Nat → Prop
  | one {d j} : j ∈ succ d → Reachable succ d j
  | more {d k j} : k ∈ succ d → Reachable succ (some k) j → Reachable succ d j

theorem Reachable.tail {succ : Option Nat → List Nat} {d : Option Nat} {k j : Nat} (h : Reachable succ d k) (hj : j ∈ succ (some k)) : Reachable succ d j := by
  induction h with
  | one h => exact .more h (.one hj)
  | more h _ ih => exact .more h (ih hj)

theorem Reachable.trans {succ : Option Nat → List Nat} {d : Option Nat} {k j : Nat} (h : Reachable succ d k) (hj : Reachable succ (some k) j) : Reachable succ d j := by
  induction h with
  | one h => exact .more h hj
  | more h _ ih => exact .more h (ih hj)

/-- The number of definitions that have not been seen. -/
def unseen (N : Nat) (seen : List (Option Nat)) : Nat := ((List.range N).filter fun j => !seen.contains (some j)).length

theorem length_filter_le_of_imp {α : Type} {p q : α → Bool} : ∀ {l : List α}, (∀ x ∈ l, p x → q x) → (l.filter p).length ≤ (l.filter q).length
  | [], _ => by simp
  | a :: l, h => by
    have := length_filter_le_of_imp (l := l) fun x hx => h x (by simp [hx])
    have h1 := h a (by simp)
    simp only [List.filter_cons]
    cases hp : p a <;> cases hq : q a <;> simp_all
    omega

theorem unseen_mono {N : Nat} {s s' : List (Option Nat)} (h : ∀ x ∈ s, x ∈ s') : unseen N s' ≤ unseen N s := by
  refine length_filter_le_of_imp fun x _ hx => ?_
  simp only [Bool.not_eq_true', List.contains_eq_mem, decide_eq_false_iff_not] at hx ⊢
  exact fun hm => hx (h _ hm)

theorem length_filter_lt_of_imp {α : Type} {p q : α → Bool} {a : α} : ∀ {l : List α}, (∀ x ∈ l, p x → q x) → a ∈ l → p a = false → q a = true →
    (l.filter p).length < (l.filter q).length
  | [], _, ha, _, _ => by cases ha
  | b :: l, h, ha, h1, h2 => by
    rcases List.mem_cons.1 ha with rfl | ha
    · have := length_filter_le_of_imp (l := l) fun x hx => h x (by simp [hx])
      simp only [List.filter_cons, h1, h2]
      simp
      omega
    · have := length_filter_lt_of_imp (l := l) (fun x hx => h x (by simp [hx])) ha h1 h2
      have hb := h b (by simp)
      simp only [List.filter_cons]
      cases hp : p b <;> cases hq : q b <;> simp_all
      omega

theorem unseen_add {N : Nat} {s : List (Option Nat)} {j : Nat} (hj : j < N) (hs : some j ∉ s) :
    unseen N (setAdd s (some j)) < unseen N s := by
  refine length_filter_lt_of_imp (a := j) (fun x _ hx => ?_) (List.mem_range.2 hj) ?_ ?_
  · simp only [Bool.not_eq_true', List.contains_eq_mem, decide_eq_false_iff_not, mem_setAdd] at hx ⊢
    exact fun hm => hx (.inl hm)
  · simp [mem_setAdd]
  · simpa using hs

variable {α : Type} {succ : Option Nat → List Nat} {start : Option Nat → List α → List α} {edge : Nat → List α → List α}
  {S : Option Nat → α → Prop} {E : Nat → α → Prop} {N : Nat}

/-- What a search from the successors `L` adds to `p`: `new` says which definitions are new. -/
structure DfsPost (succ : Option Nat → List Nat) (S : Option Nat → α → Prop) (E : Nat → α → Prop)
    (L : List Nat) (own : α → Prop) (p p' : List α × List (Option Nat)) : Prop where
  grows : ∀ x ∈ p.2, x ∈ p'.2
  marked : ∀ j ∈ L, some j ∈ p'.2
  reach : ∀ x ∈ p'.2, x ∈ p.2 ∨ ∃ j, x = some j ∧ (j ∈ L ∨ ∃ k ∈ L, Reachable succ (some k) j)
  closed : ∀ x ∈ p'.2, x ∉ p.2 → ∀ k ∈ succ x, some k ∈ p'.2
  agg : ∀ a, a ∈ p'.1 ↔ a ∈ p.1 ∨ own a ∨ (∃ j ∈ L, E j a) ∨ ∃ x ∈ p'.2, x ∉ p.2 ∧ (S x a ∨ ∃ k ∈ succ x, E k a)

theorem dfs_spec (hsucc : ∀ d, ∀ j ∈ succ d, j < N) (hstart : ∀ d a x, x ∈ start d a ↔ x ∈ a ∨ S d x)
    (hedge : ∀ j a x, x ∈ edge j a ↔ x ∈ a ∨ E j x) : ∀ fuel d p, unseen N p.2 < fuel →
    ∃ p', dfs succ start edge fuel d p = .ret p' ∧ DfsPost succ S E (succ d) (S d) p p' := by
  intro fuel
  induction fuel with
  | zero => intro d p h; omega
  | succ fuel ih =>
    intro d p hf
    have loop : ∀ (L : List Nat) (q : List α × List (Option Nat)), (∀ j ∈ L, j < N) → unseen N q.2 < fuel + 1 →
        ∃ q', L.foldl (fun (acc : Out (List α × List (Option Nat))) rd => acc.bind fun q =>
          if q.2.contains (some rd) then .ret (edge rd q.1, q.2)
          else dfs succ start edge fuel (some rd) (edge rd q.1, setAdd q.2 (some rd))) (.ret q) = .ret q' ∧
          DfsPost succ S E L (fun _ => False) q q' := by
      intro L
      induction L with
      | nil =>
        intro q _ _
        refine ⟨q, rfl, ⟨fun _ h => h, by simp, fun x h => .inl h, fun x h h' => absurd h h', fun a => ?_⟩⟩
        constructor
        · exact .inl
        · rintro (h | h | ⟨j, hj, _⟩ | ⟨x, hx, hx', _⟩)
          · exact h
          · exact h.elim
          · cases hj
          · exact absurd hx hx'
      | cons j L ihL =>
        intro q hL hq
        have hj : j < N := hL j (by simp)
        have hL' : ∀ k ∈ L, k < N := fun k hk => hL k (by simp [hk])
        rw [List.foldl_cons]
        show ∃ q', L.foldl _ (if q.2.contains (some j) then _ else _) = _ ∧ _
        by_cases hc : some j ∈ q.2
        · rw [if_pos (by simpa using hc)]
          obtain ⟨q', he, hp⟩ := ihL (edge j q.1, q.2) hL' hq
          refine ⟨q', he, ⟨hp.grows, ?_, ?_, hp.closed, fun a => ?_⟩⟩
          · intro k hk
            rcases List.mem_cons.1 hk with rfl | hk
            · exact hp.grows _ hc
            · exact hp.marked k hk
          · intro x hx
            rcases hp.reach x hx with h | ⟨k, e, h⟩
            · exact .inl h
            · refine .inr ⟨k, e, ?_⟩
              rcases h with h | ⟨m, h, h'⟩
              · exact .inl (by simp [h])
              · exact .inr ⟨m, by simp [h], h'⟩
          · rw [hp.agg a]
            dsimp only
            rw [hedge]
            constructor
            · rintro ((h | h) | h | ⟨k, h, h'⟩ | h)
              · exact .inl h
              · exact .inr (.inr (.inl ⟨j, by simp, h⟩))
              · exact h.elim
              · exact .inr (.inr (.inl ⟨k, by simp [h], h'⟩))
              · exact .inr (.inr (.inr h))
            · rintro (h | h | ⟨k, h, h'⟩ | h)
              · exact .inl (.inl h)
              · exact h.elim
              · rcases List.mem_cons.1 h with rfl | h
                · exact .inl (.inr h')
                · exact .inr (.inr (.inl ⟨k, h, h'⟩))
              · exact .inr (.inr (.inr h))
        · rw [if_neg (by simpa using hc)]
          have hu := unseen_add hj hc
          obtain ⟨r, hr, hpr⟩ := ih (some j) (edge j q.1, setAdd q.2 (some j)) (by dsimp only; omega)
          have hrs : ∀ x ∈ q.2, x ∈ r.2 := fun x hx => hpr.grows x (mem_setAdd.2 (.inl hx))
          have hjr : some j ∈ r.2 := hpr.grows _ (mem_setAdd.2 (.inr rfl))
          obtain ⟨q', he, hp⟩ := ihL r hL' (Nat.lt_of_le_of_lt (unseen_mono hrs) hq)
          refine ⟨q', by rw [hr]; exact he, ⟨fun x hx => hp.grows x (hrs x hx), ?_, ?_, ?_, fun a => ?_⟩⟩
          · intro k hk
            rcases List.mem_cons.1 hk with rfl | hk
            · exact hp.grows _ hjr
            · exact hp.marked k hk
          · intro x hx
            rcases hp.reach x hx with h | ⟨k, e, h⟩
            · rcases hpr.reach x h with h | ⟨k, e, h⟩
              · rcases mem_setAdd.1 h with h | h
                · exact .inl h
                · exact .inr ⟨j, h, .inl (by simp)⟩
              · refine .inr ⟨k, e, .inr ⟨j, by simp, ?_⟩⟩
                rcases h with h | ⟨m, h, h'⟩
                · exact .one h
                · exact .more h h'
            · refine .inr ⟨k, e, ?_⟩
              rcases h with h | ⟨m, h, h'⟩
              · exact .inl (by simp [h])
              · exact .inr ⟨m, by simp [h], h'⟩
          · intro x hx hn k hk
            by_cases hxr : x ∈ r.2
            · by_cases hxj : x = some j
              · subst hxj; exact hp.grows _ (hpr.marked k hk)
              · exact hp.grows _ (hpr.closed x hxr (fun h => (mem_setAdd.1 h).elim hn hxj) k hk)
            · exact hp.closed x hx hxr k hk
          · rw [hp.agg a, hpr.agg a]
            dsimp only
            rw [hedge]
            constructor
            · rintro (((h | h) | h | ⟨k, h, h'⟩ | ⟨x, h1, h2, h3⟩) | h | ⟨k, h, h'⟩ | ⟨x, h1, h2, h3⟩)
              · exact .inl h
              · exact .inr (.inr (.inl ⟨j, by simp, h⟩))
              · exact .inr (.inr (.inr ⟨some j, hp.grows _ hjr, hc, .inl h⟩))
              · exact .inr (.inr (.inr ⟨some j, hp.grows _ hjr, hc, .inr ⟨k, h, h'⟩⟩))
              · exact .inr (.inr (.inr ⟨x, hp.grows _ h1, fun h => h2 (mem_setAdd.2 (.inl h)), h3⟩))
              · exact h.elim
              · exact .inr (.inr (.inl ⟨k, by simp [h], h'⟩))
              · exact .inr (.inr (.inr ⟨x, h1, fun h => h2 (hrs x h), h3⟩))
            · rintro (h | h | ⟨k, h, h'⟩ | ⟨x, h1, h2, h3⟩)
              · exact .inl (.inl (.inl h))
              · exact h.elim
              · rcases List.mem_cons.1 h with rfl | h
                · exact .inl (.inl (.inr h'))
                · exact .inr (.inr (.inl ⟨k, h, h'⟩))
              · by_cases hxr : x ∈ r.2
                · by_cases hxj : x = some j
                  · subst hxj
                    rcases h3 with h3 | h3
                    · exact .inl (.inr (.inl h3))
                    · exact .inl (.inr (.inr (.inl h3)))
                  · exact .inl (.inr (.inr (.inr ⟨x, hxr, fun h => (mem_setAdd.1 h).elim h2 hxj, h3⟩)))
                · exact .inr (.inr (.inr ⟨x, h1, hxr, h3⟩))
    obtain ⟨p', he, hp⟩ := loop (succ d) (start d p.1, p.2) (hsucc d) hf
    refine ⟨p', he, ⟨hp.grows, hp.marked, hp.reach, hp.closed, fun a => ?_⟩⟩
    rw [hp.agg a]
    dsimp only
    rw [hstart]
    constructor
    · rintro ((h | h) | h | h)
      · exact .inl h
      · exact .inr (.inl h)
      · exact h.elim
      · exact .inr (.inr h)
    · rintro (h | h | h)
      · exact .inl (.inl h)
      · exact .inl (.inr h)
      · exact .inr (.inr h)

/-- A search from the beginning collects exactly what belongs to the start and to the definitions reachable from it. -/
theorem dfs_top (hsucc : ∀ d, ∀ j ∈ succ d, j < N) (hstart : ∀ d a x, x ∈ start d a ↔ x ∈ a ∨ S d x)
    (hedge : ∀ j a x, x ∈ edge j a ↔ x ∈ a ∨ E j x) {fuel : Nat} (hf : N < fuel) (d : Option Nat) :
    ∃ p', dfs succ start edge fuel d ([], []) = .ret p' ∧
      ∀ a, a ∈ p'.1 ↔ S d a ∨ ∃ j, Reachable succ d j ∧ (S (some j) a ∨ E j a) := by
  have h0 : unseen N [] < fuel := by
    refine Nat.lt_of_le_of_lt (List.length_filter_le _ _) ?_
    simpa using hf
  obtain ⟨p', he, hp⟩ := dfs_spec hsucc hstart hedge fuel d ([], []) h0
  have hr : ∀ j, some j ∈ p'.2 ↔ Reachable succ d j := by
    intro j
    constructor
    · intro h
      rcases hp.reach _ h with h | ⟨k, e, h⟩
      · cases h
      · cases e
        rcases h with h | ⟨m, h, h'⟩
        · exact .one h
        · exact .more h h'
    · have gen : ∀ {d' j}, Reachable succ d' j → (∀ k ∈ succ d', some k ∈ p'.2) → some j ∈ p'.2 := by
        intro d' j h
        induction h with
        | one h => exact fun hk => hk _ h
        | more h _ ih => exact fun hk => ih (hp.closed _ (hk _ h) (by simp))
      exact fun h => gen h hp.marked
  refine ⟨p', he, fun a => ?_⟩
  rw [hp.agg a]
  constructor
  · rintro (h | h | ⟨j, h, h'⟩ | ⟨x, h1, _, h3⟩)
    · cases h
    · exact .inl h
    · exact .inr ⟨j, .one h, .inr h'⟩
    · rcases hp.reach x h1 with h | ⟨j, rfl, _⟩
      · cases h
      · rcases h3 with h3 | ⟨k, hk, h3⟩
        · exact .inr ⟨j, (hr j).1 h1, .inl h3⟩
        · exact .inr ⟨k, ((hr j).1 h1).tail hk, .inr h3⟩
  · rintro (h | ⟨j, h, h' | h'⟩)
    · exact .inr (.inl h)
    · exact .inr (.inr (.inr ⟨some j, (hr j).2 h, by simp, .inl h'⟩))
    · have gen : ∀ {d' j}, Reachable succ d' j → j ∈ succ d' ∨ ∃ k, Reachable succ d' k ∧ j ∈ succ (some k) := by
        intro d' j h
        induction h with
        | one h => exact .inl h
        | more h _ ih =>
          rcases ih with ih | ⟨m, h1, h2⟩
          · exact .inr ⟨_, .one h, ih⟩
          · exact .inr ⟨m, .more h h1, h2⟩
      rcases gen h with g | ⟨k, g1, g2⟩
      · exact .inr (.inr (.inl ⟨j, g, h'⟩))
      · exact .inr (.inr (.inr ⟨some k, (hr k).2 g1, by simp, .inr ⟨j, g2, h'⟩⟩))

/-- `RecursiveVariableUsages` returns, with what the definition and the fragments reachable from it use. -/
theorem recursiveVariableUsages_spec (c : Ctx) {N : Nat} (h : ∀ d, ∀ j ∈ c.referencedFragments d, j < N) {fuel : Nat} (hf : N < fuel) (d : Option Nat) :
    ∃ u, c.recursiveVariableUsages fuel d = .ret u ∧
      ∀ x, x ∈ u ↔ x ∈ c.variableUsages d ∨ ∃ j, Reachable c.referencedFragments d j ∧ x ∈ c.variableUsages (some j) := by
  obtain ⟨p, he, hp⟩ := dfs_top (succ := c.referencedFragments) (start := fun d a => (c.variableUsages d).foldl setAdd a) (edge := fun _ a => a)
    (S := fun d x => x ∈ c.variableUsages d) (E := fun _ _ => False) h (fun d a x => mem_foldl_setAdd _ _ _) (fun _ _ _ => by simp) hf d
  refine ⟨p.1, ?_, fun x => by simpa using hp x⟩
  unfold Ctx.recursiveVariableUsages
  rw [usagesIter_dfs, he]
  rfl

/-- `RecursivelyReferencedFragments` returns the fragments reachable from the definition. -/
theorem recursivelyReferencedFragments_spec (c : Ctx) {N : Nat} (h : ∀ d, ∀ j ∈ c.referencedFragments d, j < N) {fuel : Nat} (hf : N < fuel) (d : Option Nat) :
    ∃ u, c.recursivelyReferencedFragments fuel d = .ret u ∧ ∀ j, j ∈ u ↔ Reachable c.referencedFragments d j := by
  unfold Ctx.recursivelyReferencedFragments
  split
  · rename_i h0
    refine ⟨[], rfl, fun j => ?_⟩
    have : c.referencedFragments d = [] := List.length_eq_zero_iff.1 h0
    constructor
    · simp
    · intro hr
      cases hr with
      | one hk => rw [this] at hk; cases hk
      | more hk _ => rw [this] at hk; cases hk
  · obtain ⟨p, he, hp⟩ := dfs_top (succ := c.referencedFragments) (start := fun _ a => a) (edge := fun rd a => setAdd a rd)
      (S := fun _ _ => False) (E := fun j x => x = j) h (fun _ _ _ => by simp) (fun j a x => mem_setAdd) hf d
    refine ⟨p.1, ?_, fun j => ?_⟩
    · rw [refsIter_dfs, he]; rfl
    · rw [hp j]; simp

end GQL
