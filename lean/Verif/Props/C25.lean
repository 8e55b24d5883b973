/-
C25 linked lists behave like sequences, C26 list operations leave other lists alone, C27 generators.
-/
import Verif.Proofs.HeapLists
import Verif.Spec.Lists

namespace GQL
open Spec (Cmd Vars GenCall)
section
variable {α : Type}

/-- A statement executed by the code of ast/lists.go. -/
def execCmd (m : Mem α) : Cmd α → Out (Mem α)
  | .add x d => (Heap.add m.heap (m.vars x) d).bind fun r => .ret ⟨r.1, setPtr m.vars x r.2⟩
  | .reverse x => (Heap.reverse m.heap (m.vars x)).bind fun r => .ret ⟨r.1, setPtr m.vars x r.2⟩
  | .join x y => (Heap.join m.heap (m.vars x) (m.vars y)).bind fun h => .ret ⟨h, m.vars⟩
  | .insert x d pos => (Heap.insert m.heap (m.vars x) d pos).bind fun r => .ret ⟨r.1, setPtr m.vars x r.2⟩
  | .fromSlice x ds => (Heap.fromSlice m.heap ds).bind fun r => .ret ⟨r.1, setPtr m.vars x r.2⟩

/-- A program. -/
def execAll (m : Mem α) : List (Cmd α) → Out (Mem α)
  | [] => .ret m
  | c :: cs => (execCmd m c).bind fun m' => execAll m' cs

/-- Every live variable represents its sequence, and no two of them share a node. -/
def Rep (m : Mem α) (s : Vars α) : Prop :=
  ∃ N : Nat → List Nat, (∀ x l, s x = some l → IsList m.heap (m.vars x) l (N x)) ∧
    ∀ x y, x ≠ y → (s x).isSome → (s y).isSome → ∀ a ∈ N x, a ∉ N y

/-- One variable changes, the nodes of the others stay. -/
theorem Rep.update {m : Mem α} {s : Vars α} {N : Nat → List Nat} {x : Nat} {h' : Heap α} {p' : Ptr} {l' : List α} {ns' : List Nat}
    (h1 : ∀ x l, s x = some l → IsList m.heap (m.vars x) l (N x))
    (h2 : ∀ x y, x ≠ y → (s x).isSome → (s y).isSome → ∀ a ∈ N x, a ∉ N y)
    (hl : IsList h' p' l' ns')
    (hfr : ∀ y, y ≠ x → (s y).isSome → ∀ a ∈ N y, a < m.heap.length → h'[a]? = m.heap[a]?)
    (hns : ∀ y, y ≠ x → (s y).isSome → ∀ a ∈ N y, a < m.heap.length → a ∉ ns') :
    Rep ⟨h', setPtr m.vars x p'⟩ (s.set x (some l')) := by
  have hlt : ∀ y, (s y).isSome → ∀ a ∈ N y, a < m.heap.length := by
    intro y hy a ha
    obtain ⟨l, e⟩ := Option.isSome_iff_exists.1 hy
    exact (h1 y l e).1.bound a ha
  refine ⟨fun y => if y = x then ns' else N y, ?_, ?_⟩
  · intro y l hy
    simp only [Spec.Vars.set] at hy
    simp only [setPtr]
    by_cases e : y = x
    · simp only [e, ↓reduceIte] at hy ⊢
      cases hy; exact hl
    · simp only [e, ↓reduceIte] at hy ⊢
      exact (h1 y l hy).congr fun a ha => hfr y e (by simp [hy]) a ha (hlt y (by simp [hy]) a ha)
  · intro y z hyz hy hz a ha
    simp only [Spec.Vars.set] at hy hz
    by_cases e : y = x
    · have e' : z ≠ x := fun e' => hyz (e.trans e'.symm)
      simp only [e, e', ↓reduceIte] at hy hz ha ⊢
      exact fun hm => hns z e' hz a hm (hlt z hz a hm) ha
    · by_cases e' : z = x
      · simp only [e, e', ↓reduceIte] at hy hz ha ⊢
        exact hns y e hy a ha (hlt y hy a ha)
      · simp only [e, e', ↓reduceIte] at hy hz ha ⊢
        exact h2 y z hyz hy hz a ha

theorem clamp_cases (l : List α) (pos : Int) : (l.length ≤ pos ∨ l = [] ∧ Spec.insertAt l = fun d _ => [d]) ∨
    (pos < l.length ∧ ∃ k : Nat, (if pos < 0 then 0 else pos) = (k : Int) ∧ k < l.length ∧ min pos.toNat l.length = k) := by
  by_cases h1 : (l.length : Int) ≤ pos
  · exact .inl (.inl h1)
  · rcases l with _ | ⟨d, l⟩
    · refine .inl (.inr ⟨rfl, ?_⟩)
      funext d p
      simp [Spec.insertAt]
    · refine .inr ⟨by omega, pos.toNat, ?_, ?_, ?_⟩
      · split <;> omega
      · simp at h1 ⊢; omega
      · simp at h1 ⊢; omega

theorem exec_step {m : Mem α} {s s' : Vars α} {c : Cmd α} (hr : Rep m s) (hs : Spec.step s c = some s')
    (hj : ∀ x y, c = .join x y → s x ≠ some []) : ∃ m', execCmd m c = .ret m' ∧ Rep m' s' := by
  obtain ⟨N, h1, h2⟩ := hr
  have hsome : ∀ {x l}, s x = some l → (s x).isSome := fun e => by simp [e]
  rcases c with ⟨x, d⟩ | x | ⟨x, y⟩ | ⟨x, d, pos⟩ | ⟨x, ds⟩ <;> simp only [Spec.step] at hs
  · simp only [Option.map_eq_some_iff] at hs
    obtain ⟨l, e, rfl⟩ := hs
    obtain ⟨ha, hl⟩ := (h1 x l e).add d
    refine ⟨_, by simp only [execCmd, ha, Out.bind], Rep.update h1 h2 hl ?_ ?_⟩
    · intro y _ _ a _ hlt; exact List.getElem?_append_left hlt
    · intro y hyx hy a hm hlt hc
      rcases List.mem_cons.1 hc with rfl | hc
      · omega
      · exact h2 y x hyx hy (hsome e) a hm hc
  · simp only [Option.map_eq_some_iff] at hs
    obtain ⟨l, e, rfl⟩ := hs
    obtain ⟨h', p', ha, hl, hfr, hlen⟩ := (h1 x l e).reverse
    refine ⟨_, by simp only [execCmd, ha, Out.bind], Rep.update h1 h2 hl ?_ ?_⟩
    · intro y hyx hy a hm _; exact hfr a (h2 y x hyx hy (hsome e) a hm)
    · intro y hyx hy a hm _ hc; exact h2 y x hyx hy (hsome e) a hm (by simpa using hc)
  · rcases e : s x with _ | l <;> rcases e' : s y with _ | l' <;> simp only [e, e'] at hs
    · cases hs
    · cases hs
    · cases hs
    split at hs
    · cases hs
    rename_i hxy
    obtain rfl := Option.some.inj hs
    obtain ⟨h', ha, hl, hfr, hlen⟩ := (h1 x l e).join (h1 y l' e') (by intro e2; exact hj x y rfl (by rw [e, e2]))
      (List.nodup_append.2 ⟨(h1 x l e).2.2, (h1 y l' e').2.2, fun a hx b hb hab =>
        h2 x y hxy (hsome e) (hsome e') a hx (hab ▸ hb)⟩)
    refine ⟨⟨h', m.vars⟩, by simp only [execCmd, ha, Out.bind], fun z => if z = x then N x ++ N y else N z, ?_, ?_⟩
    · intro z lz hz
      simp only [Spec.Vars.set] at hz
      split at hz
      · cases hz
      rename_i hzy
      by_cases ex : z = x
      · subst ex
        simp only [↓reduceIte, Option.some.injEq] at hz ⊢
        subst hz; exact hl
      · simp only [ex, ↓reduceIte] at hz ⊢
        exact (h1 z lz hz).congr fun a hm => hfr a (h2 z x ex (hsome hz) (hsome e) a hm)
    · intro u v huv hu hv a hm
      simp only [Spec.Vars.set] at hu hv
      split at hu
      · cases hu
      split at hv
      · cases hv
      rename_i huy hvy
      by_cases eu : u = x
      · have ev : v ≠ x := fun ev => huv (eu.trans ev.symm)
        simp only [eu, ev, ↓reduceIte] at hm hv ⊢
        rcases List.mem_append.1 hm with hm | hm
        · exact h2 x v (fun h => ev h.symm) (hsome e) hv a hm
        · exact h2 y v (fun h => hvy h.symm) (hsome e') hv a hm
      · by_cases ev : v = x
        · simp only [eu, ev, ↓reduceIte] at hm hu ⊢
          intro hc
          rcases List.mem_append.1 hc with hc | hc
          · exact h2 u x eu hu (hsome e) a hm hc
          · exact h2 u y huy hu (hsome e') a hm hc
        · simp only [eu, ev, ↓reduceIte] at hm hu hv ⊢
          exact h2 u v huv hu hv a hm
  · simp only [Option.map_eq_some_iff] at hs
    obtain ⟨l, e, rfl⟩ := hs
    have htop : (l.length ≤ pos ∨ l = []) → Spec.insertAt l d pos = d :: l →
        ∃ m', execCmd m (.insert x d pos) = .ret m' ∧ Rep m' (s.set x (some (Spec.insertAt l d pos))) := by
      intro hk hi
      obtain ⟨h', ha, hl, hfr, hlen⟩ := (h1 x l e).insert_top d hk
      rw [hi]
      refine ⟨_, by simp only [execCmd, ha, Out.bind], Rep.update h1 h2 hl ?_ ?_⟩
      · intro y _ _ a _ hlt; exact hfr a hlt
      · intro y hyx hy a hm hlt hc
        rcases List.mem_cons.1 hc with rfl | hc
        · omega
        · exact h2 y x hyx hy (hsome e) a hm hc
    rcases clamp_cases l pos with (hk | ⟨hk, hi⟩) | ⟨hk, k, hk1, hk2, hk3⟩
    · refine htop (.inl hk) ?_
      have : min pos.toNat l.length = l.length := by omega
      simp [Spec.insertAt, this]
    · refine htop (.inr hk) ?_
      rw [hi, hk]
    · obtain ⟨h', ns', ha, hl, hmem, hfr, hlen⟩ := (h1 x l e).insert_mid d hk1 hk hk2
      rw [show Spec.insertAt l d pos = l.take (l.length - k) ++ d :: l.drop (l.length - k) by simp [Spec.insertAt, hk3]]
      refine ⟨_, by simp only [execCmd, ha, Out.bind], Rep.update h1 h2 hl ?_ ?_⟩
      · intro y hyx hy a hm hlt
        exact hfr a (h2 y x hyx hy (hsome e) a hm) (by omega)
      · intro y hyx hy a hm hlt hc
        rcases (hmem a).1 hc with hc | hc
        · exact h2 y x hyx hy (hsome e) a hm hc
        · omega
  · obtain rfl := Option.some.inj hs
    obtain ⟨h', p', ns', ha, hl, hns, hfr, hlen⟩ := fromSlice_eq m.heap ds
    refine ⟨_, by simp only [execCmd, ha, Out.bind], Rep.update h1 h2 hl ?_ ?_⟩
    · intro y _ _ a _ hlt; exact hfr a hlt
    · intro y _ _ a _ hlt hc
      have := hns a hc
      omega

theorem exec_run : ∀ {cs : List (Cmd α)} {m : Mem α} {s s' : Vars α}, Rep m s → Spec.run s cs = some s' → Spec.noEmptyJoin s cs →
    ∃ m', execAll m cs = .ret m' ∧ Rep m' s'
  | [], m, s, s', hr, hs, _ => by
    cases Option.some.inj hs
    exact ⟨m, rfl, hr⟩
  | c :: cs, m, s, s', hr, hs, hj => by
    simp only [Spec.run, Option.bind_eq_some_iff] at hs
    obtain ⟨s1, e1, hs⟩ := hs
    obtain ⟨m1, hm1, hr1⟩ := exec_step hr e1 hj.1
    obtain ⟨m2, hm2, hr2⟩ := exec_run hr1 hs (hj.2 s1 e1)
    exact ⟨m2, by simp only [execAll, hm1, Out.bind, hm2], hr2⟩

theorem Rep.init : Rep (α := α) Mem.init (fun _ => some []) := by
  refine ⟨fun _ => [], ?_, ?_⟩
  · intro x l hl
    cases Option.some.inj hl
    exact IsList.nil _
  · intro x y _ _ _ a ha
    simp at ha

/-- **C25** (all histories without a Join on an empty receiver; see `C25_refuted`): any program that starts with empty lists, uses
no list given away to Join and does not join to an empty list runs without panic and, for every list it still owns, Len returns the length
of the specified sequence and ForEach visits exactly its items, first to last, with the indices 0, 1, 2, ... -/
theorem C25_histories_partial (cs : List (Cmd α)) (s : Vars α)
    (hs : Spec.run (fun _ => some []) cs = some s) (hj : Spec.noEmptyJoin (fun _ => some []) cs) :
    ∃ m, execAll Mem.init cs = .ret m ∧ ∀ x l, s x = some l →
      Heap.len m.heap (m.vars x) = .ret l.length ∧ Heap.forEach m.heap (m.vars x) = .ret l.zipIdx := by
  obtain ⟨m, hm, N, h1, _⟩ := exec_run Rep.init hs hj
  refine ⟨m, hm, fun x l hx => ⟨(h1 x l hx).len, ?_⟩⟩
  rw [(h1 x l hx).forEach]
  congr 1
  have : ∀ (l : List α) i, numbered i l = l.zipIdx i := by
    intro l
    induction l with
    | nil => intro i; rfl
    | cons d l ih => intro i; simp [numbered, ih]
  exact this l 0

/-- A program that uses every operation: the hypotheses of `C25_histories_partial` hold, and this is what it computes. -/
example : ∃ s, Spec.run (fun _ => some []) [.add 0 1, .add 0 2, .reverse 0, .fromSlice 1 [7, 8, 9], .insert 1 5 1, .insert 1 6 (-3),
      .join 0 1, .insert 0 4 100] = some s ∧ s 0 = some [4, 1, 2, 7, 8, 5, 9, 6] ∧ s 1 = none := ⟨_, rfl, rfl, rfl⟩

example : Spec.noEmptyJoin (fun _ => some []) [.add 0 1, .fromSlice 1 [7, 8], .join 0 1] := by
  refine ⟨(by intro x y h; cases h), fun s1 h1 => ⟨(by intro x y h; cases h), fun s2 h2 => ⟨?_, fun _ _ => trivial⟩⟩⟩
  intro x y h
  cases h
  cases Option.some.inj h1
  cases Option.some.inj h2
  intro h
  cases h

/-- **C25 is false in general**: joining a list to an empty list loses it: the program `x = nil; y = nil; y = y.Add(1); x.Join(y)` should
leave `x = [1]`, and the code leaves `x` empty. -/
theorem C25_refuted : ∃ (cs : List (Cmd Nat)) (s : Vars Nat) (m : Mem Nat),
    Spec.run (fun _ => some []) cs = some s ∧ execAll Mem.init cs = .ret m ∧ s 0 = some [1] ∧
      Heap.forEach m.heap (m.vars 0) = .ret [] ∧ Heap.len m.heap (m.vars 0) = .ret 0 :=
  ⟨[.add 1 1, .join 0 1], _, _, rfl, rfl, rfl, rfl, rfl⟩

/-- What Join does with a nil receiver, exactly: nothing, whatever the other list is. -/
theorem C25_join_nil (h : Heap α) (q : Ptr) : Heap.join h none q = .ret h := rfl

/-- The operations one by one, on any heap in which the operands are lists (`IsList h p l ns`: from `p` the nodes `ns` hold `l`). -/
theorem C25_operations {h : Heap α} {p : Ptr} {l : List α} {ns : List Nat} (hl : IsList h p l ns) (d : α) (pos : Int) :
    (∃ h' p' ns', Heap.add h p d = .ret (h', p') ∧ IsList h' p' (d :: l) ns') ∧
    (∃ h' p' ns', Heap.reverse h p = .ret (h', p') ∧ IsList h' p' l.reverse ns') ∧
    (∃ h' p' ns', Heap.insert h p d pos = .ret (h', p') ∧ IsList h' p' (Spec.insertAt l d pos) ns') ∧
    (∀ q m ms, IsList h q m ms → l ≠ [] → (∀ a ∈ ns, a ∉ ms) →
      ∃ h' ns', Heap.join h p q = .ret h' ∧ IsList h' p (l ++ m) ns') := by
  refine ⟨?_, ?_, ?_, ?_⟩
  · obtain ⟨h1, h2⟩ := hl.add d
    exact ⟨_, _, _, h1, h2⟩
  · obtain ⟨h', p', h1, h2, _⟩ := hl.reverse
    exact ⟨h', p', _, h1, h2⟩
  · rcases clamp_cases l pos with (hk | ⟨hk, hi⟩) | ⟨hk, k, hk1, hk2, hk3⟩
    · obtain ⟨h', h1, h2, _⟩ := hl.insert_top d (.inl hk)
      have : min pos.toNat l.length = l.length := by omega
      rw [show Spec.insertAt l d pos = d :: l by simp [Spec.insertAt, this]]
      exact ⟨h', _, _, h1, h2⟩
    · obtain ⟨h', h1, h2, _⟩ := hl.insert_top (pos := pos) d (.inr hk)
      rw [hi]
      rw [hk] at h2
      exact ⟨h', _, _, h1, h2⟩
    · obtain ⟨h', ns', h1, h2, _⟩ := hl.insert_mid d hk1 hk hk2
      rw [show Spec.insertAt l d pos = l.take (l.length - k) ++ d :: l.drop (l.length - k) by simp [Spec.insertAt, hk3]]
      exact ⟨h', _, _, h1, h2⟩
  · intro q m ms hm hne hdis
    obtain ⟨h', h1, h2, _⟩ := hl.join hm hne (List.nodup_append.2 ⟨hl.2.2, hm.2.2, fun a ha b hb e => hdis a ha (e ▸ hb)⟩)
    exact ⟨h', _, h1, h2⟩

/-- A list with the contents and the length of `l`, as the API shows it. -/
def Shows (h : Heap α) (z : Ptr) (l : List α) : Prop :=
  Heap.len h z = .ret l.length ∧ Heap.forEach h z = .ret l.zipIdx

theorem IsList.shows {h : Heap α} {p l ns} (hl : IsList h p l ns) : Shows h p l := by
  refine ⟨hl.len, ?_⟩
  rw [hl.forEach]
  congr 1
  have : ∀ (l : List α) i, numbered i l = l.zipIdx i := by
    intro l
    induction l with
    | nil => intro i; rfl
    | cons d l ih => intro i; simp [numbered, ih]
  exact this l 0

/-- **C26, Add**: every list of the heap, also the receiver and lists that share nodes with it, keeps its contents and its length. -/
theorem C26_add {h h' : Heap α} {p p' : Ptr} {d : α} (he : Heap.add h p d = .ret (h', p'))
    {z : Ptr} {l : List α} {ns : List Nat} (hz : IsList h z l ns) : Shows h' z l := by
  refine (hz.congr (h' := h') fun a ha => ?_).shows
  have hlt := hz.1.bound a ha
  unfold Heap.add at he
  rcases p with _ | b
  · simp only [Out.ret.injEq, Prod.mk.injEq] at he
    rw [← he.1]; exact List.getElem?_append_left hlt
  · simp only at he
    split at he
    · cases he
    · simp only [Out.ret.injEq, Prod.mk.injEq] at he
      rw [← he.1]; exact List.getElem?_append_left hlt

/-- **C26, Reverse**: a list that shares no node with the receiver keeps its contents and its length. -/
theorem C26_reverse {h : Heap α} {p : Ptr} {l : List α} {ns : List Nat} (hl : IsList h p l ns)
    {z : Ptr} {m : List α} {ms : List Nat} (hz : IsList h z m ms) (hdis : ∀ a ∈ ms, a ∉ ns) :
    ∃ h' p', Heap.reverse h p = .ret (h', p') ∧ Shows h' z m := by
  obtain ⟨h', p', h1, _, h3, _⟩ := hl.reverse
  exact ⟨h', p', h1, (hz.congr fun a ha => h3 a (hdis a ha)).shows⟩

/-- **C26, Join**: a list that shares no node with the receiver, in particular the second operand, keeps its contents and its length. -/
theorem C26_join {h : Heap α} {p q : Ptr} {l m : List α} {ns ms : List Nat} (hl : IsList h p l ns) (hq : IsList h q m ms)
    (hdis : ∀ a ∈ ms, a ∉ ns) :
    ∃ h', Heap.join h p q = .ret h' ∧ Shows h' q m ∧
      ∀ z k ks, IsList h z k ks → (∀ a ∈ ks, a ∉ ns) → Shows h' z k := by
  suffices hs : ∃ h', Heap.join h p q = .ret h' ∧ ∀ z k ks, IsList h z k ks → (∀ a ∈ ks, a ∉ ns) → Shows h' z k by
    obtain ⟨h', h1, h2⟩ := hs
    exact ⟨h', h1, h2 q m ms hq hdis, h2⟩
  rcases e : l with _ | ⟨d, l'⟩
  · subst e
    rcases ns with _ | ⟨b, ns⟩
    · have hc : p = none := hl.1
      subst hc
      exact ⟨h, rfl, fun z k ks hz _ => hz.shows⟩
    · exact absurd hl.1 (by simp [Chain])
  · obtain ⟨h', h1, _, h3, _⟩ := hl.join hq (by simp [e])
      (List.nodup_append.2 ⟨hl.2.2, hq.2.2, fun a ha b hb e => hdis b hb (e ▸ ha)⟩)
    exact ⟨h', h1, fun z k ks hz hd => (hz.congr fun a ha => h3 a (hd a ha)).shows⟩

/-- **C26, Insert**: a list that shares no node with the receiver keeps its contents and its length. -/
theorem C26_insert {h : Heap α} {p : Ptr} {l : List α} {ns : List Nat} (hl : IsList h p l ns) (d : α) (pos : Int)
    {z : Ptr} {m : List α} {ms : List Nat} (hz : IsList h z m ms) (hdis : ∀ a ∈ ms, a ∉ ns) :
    ∃ h' p', Heap.insert h p d pos = .ret (h', p') ∧ Shows h' z m := by
  rcases clamp_cases l pos with (hk | ⟨hk, hi⟩) | ⟨hk, k, hk1, hk2, hk3⟩
  · obtain ⟨h', h1, _, h3, _⟩ := hl.insert_top d (.inl hk)
    exact ⟨h', _, h1, (hz.congr fun a ha => h3 a (hz.1.bound a ha)).shows⟩
  · obtain ⟨h', h1, _, h3, _⟩ := hl.insert_top (pos := pos) d (.inr hk)
    exact ⟨h', _, h1, (hz.congr fun a ha => h3 a (hz.1.bound a ha)).shows⟩
  · obtain ⟨h', ns', h1, _, _, h3, _⟩ := hl.insert_mid d hk1 hk hk2
    refine ⟨h', _, h1, (hz.congr fun a ha => h3 a (hdis a ha) ?_).shows⟩
    have := hz.1.bound a ha
    omega

/-- Two lists in one heap that share no node. -/
example : IsList (α := Nat) [⟨1, none, 0⟩, ⟨2, none, 0⟩, ⟨3, some 0, 1⟩] (some 2) [3, 1] [2, 0] ∧
    IsList (α := Nat) [⟨1, none, 0⟩, ⟨2, none, 0⟩, ⟨3, some 0, 1⟩] (some 1) [2] [1] :=
  ⟨⟨⟨rfl, _, rfl, rfl, rfl, _, rfl, rfl, rfl⟩, ⟨⟨_, rfl, rfl⟩, ⟨_, rfl, rfl⟩, trivial⟩, by decide⟩,
    ⟨⟨rfl, _, rfl, rfl, rfl⟩, ⟨⟨_, rfl, rfl⟩, trivial⟩, by decide⟩⟩

/-- Calls on a generator: the results of the calls of `Next`. -/
def genRun [Inhabited α] (h : Heap α) : Gen → List GenCall → Out (List (α × Int))
  | _, [] => .ret []
  | g, .next :: cs => (Heap.next h g).bind fun r => (genRun h r.2 cs).bind fun l => .ret (r.1 :: l)
  | g, .reset :: cs => genRun h g.reset cs

theorem genRun_nil [Inhabited α] (h : Heap α) : ∀ (cs : List GenCall) (g : Gen), g.current = none → g.original = none → ∀ i,
    genRun h g cs = .ret (Spec.genCalls default [] i cs)
  | [], _, _, _, _ => rfl
  | .next :: cs, g, h1, h2, i => by
    simp only [genRun, Heap.next, h1, Out.bind, genRun_nil h cs g h1 h2 (i + 1)]
    rfl
  | .reset :: cs, g, h1, h2, i => by
    simp only [genRun, Gen.reset, Spec.genCalls]
    exact genRun_nil h cs ⟨g.original, g.original, 0, g.length⟩ h2 h2 0

/-- What the calls return for the code as it is: like the specification before the first `Reset`, and afterwards the generator is
empty. -/
def genCallsCode [Inhabited α] (l : List α) : Nat → List GenCall → List (α × Int)
  | _, [] => []
  | i, .next :: cs =>
    (match l[i]? with
      | some d => (d, (i : Int))
      | none => (default, -1)) :: genCallsCode l (i + 1) cs
  | _, .reset :: cs => Spec.genCalls default [] 0 cs

theorem genRun_chain [Inhabited α] (h : Heap α) : ∀ (cs : List GenCall) (g : Gen) (l : List α) (ns : List Nat) (i : Nat),
    Chain h g.current (l.drop i) ns none → g.original = none → g.iter = (i : Int) ∨ l.length ≤ i → 
    genRun h g cs = .ret (genCallsCode l i cs)
  | [], _, _, _, _, _, _, _ => rfl
  | .reset :: cs, g, l, ns, i, hc, ho, hi => by
    simp only [genRun, Gen.reset, genCallsCode]
    exact genRun_nil h cs ⟨g.original, g.original, 0, g.length⟩ ho ho 0
  | .next :: cs, g, l, ns, i, hc, ho, hi => by
    rcases e : l.drop i with _ | ⟨d, l'⟩
    · rw [e] at hc
      have hlen : l.length ≤ i := List.drop_eq_nil_iff.1 e
      rcases ns with _ | ⟨a, ns⟩
      · simp only [Chain] at hc
        have h2 := genRun_chain h cs g l [] (i + 1) (by rw [List.drop_eq_nil_iff.2 (by omega)]; exact hc) ho (.inr (by omega))
        simp only [genRun, Heap.next, hc, Out.bind, h2, genCallsCode, List.getElem?_eq_none hlen]
      · exact absurd hc (by simp [Chain])
    · rw [e] at hc
      have hlt : i < l.length := by
        rcases Nat.lt_or_ge i l.length with h | h
        · exact h
        · rw [List.drop_eq_nil_iff.2 h] at e; cases e
      rw [List.drop_eq_getElem_cons hlt] at e
      injection e with e1 e2
      rcases ns with _ | ⟨a, ns⟩
      · exact absurd hc (by simp [Chain])
      · obtain ⟨hp, nd, en, hd, hc⟩ := hc
        have hit : g.iter = i := by rcases hi with h | h <;> omega
        have h2 := genRun_chain h cs { g with current := nd.next, iter := g.iter + 1 } l ns (i + 1) (by rw [e2]; exact hc) ho
          (.inl (by simp [hit]))
        simp only [genRun, Heap.next, hp, en, Out.bind, genCallsCode, List.getElem?_eq_getElem hlt, e1, hd, hit]
        simp only [hit] at h2
        rw [h2]

/-- **C27, exactly**: on a generator of a list, any sequence of calls of Next and Reset returns the items with the indices
0, 1, 2, ..., then `(zero, -1)` for ever, up to the first Reset; after it, `(zero, -1)` for ever. -/
theorem C27_exact [Inhabited α] {h : Heap α} {p : Ptr} {l : List α} {ns : List Nat} (hl : IsList h p l ns) (cs : List GenCall) :
    ∃ g, Heap.generator h p = .ret g ∧ genRun h g cs = .ret (genCallsCode l 0 cs) := by
  refine ⟨⟨none, p, 0, l.length⟩, by simp only [Heap.generator, hl.len], ?_⟩
  exact genRun_chain h cs _ l ns 0 hl.1 rfl (.inl rfl)

theorem genCallsCode_noReset [Inhabited α] (l : List α) : ∀ (n i : Nat),
    genCallsCode l i (List.replicate n .next) = Spec.genCalls default l i (List.replicate n .next)
  | 0, _ => rfl
  | n+1, i => by
    simp only [List.replicate_succ, genCallsCode, Spec.genCalls, genCallsCode_noReset l n (i + 1)]
    rfl

/-- **C27** as far as it holds: the specification is met by any number of calls of Next without Reset.  Missing: calls after a
Reset (false, `C27_refuted`). -/
theorem C27_next_partial [Inhabited α] {h : Heap α} {p : Ptr} {l : List α} {ns : List Nat} (hl : IsList h p l ns) (n : Nat) :
    ∃ g, Heap.generator h p = .ret g ∧
      genRun h g (List.replicate n .next) = .ret (Spec.genCalls default l 0 (List.replicate n .next)) := by
  obtain ⟨g, h1, h2⟩ := C27_exact hl (List.replicate n .next)
  exact ⟨g, h1, by rw [h2, genCallsCode_noReset]⟩

/-- **C27 is false in general**: for every non-empty list, Next after Reset does not return the first item. -/
theorem C27_refuted {h : Heap Nat} {p : Ptr} {d : Nat} {l : List Nat} {ns : List Nat} (hl : IsList h p (d :: l) ns) :
    ∃ g, Heap.generator h p = .ret g ∧ genRun h g [.reset, .next] = .ret [(0, -1)] ∧
      Spec.genCalls 0 (d :: l) 0 [.reset, .next] = [(d, 0)] := by
  obtain ⟨g, h1, h2⟩ := C27_exact hl [.reset, .next]
  exact ⟨g, h1, h2, rfl⟩

example : ∃ g, Heap.generator [⟨1, none, 0⟩, ⟨2, some 0, 1⟩] (some 1) = .ret g ∧
    genRun (α := Nat) [⟨1, none, 0⟩, ⟨2, some 0, 1⟩] g [.next, .next, .next, .next] = .ret [(2, 0), (1, 1), (0, -1), (0, -1)] :=
  ⟨_, rfl, rfl⟩

end
end GQL
