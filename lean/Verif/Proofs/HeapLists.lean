/-
What the list operations of the model do to the heap: the representation predicate and one lemma per operation.
-/
import Verif.Model.Heap

namespace GQL
section
variable {α : Type}

/-- From pointer `p` the chain runs through the nodes `ns`, which hold `l`, and ends in pointer `q`. -/
def Chain (h : Heap α) : Ptr → List α → List Nat → Ptr → Prop
  | p, [], [], q => p = q
  | p, d :: l, a :: ns, q => p = some a ∧ ∃ nd, h[a]? = some nd ∧ nd.data = d ∧ Chain h nd.next l ns q
  | _, _, _, _ => False

/-- The nodes `ns` carry descending positions, the last one `n`. -/
def PosOk (h : Heap α) : List Nat → Int → Prop
  | [], _ => True
  | a :: ns, n => (∃ nd, h[a]? = some nd ∧ nd.pos = n + ns.length) ∧ PosOk h ns n

/-- `p` is a list holding `l`, in the nodes `ns`. -/
def IsList (h : Heap α) (p : Ptr) (l : List α) (ns : List Nat) : Prop :=
  Chain h p l ns none ∧ PosOk h ns 0 ∧ ns.Nodup

theorem heap_set_ne {h : Heap α} {a b : Nat} {x : Node α} (hb : b ≠ a) : (h.set a x)[b]? = h[b]? :=
  List.getElem?_set_ne (fun e => hb e.symm)

theorem nodup_bound : ∀ (n : Nat) (ns : List Nat), ns.Nodup → (∀ a ∈ ns, a < n) → ns.length ≤ n
  | 0, ns, _, hb => by
    cases ns with
    | nil => simp
    | cons a ns => exact absurd (hb a (by simp)) (by omega)
  | n+1, ns, hn, hb => by
    have h1 := nodup_bound n (ns.erase n) (hn.erase n) (by
      intro a ha
      have h2 := (hn.mem_erase_iff).1 ha
      have h3 := hb a h2.2
      have h4 := h2.1
      omega)
    rw [List.length_erase] at h1
    split at h1 <;> omega

theorem Chain.lens {h : Heap α} : ∀ {p l ns q}, Chain h p l ns q → l.length = ns.length
  | _, [], [], _, _ => rfl
  | _, _ :: _, _ :: _, _, hc => by
    obtain ⟨_, _, _, _, hc⟩ := hc
    simp [hc.lens]
  | _, [], _ :: _, _, hc => by simp [Chain] at hc
  | _, _ :: _, [], _, hc => by simp [Chain] at hc

theorem Chain.bound {h : Heap α} : ∀ {p l ns q}, Chain h p l ns q → ∀ a ∈ ns, a < h.length
  | _, [], [], _, _ => by simp
  | _, _ :: _, b :: ns, _, hc => by
    obtain ⟨_, nd, e, _, hc⟩ := hc
    intro a ha
    rcases List.mem_cons.1 ha with rfl | ha
    · exact (List.getElem?_eq_some_iff.1 e).1
    · exact hc.bound a ha
  | _, [], _ :: _, _, hc => by simp [Chain] at hc
  | _, _ :: _, [], _, hc => by simp [Chain] at hc

theorem Chain.congr {h h' : Heap α} : ∀ {p l ns q}, Chain h p l ns q → (∀ a ∈ ns, h'[a]? = h[a]?) → Chain h' p l ns q
  | _, [], [], _, hc, _ => hc
  | _, _ :: _, b :: ns, _, hc, hf => by
    obtain ⟨hp, nd, e, hd, hc⟩ := hc
    exact ⟨hp, nd, by rw [hf b (by simp), e], hd, hc.congr (fun a ha => hf a (by simp [ha]))⟩
  | _, [], _ :: _, _, hc, _ => by simp [Chain] at hc
  | _, _ :: _, [], _, hc, _ => by simp [Chain] at hc

theorem Chain.append {h : Heap α} : ∀ {p l ns q l' ns' r}, Chain h p l ns q → Chain h q l' ns' r → Chain h p (l ++ l') (ns ++ ns') r
  | _, [], [], _, _, _, _, hc, hc' => by simp only [Chain] at hc; subst hc; exact hc'
  | _, _ :: _, b :: ns, _, _, _, _, hc, hc' => by
    obtain ⟨hp, nd, e, hd, hc⟩ := hc
    exact ⟨hp, nd, e, hd, hc.append hc'⟩
  | _, [], _ :: _, _, _, _, _, hc, _ => by simp [Chain] at hc
  | _, _ :: _, [], _, _, _, _, hc, _ => by simp [Chain] at hc

/-- A chain can be cut anywhere. -/
theorem Chain.split {h : Heap α} : ∀ {p l ns1 ns2 r}, Chain h p l (ns1 ++ ns2) r →
    ∃ l1 l2 q, l = l1 ++ l2 ∧ Chain h p l1 ns1 q ∧ Chain h q l2 ns2 r
  | p, l, [], ns2, r, hc => ⟨[], l, p, rfl, rfl, hc⟩
  | p, d :: l, b :: ns1, ns2, r, hc => by
    obtain ⟨hp, nd, e, hd, hc⟩ := hc
    obtain ⟨l1, l2, q, rfl, h1, h2⟩ := Chain.split hc
    exact ⟨d :: l1, l2, q, rfl, ⟨hp, nd, e, hd, h1⟩, h2⟩
  | _, [], _ :: _, _, _, hc => by simp [Chain] at hc

theorem PosOk.congr {h h' : Heap α} : ∀ {ns n}, PosOk h ns n → (∀ a ∈ ns, h'[a]? = h[a]?) → PosOk h' ns n
  | [], _, _, _ => trivial
  | b :: ns, n, hp, hf => by
    obtain ⟨⟨nd, e, hpos⟩, hp⟩ := hp
    exact ⟨⟨nd, by rw [hf b (by simp), e], hpos⟩, hp.congr (fun a ha => hf a (by simp [ha]))⟩

theorem PosOk.append {h : Heap α} : ∀ {ns1 ns2 n}, PosOk h ns1 (n + ns2.length) → PosOk h ns2 n → PosOk h (ns1 ++ ns2) n
  | [], _, _, _, hp => hp
  | b :: ns, ns2, n, hp, hp2 => by
    obtain ⟨⟨nd, e, hpos⟩, hp⟩ := hp
    exact ⟨⟨nd, e, by rw [hpos]; simp; omega⟩, hp.append hp2⟩

theorem PosOk.right {h : Heap α} : ∀ {ns1 ns2 n}, PosOk h (ns1 ++ ns2) n → PosOk h ns2 n
  | [], _, _, hp => hp
  | _ :: _, _, _, hp => PosOk.right hp.2

theorem IsList.congr {h h' : Heap α} {p l ns} (hl : IsList h p l ns) (hf : ∀ a ∈ ns, h'[a]? = h[a]?) : IsList h' p l ns :=
  ⟨hl.1.congr hf, hl.2.1.congr hf, hl.2.2⟩

theorem IsList.fuel {h : Heap α} {p l ns} (hl : IsList h p l ns) : ns.length ≤ h.length :=
  nodup_bound _ _ hl.2.2 hl.1.bound

theorem IsList.nil (h : Heap α) : IsList h none [] [] := ⟨rfl, trivial, List.nodup_nil⟩

theorem IsList.len {h : Heap α} {p l ns} (hl : IsList h p l ns) : Heap.len h p = .ret l.length := by
  obtain ⟨hc, hp, _⟩ := hl
  rcases l with _ | ⟨d, l⟩ <;> rcases ns with _ | ⟨a, ns⟩ <;> simp only [Chain] at hc
  · subst hc; rfl
  · obtain ⟨rfl, nd, e, hd, hc⟩ := hc
    obtain ⟨⟨nd', e', hpos⟩, _⟩ := hp
    rw [e] at e'; cases e'
    simp only [Heap.len, e, hpos, List.length_cons, hc.lens]
    congr 1; simp

/-- The items of a list with their indices, starting at `i`. -/
def numbered : Nat → List α → List (α × Nat)
  | _, [] => []
  | i, d :: l => (d, i) :: numbered (i + 1) l

theorem forEachLoop_eq {h : Heap α} : ∀ {f i a l ns}, Chain h (some a) l ns none → ns.length ≤ f →
    Heap.forEachLoop h f i a = .ret (numbered i l)
  | 0, _, _, l, ns, hc, hf => by
    rcases l with _ | ⟨d, l⟩ <;> rcases ns with _ | ⟨b, ns⟩ <;> simp [Chain] at hc hf
  | f+1, i, a, l, ns, hc, hf => by
    rcases l with _ | ⟨d, l⟩ <;> rcases ns with _ | ⟨b, ns⟩ <;> simp only [Chain] at hc
    · cases hc
    · obtain ⟨hp, nd, e, rfl, hc⟩ := hc
      cases hp
      simp only [Heap.forEachLoop, e]
      rcases en : nd.next with _ | c
      · rw [en] at hc
        rcases l with _ | ⟨d, l⟩ <;> rcases ns with _ | ⟨b, ns⟩ <;> simp [Chain] at hc
        rfl
      · rw [en] at hc
        simp only [forEachLoop_eq (i := i + 1) hc (by simpa using hf), numbered]

theorem IsList.forEach {h : Heap α} {p l ns} (hl : IsList h p l ns) : Heap.forEach h p = .ret (numbered 0 l) := by
  rcases p with _ | a
  · obtain ⟨hc, _⟩ := hl
    rcases l with _ | ⟨d, l⟩ <;> rcases ns with _ | ⟨b, ns⟩ <;> simp [Chain] at hc
    rfl
  · exact forEachLoop_eq hl.1 (by have := hl.fuel; omega)

theorem IsList.add {h : Heap α} {p l ns} (hl : IsList h p l ns) (d : α) :
    Heap.add h p d = .ret (h ++ [⟨d, p, l.length⟩], some h.length) ∧
    IsList (h ++ [⟨d, p, l.length⟩]) (some h.length) (d :: l) (h.length :: ns) := by
  have hb := hl.1.bound
  refine ⟨?_, ⟨rfl, ⟨d, p, l.length⟩, by simp, rfl, ?_⟩, ⟨⟨⟨d, p, l.length⟩, by simp, by simp [hl.1.lens]⟩, ?_⟩, ?_⟩
  · have hlen := hl.len
    rcases p with _ | a
    · simp only [Heap.len, Out.ret.injEq] at hlen
      simp only [Heap.add, ← hlen]
    · simp only [Heap.len] at hlen
      simp only [Heap.add]
      split at hlen
      · cases hlen
      · rename_i nd e
        simp only [Out.ret.injEq] at hlen
        simp only [hlen]
  · exact hl.1.congr (fun a ha => List.getElem?_append_left (hb a ha))
  · exact hl.2.1.congr (fun a ha => List.getElem?_append_left (hb a ha))
  · refine List.nodup_cons.2 ⟨fun hm => ?_, hl.2.2⟩
    have := hb _ hm
    omega

theorem reverseLoop_eq : ∀ {f} {h : Heap α} {p l ns prev l' ns'},
    Chain h p l ns none → Chain h prev l' ns' none → PosOk h ns' 0 → (ns ++ ns').Nodup → ns.length < f →
    ∃ h' p', Heap.reverseLoop f h p prev ns'.length = .ret (h', p') ∧ IsList h' p' (l.reverse ++ l') (ns.reverse ++ ns') ∧
      (∀ a, a ∉ ns → h'[a]? = h[a]?) ∧ h'.length = h.length
  | 0, _, _, _, _, _, _, _, _, _, _, _, hf => by omega
  | f+1, h, p, l, ns, prev, l', ns', hc, hc', hp', hn, hf => by
    rcases l with _ | ⟨d, l⟩ <;> rcases ns with _ | ⟨a, ns⟩ <;> simp only [Chain] at hc
    · subst hc
      exact ⟨h, prev, rfl, ⟨hc', hp', by simpa using hn⟩, fun _ _ => rfl, rfl⟩
    · obtain ⟨rfl, nd, e, rfl, hc⟩ := hc
      simp only [Heap.reverseLoop, e]
      have ha : a < h.length := (List.getElem?_eq_some_iff.1 e).1
      have hn' : (a :: (ns ++ ns')).Nodup := hn
      have hna := (List.nodup_cons.1 hn').1
      have hnn := (List.nodup_cons.1 hn').2
      have hfr : ∀ b, b ≠ a → (h.set a ⟨nd.data, prev, ns'.length⟩)[b]? = h[b]? :=
        fun b hb => List.getElem?_set_ne (fun x => hb x.symm)
      have hself : (h.set a ⟨nd.data, prev, (ns'.length : Int)⟩)[a]? = some ⟨nd.data, prev, ns'.length⟩ :=
        List.getElem?_set_self ha
      obtain ⟨h', p', hr, hl, hfr', hlen⟩ := reverseLoop_eq (f := f) (h := h.set a ⟨nd.data, prev, ns'.length⟩)
        (p := nd.next) (l := l) (ns := ns) (prev := some a) (l' := nd.data :: l') (ns' := a :: ns')
        (hc.congr fun b hb => hfr b (fun x => hna (by simp [← x, hb])))
        ⟨rfl, _, hself, rfl, hc'.congr fun b hb => hfr b (fun x => hna (by simp [← x, hb]))⟩
        ⟨⟨_, hself, by simp⟩, hp'.congr fun b hb => hfr b (fun x => hna (by simp [← x, hb]))⟩
        (by
          refine List.nodup_append.2 ?_
          have h3 := List.nodup_append.1 hnn
          refine ⟨h3.1, List.nodup_cons.2 ⟨fun x => hna (by simp [x]), h3.2.1⟩, ?_⟩
          intro x hx y hy hxy
          rcases List.mem_cons.1 hy with rfl | hy
          · exact hna (by simp [← hxy, hx])
          · exact h3.2.2 x hx y hy hxy)
        (by simpa using hf)
      refine ⟨h', p', ?_, ?_, ?_, ?_⟩
      · rw [← hr]; congr 1
      · simpa using hl
      · intro b hb
        simp only [List.mem_cons, not_or] at hb
        rw [hfr' b hb.2, hfr b hb.1]
      · simpa using hlen

theorem IsList.reverse {h : Heap α} {p l ns} (hl : IsList h p l ns) :
    ∃ h' p', Heap.reverse h p = .ret (h', p') ∧ IsList h' p' l.reverse ns.reverse ∧
      (∀ a, a ∉ ns → h'[a]? = h[a]?) ∧ h'.length = h.length := by
  have := reverseLoop_eq (f := h.length + 1) (h := h) (p := p) (prev := none) (l' := []) (ns' := []) hl.1 rfl trivial
    (by simpa using hl.2.2) (by have := hl.fuel; omega)
  simpa [Heap.reverse] using this

theorem joinLoop_eq : ∀ {f} {h : Heap α} {last p l ns n},
    Chain h p l ns none → ns.Nodup → ns.length < f →
    ∃ h', Heap.joinLoop f h last p (n + ns.length - 1) = .ret (h', ns.getLastD last) ∧ Chain h' p l ns none ∧ PosOk h' ns n ∧
      (∀ a, a ∉ ns → h'[a]? = h[a]?) ∧ h'.length = h.length
  | 0, _, _, _, _, _, _, _, _, hf => by omega
  | f+1, h, last, p, l, ns, n, hc, hn, hf => by
    rcases l with _ | ⟨d, l⟩ <;> rcases ns with _ | ⟨a, ns⟩ <;> simp only [Chain] at hc
    · subst hc
      exact ⟨h, rfl, rfl, trivial, fun _ _ => rfl, rfl⟩
    · obtain ⟨rfl, nd, e, rfl, hc⟩ := hc
      simp only [Heap.joinLoop, e]
      have ha : a < h.length := (List.getElem?_eq_some_iff.1 e).1
      have hna := (List.nodup_cons.1 hn).1
      have hnn := (List.nodup_cons.1 hn).2
      generalize hpos : (n + ((a :: ns).length : Int) - 1) = pos
      have hfr : ∀ b, b ≠ a → (h.set a { nd with pos := pos })[b]? = h[b]? :=
        fun b hb => List.getElem?_set_ne (fun x => hb x.symm)
      have hself : (h.set a { nd with pos := pos })[a]? = some { nd with pos := pos } := List.getElem?_set_self ha
      obtain ⟨h', hr, hc', hp', hfr', hlen⟩ := joinLoop_eq (f := f) (h := h.set a { nd with pos := pos }) (last := a)
        (p := nd.next) (l := l) (ns := ns) (n := n)
        (hc.congr fun b hb => hfr b (fun x => hna (by simp [← x, hb]))) hnn (by simpa using hf)
      refine ⟨h', ?_, ⟨rfl, _, (hfr' a hna).trans hself, rfl, hc'⟩, ⟨⟨_, (hfr' a hna).trans hself, ?_⟩, hp'⟩, ?_, ?_⟩
      · have : pos - 1 = n + ns.length - 1 := by rw [← hpos]; simp; omega
        rw [this, hr, List.getLastD_cons]
      · rw [← hpos]; simp; omega
      · intro b hb
        simp only [List.mem_cons, not_or] at hb
        rw [hfr' b hb.2, hfr b hb.1]
      · simpa using hlen

theorem getLastD_mem : ∀ {l : List Nat} {x : Nat}, l ≠ [] → l.getLastD x ∈ l
  | [], _, h => absurd rfl h
  | [a], _, _ => by simp
  | a :: b :: l, x, _ => by
    rw [List.getLastD_cons]
    exact List.mem_cons_of_mem _ (getLastD_mem (by simp))

/-- Redirecting the last node of a chain. -/
theorem Chain.setLast {h : Heap α} {q : Ptr} : ∀ {p l ns last r}, Chain h p l ns r → ns.Nodup → ns ≠ [] → ns.getLastD last = x →
    ∀ nd, h[x]? = some nd → Chain (h.set x { nd with next := q }) p l ns q
  | _, [], [], _, _, _, _, hne, _, _, _ => absurd rfl hne
  | p, d :: l, [a], _, _, hc, hn, _, hx, nd, e => by
    obtain ⟨rfl, nd', e', rfl, hc⟩ := hc
    rcases l with _ | ⟨d', l⟩ <;> simp only [Chain] at hc
    simp at hx; subst hx
    rw [e] at e'; cases e'
    exact ⟨rfl, _, List.getElem?_set_self (List.getElem?_eq_some_iff.1 e).1, rfl, rfl⟩
  | p, d :: l, a :: b :: ns, last, _, hc, hn, _, hx, nd, e => by
    obtain ⟨rfl, nd', e', rfl, hc⟩ := hc
    have hna := (List.nodup_cons.1 hn).1
    have hxm : x ∈ b :: ns := by
      rw [← hx, List.getLastD_cons]
      exact getLastD_mem (by simp)
    refine ⟨rfl, nd', ?_, rfl, ?_⟩
    · rw [heap_set_ne (fun y => hna (by rw [y]; exact hxm))]; exact e'
    · exact Chain.setLast (last := a) hc (List.nodup_cons.1 hn).2 (by simp) (by rw [List.getLastD_cons] at hx; exact hx) nd e
  | _, [], _ :: _, _, _, hc, _, _, _, _, _ => by simp [Chain] at hc
  | _, _ :: _, [], _, _, hc, _, _, _, _, _ => by simp [Chain] at hc

theorem PosOk.setNext {h : Heap α} {x q nd} (e : h[x]? = some nd) : ∀ {ns n}, PosOk h ns n → PosOk (h.set x { nd with next := q }) ns n
  | [], _, _ => trivial
  | b :: ns, n, hp => by
    obtain ⟨⟨nd', e', hpos⟩, hp⟩ := hp
    refine ⟨?_, hp.setNext e⟩
    by_cases hb : b = x
    · subst hb
      rw [e] at e'; cases e'
      exact ⟨_, List.getElem?_set_self (List.getElem?_eq_some_iff.1 e).1, hpos⟩
    · exact ⟨nd', by rw [List.getElem?_set_ne (fun y => hb y.symm)]; exact e', hpos⟩

theorem join_eq {h : Heap α} {a l1 ns1 q l2 ns2} (hc : Chain h (some a) l1 ns1 none)
    (hlen : Heap.len h (some a) = .ret ns1.length) (hl2 : IsList h q l2 ns2) (hn : (ns1 ++ ns2).Nodup) :
    ∃ h', Heap.join h (some a) q = .ret h' ∧ IsList h' (some a) (l1 ++ l2) (ns1 ++ ns2) ∧
      (∀ b, b ∉ ns1 → h'[b]? = h[b]?) ∧ h'.length = h.length := by
  have hn3 := List.nodup_append.1 hn
  have hfu : ns1.length ≤ h.length := nodup_bound _ _ hn3.1 hc.bound
  obtain ⟨h', hr, hc', hp', hfr, hlen'⟩ := joinLoop_eq (f := h.length + 1) (last := a) (n := (ns2.length : Int)) hc hn3.1 (by omega)
  have hne : ns1 ≠ [] := by
    rintro rfl
    rcases l1 with _ | ⟨d, l⟩ <;> simp [Chain] at hc
  have hmem := getLastD_mem (x := a) hne
  have hlt : ns1.getLastD a < h'.length := hc'.bound _ hmem
  have e : h'[ns1.getLastD a]? = some (h'[ns1.getLastD a]) := List.getElem?_eq_getElem hlt
  generalize h'[ns1.getLastD a] = nd at e
  have hfr2 : ∀ b, b ∉ ns1 → (h'.set (ns1.getLastD a) { nd with next := q })[b]? = h[b]? := fun b hb => by
    rw [heap_set_ne (fun x => hb (by rw [x]; exact hmem)), hfr b hb]
  refine ⟨h'.set (ns1.getLastD a) { nd with next := q }, ?_, ⟨?_, ?_, hn⟩, hfr2, by simpa using hlen'⟩
  · simp only [Heap.join, hlen, hl2.len, hl2.1.lens]
    have : (ns1.length : Int) + ns2.length - 1 = ns2.length + ns1.length - 1 := by omega
    rw [this, hr]
    simp only [e]
  · exact (hc'.setLast (last := a) hn3.1 hne rfl nd e).append
      (hl2.1.congr fun b hb => hfr2 b (fun x => hn3.2.2 b x b hb rfl))
  · refine PosOk.append ?_ (hl2.2.1.congr fun b hb => hfr2 b (fun x => hn3.2.2 b x b hb rfl))
    simpa using hp'.setNext e

/-- Join on a list that is not nil. -/
theorem IsList.join {h : Heap α} {p l1 ns1 q l2 ns2} (hl1 : IsList h p l1 ns1) (hl2 : IsList h q l2 ns2)
    (hne : l1 ≠ []) (hn : (ns1 ++ ns2).Nodup) :
    ∃ h', Heap.join h p q = .ret h' ∧ IsList h' p (l1 ++ l2) (ns1 ++ ns2) ∧
      (∀ b, b ∉ ns1 → h'[b]? = h[b]?) ∧ h'.length = h.length := by
  rcases p with _ | a
  · obtain ⟨hc, _⟩ := hl1
    rcases l1 with _ | ⟨d, l1⟩
    · exact absurd rfl hne
    · rcases ns1 with _ | ⟨b, ns1⟩ <;> simp [Chain] at hc
  · exact join_eq hl1.1 (by rw [hl1.len, hl1.1.lens]) hl2 hn

theorem findPos_eq {h : Heap α} : ∀ {f p l ns} {k : Nat}, Chain h p l ns none → PosOk h ns 0 → k < ns.length → ns.length < f →
    ∃ ns1 a ns2 nd, ns = ns1 ++ a :: ns2 ∧ ns2.length = k ∧ h[a]? = some nd ∧ nd.pos = (k : Int) ∧ Heap.findPos h k f p = .ret a
  | 0, _, _, _, _, _, _, _, hf => by omega
  | f+1, p, l, ns, k, hc, hp, hk, hf => by
    rcases l with _ | ⟨d, l⟩ <;> rcases ns with _ | ⟨a, ns⟩ <;> simp only [Chain] at hc
    · simp at hk
    · obtain ⟨rfl, nd, e, rfl, hc⟩ := hc
      obtain ⟨⟨nd', e', hpos⟩, hp⟩ := hp
      rw [e] at e'; cases e'
      simp only [Heap.findPos, e]
      by_cases hkl : ns.length = k
      · exact ⟨[], a, ns, nd, rfl, hkl, e, by omega, by simp; omega⟩
      · obtain ⟨ns1, b, ns2, nd2, rfl, h2, h3, h4, h5⟩ := findPos_eq (f := f) (k := k) hc hp (by simp at hk; omega) (by simpa using hf)
        refine ⟨a :: ns1, b, ns2, nd2, rfl, h2, h3, h4, ?_⟩
        rw [if_pos (by omega), h5]

/-- Insert at position `k` counted from the end, below the top. -/
theorem IsList.insert_mid {h : Heap α} {p l ns} (hl : IsList h p l ns) (d : α) {pos : Int} {k : Nat}
    (hpk : (if pos < 0 then 0 else pos) = k) (hk : pos < l.length) (hk2 : k < l.length) :
    ∃ h' ns', Heap.insert h p d pos = .ret (h', p) ∧ IsList h' p (l.take (l.length - k) ++ d :: l.drop (l.length - k)) ns' ∧
      (∀ b, b ∈ ns' ↔ b ∈ ns ∨ b = h.length) ∧ (∀ b, b ∉ ns → b ≠ h.length → h'[b]? = h[b]?) ∧ h'.length = h.length + 1 := by
  have hlens := hl.1.lens
  have hfuel := hl.fuel
  obtain ⟨ns1, m, ns2, md, hns, hk', em, hmp, hfind⟩ :=
    findPos_eq (f := h.length + 1) (k := k) hl.1 hl.2.1 (by omega) (by omega)
  have hnsl : ns1 ++ m :: ns2 = (ns1 ++ [m]) ++ ns2 := by simp
  have hc0 := hl.1
  rw [hns, hnsl] at hc0
  obtain ⟨l1, l2, q, hll, hc1, hc2⟩ := hc0.split
  have hnd : ((ns1 ++ [m]) ++ ns2).Nodup := by rw [← hnsl, ← hns]; exact hl.2.2
  have hnd3 := List.nodup_append.1 hnd
  -- the pointer after the cut
  have hq : q = md.next := by
    obtain ⟨_, lb, q', _, _, hcb⟩ := hc1.split
    rcases lb with _ | ⟨d', _ | ⟨d'', lb⟩⟩
    · simp [Chain] at hcb
    · obtain ⟨_, nd', e', _, hq⟩ := hcb
      rw [em] at e'; cases e'
      exact Eq.symm hq
    · obtain ⟨_, _, _, _, hf⟩ := hcb
      exact hf.elim
  have hl1len : l1.length = l.length - k := by
    have := hc1.lens; have := hc2.lens
    rw [hll]; simp; omega
  have hl1 : l1 = l.take (l.length - k) := by rw [← hl1len, hll]; simp
  have hl2 : l2 = l.drop (l.length - k) := by rw [← hl1len, hll]; simp
  rcases p with _ | a
  · rcases l1 with _ | ⟨d', l1⟩ <;> rcases ns1 with _ | ⟨c, ns1⟩ <;> simp [Chain] at hc1
  have hm : m ∉ ns2 := fun x => hnd3.2.2 m (by simp) m x rfl
  have hcut : Chain (h.set m { md with next := none }) (some a) l1 (ns1 ++ [m]) none :=
    hc1.setLast (last := a) hnd3.1 (by simp) (by simp [List.getLastD_eq_getLast?]) md em
  have hcut2 : Chain (h.set m { md with next := none }) md.next l2 ns2 none := by
    rw [← hq]; exact hc2.congr fun b hb => heap_set_ne (fun x => hm (by rw [← x]; exact hb))
  have hposA : PosOk (h.set m { md with next := none }) ns 0 := hl.2.1.setNext em
  have ha : a ∈ ns1 ++ [m] := by
    rcases l1 with _ | ⟨d', l1⟩ <;> rcases e1 : ns1 ++ [m] with _ | ⟨c, nsx⟩
    · simp at e1
    · rw [e1] at hc1; exact hc1.elim
    · simp at e1
    · rw [e1] at hc1; obtain ⟨hc, _⟩ := hc1; cases hc; simp
  have hmem : ∀ b, b ∈ ns ↔ b ∈ ns1 ++ [m] ∨ b ∈ ns2 := fun b => by rw [hns]; simp [or_assoc]
  generalize hh1 : h.set m { md with next := none } = h1 at *
  have hlen1 : h1.length = h.length := by rw [← hh1]; simp
  have hfr1 : ∀ b, b ≠ m → h1[b]? = h[b]? := fun b hb => by rw [← hh1]; exact List.getElem?_set_ne (fun x => hb x.symm)
  -- the head node
  obtain ⟨hd, eh, hhp⟩ : ∃ hd, h1[a]? = some hd ∧ hd.pos = l.length - 1 := by
    rcases l with _ | ⟨d', l⟩ <;> rcases ns with _ | ⟨c, ns⟩ <;> have hc := hl.1 <;> simp only [Chain] at hc
    · simp at hk2
    · obtain ⟨hc, _⟩ := hc
      cases hc
      obtain ⟨⟨nd, e, hpos⟩, _⟩ := hposA
      exact ⟨nd, e, by rw [hpos]; simp at hlens ⊢; omega⟩
  have halt : a < h1.length := (List.getElem?_eq_some_iff.1 eh).1
  have hset : h1.set a { hd with pos := hd.pos - md.pos } = h1.set a { data := hd.data, next := hd.next, pos := hd.pos - md.pos } := rfl
  generalize hh2 : h1.set a { hd with pos := hd.pos - md.pos } = h2
  have hlen2 : h2.length = h.length := by rw [← hh2]; simp [hlen1]
  have hself2 : h2[a]? = some { hd with pos := hd.pos - md.pos } := by rw [← hh2]; exact List.getElem?_set_self halt
  have hfr2 : ∀ b, b ≠ a → h2[b]? = h1[b]? := fun b hb => by rw [← hh2]; exact List.getElem?_set_ne (fun x => hb x.symm)
  have hchain2 : Chain h2 (some a) l1 (ns1 ++ [m]) none := by
    clear hfind hh1 hnd hl hns hnsl
    generalize ns1 ++ [m] = nsx at *
    have gen : ∀ {p l ns q}, Chain h1 p l ns q → Chain h2 p l ns q := by
      intro p l ns q hc
      induction ns generalizing p l with
      | nil => rcases l with _ | ⟨d', l⟩ <;> simp only [Chain] at hc ⊢ <;> exact hc
      | cons c ns ih =>
        rcases l with _ | ⟨d', l⟩ <;> simp only [Chain] at hc ⊢
        obtain ⟨hp, nd, e, hd', hc⟩ := hc
        refine ⟨hp, ?_⟩
        by_cases hca : c = a
        · subst hca
          rw [eh] at e; cases e
          exact ⟨_, hself2, hd', ih hc⟩
        · exact ⟨nd, by rw [hfr2 c hca]; exact e, hd', ih hc⟩
    exact gen hcut
  have hna2 : a ∉ ns2 := fun x => hnd3.2.2 a ha a x rfl
  have hbot2 : IsList h2 md.next l2 ns2 := by
    refine ⟨hcut2.congr fun b hb => hfr2 b (fun x => hna2 (by rw [← x]; exact hb)), ?_, hnd3.2.1⟩
    rw [hns] at hposA
    exact (hposA.right.2).congr fun b hb => hfr2 b (fun x => hna2 (by rw [← x]; exact hb))
  obtain ⟨hadd, hl3⟩ := hbot2.add d
  have hb2 := hchain2.bound
  generalize hh3 : h2 ++ [⟨d, md.next, (l2.length : Int)⟩] = h3 at *
  have hfr3 : ∀ b, b < h.length → h3[b]? = h2[b]? := fun b hb => by
    rw [← hh3]; exact List.getElem?_append_left (by omega)
  have hlen3 : h3.length = h.length + 1 := by rw [← hh3]; simp [hlen2]
  have halt' : a < h.length := by rw [← hlen1]; exact halt
  obtain ⟨h4, hj, hl4, hfr4, hlen4⟩ := join_eq (h := h3) (a := a) (l1 := l1) (ns1 := ns1 ++ [m]) (q := some h2.length)
    (hchain2.congr fun b hb => hfr3 b (by have := hb2 b hb; omega))
    (by
      have h1l := hc1.lens
      simp only [Heap.len, hfr3 a halt', hself2]
      congr 1
      rw [← h1l, hl1len]; simp only [hhp, hmp]; omega)
    hl3
    (by
      refine List.nodup_append.2 ⟨hnd3.1, hl3.2.2, ?_⟩
      intro x hx y hy hxy
      rcases List.mem_cons.1 hy with rfl | hy
      · have := hb2 x hx; omega
      · exact hnd3.2.2 x hx y hy hxy)
  refine ⟨h4, (ns1 ++ [m]) ++ h2.length :: ns2, ?_, ?_, ?_, ?_, by omega⟩
  · simp only [Heap.insert, hl.len]
    rw [if_neg (by omega), hpk, hfind]
    simp only [em, hh1, eh, hh2, hadd, hj]
  · rw [← hl1, ← hl2]; exact hl4
  · intro b
    rw [hmem b, hlen2]
    simp only [List.mem_append, List.mem_cons]
    constructor
    · rintro (h | h | h)
      · exact .inl (.inl h)
      · exact .inr h
      · exact .inl (.inr h)
    · rintro ((h | h) | h)
      · exact .inl h
      · exact .inr (.inr h)
      · exact .inr (.inl h)
  · intro b hb hbl
    have hb' : b ∉ ns1 ++ [m] := fun x => hb ((hmem b).2 (.inl x))
    rw [hfr4 b hb']
    have hba : b ≠ a := fun x => hb' (by rw [x]; exact ha)
    have hbm : b ≠ m := fun x => hb' (by simp [x])
    by_cases hlt : b < h.length
    · rw [hfr3 b hlt, hfr2 b hba, hfr1 b hbm]
    · rw [List.getElem?_eq_none (by omega), List.getElem?_eq_none (by omega)]

/-- Insert at or above the top. -/
theorem IsList.insert_top {h : Heap α} {p l ns} (hl : IsList h p l ns) (d : α) {pos : Int} (hk : l.length ≤ pos ∨ l = []) :
    ∃ h', Heap.insert h p d pos = .ret (h', some h.length) ∧ IsList h' (some h.length) (d :: l) (h.length :: ns) ∧
      (∀ b, b < h.length → h'[b]? = h[b]?) ∧ h'.length = h.length + 1 := by
  obtain ⟨h1, h2⟩ := hl.add d
  refine ⟨_, ?_, h2, fun b hb => List.getElem?_append_left hb, by simp⟩
  simp only [Heap.insert, hl.len]
  rcases p with _ | a
  · exact h1
  · rcases hk with hk | rfl
    · simp only
      rw [if_pos hk]; exact h1
    · have hc := hl.1
      rcases ns with _ | ⟨c, ns⟩ <;> simp [Chain] at hc

theorem addAll_eq : ∀ {ds : List α} {h : Heap α} {p l ns}, IsList h p l ns →
    ∃ h' p' ns', Heap.addAll h p ds = .ret (h', p') ∧ IsList h' p' (ds.reverse ++ l) ns' ∧
      (∀ b ∈ ns', b ∈ ns ∨ h.length ≤ b) ∧ (∀ b, b < h.length → h'[b]? = h[b]?) ∧ h.length ≤ h'.length
  | [], h, p, l, ns, hl => ⟨h, p, ns, rfl, by simpa using hl, fun b hb => .inl hb, fun _ _ => rfl, Nat.le_refl _⟩
  | d :: ds, h, p, l, ns, hl => by
    obtain ⟨h1, h2⟩ := hl.add d
    obtain ⟨h', p', ns', h3, h4, h5, h6, h7⟩ := addAll_eq (ds := ds) h2
    have hlen : (h ++ [(⟨d, p, l.length⟩ : Node α)]).length = h.length + 1 := by simp
    refine ⟨h', p', ns', by simp only [Heap.addAll, h1, h3], by simpa using h4, ?_, ?_, by omega⟩
    · intro b hb
      rcases h5 b hb with h | h
      · rcases List.mem_cons.1 h with rfl | h
        · exact .inr (Nat.le_refl _)
        · exact .inl h
      · exact .inr (by omega)
    · intro b hb
      rw [h6 b (by omega)]
      exact List.getElem?_append_left hb

theorem fromSlice_eq (h : Heap α) (ds : List α) :
    ∃ h' p' ns', Heap.fromSlice h ds = .ret (h', p') ∧ IsList h' p' ds ns' ∧
      (∀ b ∈ ns', h.length ≤ b) ∧ (∀ b, b < h.length → h'[b]? = h[b]?) ∧ h.length ≤ h'.length := by
  obtain ⟨h1, p1, ns1, h2, h3, h4, h5, h6⟩ := addAll_eq (ds := ds) (IsList.nil h)
  obtain ⟨h', p', h7, h8, h9, h10⟩ := h3.reverse
  refine ⟨h', p', ns1.reverse, by simp only [Heap.fromSlice, h2, h7], by simpa using h8, ?_, ?_, by omega⟩
  · intro b hb
    rcases h4 b (by simpa using hb) with h | h
    · simp at h
    · exact h
  · intro b hb
    rw [h9 b, h5 b hb]
    intro hm
    rcases h4 b hm with h | h
    · simp at h
    · omega

end
end GQL
