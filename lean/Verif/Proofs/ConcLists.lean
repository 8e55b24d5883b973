/-
The list operations of Model/Conc.
-/
import Verif.Proofs.ConcLogic
import Verif.Model.Schema

namespace GQL.Conc

section
variable {α β : Type} [IsItem α] {r : Memory} {F : HP}

/-- `p` points to a list of the items. -/
def LSeg : Ptr → List α → HP
  | p, [] => ⌜p = none⌝
  | p, x :: l => HP.ex fun a => HP.ex fun q => ⌜p = some a⌝ ⋆ a ↦ .node (IsItem.inj x) q l.length ⋆ LSeg q l

theorem LSeg.nil {P : HP} : P ⊢ₕ LSeg (α := α) none [] := fun _ _ => rfl

theorem LSeg.cons {a : Nat} {x : α} {q : Ptr} {l : List α} : a ↦ .node (IsItem.inj x) q l.length ⋆ LSeg q l ⊢ₕ LSeg (some a) (x :: l) :=
  intro_ex a (intro_ex q (intro_pure rfl (.refl _)))

/-- Cases of a list, in front of a program. -/
theorem Tri.lseg {p : Ptr} {l : List α} {g : Prog β} {Q : Out β → HP} (h1 : p = none → l = [] → Tri r F g Q)
    (h2 : ∀ a x q k, p = some a → l = x :: k → Tri r (a ↦ .node (IsItem.inj x) q k.length ⋆ LSeg q k ⋆ F) g Q) : Tri r (LSeg p l ⋆ F) g Q := by
  cases l with
  | nil => exact Tri.pure fun e => h1 e rfl
  | cons x l =>
    unfold LSeg
    rw [ex_star]
    refine Tri.exists fun a => ?_
    rw [ex_star]
    refine Tri.exists fun q => ?_
    rw [star_assoc]
    refine Tri.pure fun e => ?_
    rw [star_assoc]
    exact h2 a x q l e rfl

theorem len_ok {p : Ptr} {l : List α} {f : Int → Prog β} {Q : Out β → HP} (t : Tri r (LSeg p l ⋆ F) (f l.length) Q) :
    Tri r (LSeg p l ⋆ F) (len α p >>= f) Q := by
  refine Tri.lseg (α := α) (fun e1 e2 => ?_) fun a x q k e1 e2 => ?_
  · subst e1 e2
    exact Tri.pre (fun m h => (pure_star _ F m).2 ⟨rfl, h⟩) t
  · subst e1 e2
    rw [show (len α (some a) >>= f) = readNode (α := α) a >>= fun n => f (n.2.2 + 1) from Prog.bind_assoc _]
    refine Tri.readNode (α := α) (x := x) ?_
    show Tri r _ (f ((k.length : Int) + 1)) Q
    rw [show ((x :: k).length : Int) = k.length + 1 from by simp] at t
    refine Tri.pre ?_ t
    rw [← star_assoc]
    exact star_mono LSeg.cons (.refl _)

theorem itemsLoop_ok : ∀ (l : List α) (p : Ptr) (n : Nat), l.length ≤ n → Tri r (LSeg p l) (itemsLoop α n p) (rets fun v => ⌜v = l⌝ ⋆ LSeg p l)
  | [], p, n, _ => by
    refine fun m h => ?_
    have e : p = none := h
    subst e
    cases n with
    | zero => exact (pure_star _ _ m).2 ⟨rfl, rfl⟩
    | succ n => exact (pure_star _ _ m).2 ⟨rfl, rfl⟩
  | x :: l, p, 0, hn => by simp at hn
  | x :: l, p, n + 1, hn => by
    rw [← star_emp (LSeg p (x :: l))]
    refine Tri.lseg (fun _ e => by cases e) fun a y q k e1 e2 => ?_
    cases e2
    subst e1
    unfold itemsLoop
    refine Tri.readNode ?_
    dsimp only
    refine Tri.eq (P' := LSeg q l ⋆ a ↦ .node (IsItem.inj x) q l.length) (by rw [star_emp]; ac_rfl) ?_
    refine Tri.call (itemsLoop_ok l q n (by simpa using hn)) fun v => ?_
    rw [star_assoc]
    refine Tri.pure fun e => ?_
    subst e
    refine Tri.ret (intro_pure rfl ?_)
    rw [star_emp, star_comm]
    exact LSeg.cons

theorem items_ok {p : Ptr} {l : List α} : Tri r (LSeg p l) (items α p) (rets fun v => ⌜v = l⌝ ⋆ LSeg p l) := by
  refine Tri.eq (star_emp _).symm (len_ok ?_)
  rw [star_emp]
  exact itemsLoop_ok l p _ (by simp)

theorem items_call {p : Ptr} {l : List α} {f : List α → Prog β} {Q : Out β → HP} (t : Tri r (LSeg p l ⋆ F) (f l) Q) :
    Tri r (LSeg p l ⋆ F) (items α p >>= f) Q := Tri.call items_ok fun v => by
  rw [star_assoc]
  refine Tri.pure fun e => ?_
  subst e
  exact t

theorem add_ok {p : Ptr} {l : List α} {x : α} : Tri r (LSeg p l) (add α p x) (rets fun p => LSeg p (x :: l)) := by
  refine Tri.eq (star_emp _).symm (len_ok ?_)
  refine Tri.new fun a => Tri.ret ?_
  rw [star_emp]
  exact LSeg.cons

theorem addAll_ok : ∀ (xs : List α) (p : Ptr) (l : List α), Tri r (LSeg p l) (addAll α p xs) (rets fun p => LSeg p (xs.reverse ++ l))
  | [], p, l => Tri.ret (.refl _)
  | x :: xs, p, l => by
    refine Tri.bind add_ok fun p' => ?_
    refine (addAll_ok xs p' (x :: l)).rets fun v => entails_of_eq ?_
    simp

theorem reverseLoop_ok : ∀ (l acc : List α) (n : Nat) (p prev : Ptr), l.length ≤ n →
    Tri r (LSeg p l ⋆ LSeg prev acc) (reverseLoop α n p prev acc.length) (rets fun p => LSeg p (l.reverse ++ acc))
  | [], acc, n, p, prev, _ => by
    refine Tri.pure fun e => ?_
    subst e
    cases n <;> exact Tri.ret (.refl _)
  | x :: l, acc, 0, p, prev, hn => by simp at hn
  | x :: l, acc, n + 1, p, prev, hn => by
    refine Tri.lseg (fun _ e => by cases e) fun a y q k e1 e2 => ?_
    cases e2
    subst e1
    unfold reverseLoop
    refine Tri.readNode (Tri.put ?_)
    dsimp only
    have := reverseLoop_ok l (x :: acc) n q (some a) (by simpa using hn)
    rw [show ((x :: acc).length : Int) = acc.length + 1 from by simp] at this
    refine (Tri.pre ?_ this).rets fun v => entails_of_eq (by simp)
    refine HP.entails.trans (entails_of_eq ?_) (star_mono (.refl (LSeg q l)) (LSeg.cons (q := prev)))
    ac_rfl

theorem make_ok {l : List α} : Tri r HP.emp (make α l) (rets fun p => LSeg p l) := by
  refine Tri.pre (P' := LSeg (none : Ptr) ([] : List α)) LSeg.nil ?_
  refine Tri.bind (addAll_ok l none []) fun p => ?_
  rw [List.append_nil]
  refine Tri.eq (star_emp _).symm (len_ok ?_)
  refine Tri.pre (P' := LSeg p l.reverse ⋆ LSeg (none : Ptr) ([] : List α)) (star_mono (.refl _) LSeg.nil) ?_
  refine (reverseLoop_ok l.reverse [] _ p none (by simp)).rets fun v => entails_of_eq (by simp)

/-- Allocating a list in front of the rest. -/
theorem make_call {l : List α} {f : Ptr → Prog β} {Q : Out β → HP} (t : ∀ p, Tri r (LSeg p l ⋆ F) (f p) Q) : Tri r F (make α l >>= f) Q :=
  Tri.eq (emp_star _).symm (Tri.call make_ok t)

/-- Nodes from `p` to `q`, numbered downwards from `pos`. -/
def Seg : Ptr → List α → Ptr → Int → HP
  | p, [], q, _ => ⌜p = q⌝
  | p, x :: l, q, pos => HP.ex fun a => HP.ex fun b => ⌜p = some a⌝ ⋆ a ↦ .node (IsItem.inj x) b pos ⋆ Seg b l q (pos - 1)

theorem Seg.cons {a : Nat} {x : α} {b q : Ptr} {l : List α} {pos : Int} :
    a ↦ .node (IsItem.inj x) b pos ⋆ Seg b l q (pos - 1) ⊢ₕ Seg (some a) (x :: l) q pos := intro_ex a (intro_ex b (intro_pure rfl (.refl _)))

theorem joinLoop_ok : ∀ (l : List α) (x : α) (n : Nat) (a last : Nat) (q : Ptr) (k pos : Int), l.length + 1 ≤ n →
    Tri r (a ↦ .node (IsItem.inj x) q k ⋆ LSeg q l) (joinLoop α n last (some a) pos)
      (rets fun v => HP.ex fun l' => HP.ex fun y => ⌜x :: l = l' ++ [y]⌝ ⋆ Seg (some a) l' (some v) pos ⋆ v ↦ .node (IsItem.inj y) none (pos - l'.length))
  | l, x, 0, a, last, q, k, pos, hn => by simp at hn
  | [], x, n + 1, a, last, q, k, pos, hn => by
    rw [star_comm]
    refine Tri.pure fun e => ?_
    subst e
    unfold joinLoop
    refine Tri.eq (star_emp _).symm (Tri.readNode (Tri.put ?_))
    dsimp only
    rw [star_emp]
    have : joinLoop α n a none (pos - 1) = pure a := by cases n <;> rfl
    rw [this]
    refine Tri.ret (intro_ex [] (intro_ex x (intro_pure rfl (intro_pure rfl (entails_of_eq ?_)))))
    simp
  | y :: l, x, n + 1, a, last, q, k, pos, hn => by
    unfold joinLoop
    refine Tri.readNode (Tri.put ?_)
    dsimp only
    rw [star_comm]
    refine Tri.lseg (fun _ e => by cases e) fun b z q' l' e1 e2 => ?_
    cases e2
    subst e1
    rw [← star_assoc]
    have ih := joinLoop_ok l y n b a q' l.length (pos - 1) (by simpa using hn)
    refine (ih.frame (F := a ↦ .node (IsItem.inj x) (some b) pos)).post fun o => ?_
    cases o with
    | panic => exact elim_pure fun h => h.elim
    | oof => exact elim_pure fun h => h.elim
    | ret v =>
      unfold rets
      dsimp only
      rw [ex_star]
      refine elim_ex fun l' => ?_
      rw [ex_star]
      refine elim_ex fun w => ?_
      rw [star_assoc]
      refine elim_pure fun e => ?_
      refine intro_ex (x :: l') (intro_ex w (intro_pure (by rw [e]; rfl) ?_))
      rw [show pos - 1 - (l'.length : Int) = pos - ((x :: l').length : Int) from by simp; omega]
      refine HP.entails.trans (entails_of_eq ?_) (star_mono (Seg.cons (b := some b)) (.refl _))
      ac_rfl

/-- What the loop of `Join` leaves, with the second list attached. -/
theorem Seg.append : ∀ (l : List α) (p : Ptr) (v : Nat) (y : α) (q : Ptr) (m : List α) (pos : Int), pos = (l.length + m.length : Nat) →
    Seg p l (some v) pos ⋆ v ↦ .node (IsItem.inj y) q (pos - l.length) ⋆ LSeg q m ⊢ₕ LSeg p (l ++ y :: m)
  | [], p, v, y, q, m, pos, h => by
    refine elim_pure fun e => ?_
    subst e
    rw [show pos - (([] : List α).length : Int) = m.length from by simp [h]]
    exact LSeg.cons
  | x :: l, p, v, y, q, m, pos, h => by
    unfold Seg
    rw [ex_star]
    refine elim_ex fun a => ?_
    rw [ex_star]
    refine elim_ex fun b => ?_
    rw [star_assoc]
    refine elim_pure fun e => ?_
    subst e
    have hpos : pos = ((l ++ y :: m).length : Int) := by rw [h]; simp; omega
    have ih := Seg.append l b v y q m (pos - 1) (by rw [h]; simp; omega)
    rw [show pos - 1 - (l.length : Int) = pos - ((x :: l).length : Int) from by simp; omega] at ih
    rw [star_assoc]
    refine HP.entails.trans (star_mono (.refl _) ih) ?_
    rw [hpos]
    exact LSeg.cons

theorem join_ok {p q : Ptr} {l m : List α} : Tri r (LSeg p l ⋆ LSeg q m) (join α p q) (rets fun _ => LSeg p (joined l m)) := by
  unfold join
  cases p with
  | none =>
    refine Tri.lseg (α := α) (fun _ e => ?_) fun a x b k e => by cases e
    subst e
    exact Tri.ret (LSeg.nil (α := α))
  | some a =>
    dsimp only
    refine len_ok (α := α) ?_
    rw [star_comm]
    refine len_ok (α := α) ?_
    rw [star_comm]
    refine Tri.lseg (α := α) (fun e => by cases e) fun a' x b k e1 e2 => ?_
    cases e1
    subst e2
    rw [← star_assoc]
    refine Tri.call (joinLoop_ok k x _ a a b k.length _ (by simp)) fun v => ?_
    rw [ex_star]
    refine Tri.exists fun l' => ?_
    rw [ex_star]
    refine Tri.exists fun y => ?_
    rw [star_assoc]
    refine Tri.pure fun e => ?_
    refine Tri.eq (P' := v ↦ .node (IsItem.inj y) none ((((x :: k).length : Int) + m.length - 1) - l'.length) ⋆
      (Seg (some a) l' (some v) (((x :: k).length : Int) + m.length - 1) ⋆ LSeg q m)) (by ac_rfl) ?_
    refine Tri.readNode (α := α) ?_
    dsimp only
    refine Tri.write (Tri.ret ?_)
    have hlen : (x :: k).length = l'.length + 1 := by rw [e]; simp
    refine HP.entails.trans (entails_of_eq ?_) (HP.entails.trans (Seg.append l' (some a) v y q m (((x :: k).length : Int) + m.length - 1) ?_) (entails_of_eq ?_))
    · ac_rfl
    · rw [hlen]; simp; omega
    · show LSeg (some a) _ = LSeg (some a) (joined (x :: k) m)
      rw [e]
      simp [joined]

end

end GQL.Conc
