/-
A separation logic for the programs of Model/Conc: what a program does with the part of the memory that it owns.
-/
import Verif.Model.Conc

namespace GQL.Conc

/-! ### Parts of the memory -/

/-- Every cell of `h` is in `k`. -/
def Sub (h k : Memory) : Prop := ∀ a c, h a = some c → k a = some c

/-- No address is in both. -/
def Apart (h k : Memory) : Prop := ∀ a, h a = none ∨ k a = none

def union (h k : Memory) : Memory := fun a => match h a with
  | some c => some c
  | none => k a

theorem Sub.refl (h : Memory) : Sub h h := fun _ _ e => e

theorem Sub.trans {h k l : Memory} (x : Sub h k) (y : Sub k l) : Sub h l := fun a c e => y a c (x a c e)

theorem Sub.none {h k : Memory} (x : Sub h k) {a : Nat} (e : k a = none) : h a = none := by
  cases hh : h a with
  | none => rfl
  | some c => rw [x a c hh] at e; cases e

theorem Apart.symm {h k : Memory} (x : Apart h k) : Apart k h := fun a => (x a).symm

theorem Apart.sub {h k h' k' : Memory} (x : Apart h k) (s : Sub h' h) (t : Sub k' k) : Apart h' k' := fun a =>
  (x a).imp (fun e => s.none e) (fun e => t.none e)

theorem sub_left (h k : Memory) : Sub h (union h k) := fun a c e => by unfold union; rw [e]

theorem sub_right {h k : Memory} (x : Apart h k) : Sub k (union h k) := fun a c e => by
  unfold union
  rcases x a with y | y
  · rw [y]; exact e
  · rw [y] at e; cases e

theorem union_sub {h k l : Memory} (x : Sub h l) (y : Sub k l) : Sub (union h k) l := fun a c e => by
  unfold union at e
  cases hh : h a with
  | none => rw [hh] at e; exact y a c e
  | some d => rw [hh] at e; cases e; exact x a _ hh

theorem union_none {h k : Memory} {a : Nat} (e : union h k a = none) : h a = none ∧ k a = none := by
  unfold union at e
  cases hh : h a with
  | none => rw [hh] at e; exact ⟨rfl, e⟩
  | some d => rw [hh] at e; cases e

theorem union_apart {h k l : Memory} (x : Apart h l) (y : Apart k l) : Apart (union h k) l := fun a => by
  rcases x a with e | e
  · rcases y a with e' | e'
    · left; unfold union; rw [e]; exact e'
    · exact .inr e'
  · exact .inr e

theorem set_at (h : Memory) (a : Nat) (c : Cell) : h.set a c a = some c := by simp [Memory.set]

theorem set_ne (h : Memory) {a b : Nat} (c : Cell) (e : b ≠ a) : h.set a c b = h b := by simp [Memory.set, e]

/-! ### Assertions -/

/-- An assertion about a part of the memory, which holds of larger parts too. -/
structure HP where
  holds : Memory → Prop
  up : ∀ {h k : Memory}, Sub h k → holds h → holds k

theorem HP.ext' {P Q : HP} (h : ∀ m, P.holds m ↔ Q.holds m) : P = Q := by
  obtain ⟨p, hp⟩ := P
  obtain ⟨q, hq⟩ := Q
  have : p = q := funext fun m => propext (h m)
  subst this
  rfl

/-- `P` and, of another part, `Q`. -/
def HP.star (P Q : HP) : HP where
  holds m := ∃ h k, Apart h k ∧ Sub h m ∧ Sub k m ∧ P.holds h ∧ Q.holds k
  up := fun s ⟨h, k, x, a, b, p, q⟩ => ⟨h, k, x, a.trans s, b.trans s, p, q⟩

infixr:70 " ⋆ " => HP.star

/-- Something that has nothing to do with the memory. -/
def pure' (φ : Prop) : HP := ⟨fun _ => φ, fun _ h => h⟩

notation "⌜" φ "⌝" => pure' φ

def HP.emp : HP := ⌜True⌝

def HP.ex {ι : Type} (P : ι → HP) : HP := ⟨fun m => ∃ i, (P i).holds m, fun s ⟨i, h⟩ => ⟨i, (P i).up s h⟩⟩

def HP.or (P Q : HP) : HP := ⟨fun m => P.holds m ∨ Q.holds m, fun s h => h.imp (P.up s) (Q.up s)⟩

/-- The cell at `a` is `c`. -/
def at' (a : Nat) (c : Cell) : HP := ⟨fun m => m a = some c, fun s h => s _ _ h⟩

infix:75 " ↦ " => at'

def HP.entails (P Q : HP) : Prop := ∀ m, P.holds m → Q.holds m

infix:50 " ⊢ₕ " => HP.entails

theorem star_comm (P Q : HP) : P ⋆ Q = Q ⋆ P :=
  HP.ext' fun _ => ⟨fun ⟨h, k, x, a, b, p, q⟩ => ⟨k, h, x.symm, b, a, q, p⟩, fun ⟨h, k, x, a, b, p, q⟩ => ⟨k, h, x.symm, b, a, q, p⟩⟩

theorem star_assoc_le (P Q R : HP) : (P ⋆ Q) ⋆ R ⊢ₕ P ⋆ Q ⋆ R := by
  rintro m ⟨h, k, x, a, b, ⟨h1, h2, x1, a1, b1, p, q⟩, r⟩
  exact ⟨h1, union h2 k, (union_apart x1.symm (x.symm.sub (.refl _) a1)).symm, a1.trans a, union_sub (b1.trans a) b, p, h2, k,
    x.sub b1 (.refl _), sub_left _ _, sub_right (x.sub b1 (.refl _)), q, r⟩

theorem star_assoc (P Q R : HP) : (P ⋆ Q) ⋆ R = P ⋆ Q ⋆ R :=
  HP.ext' fun m => ⟨star_assoc_le P Q R m, fun h => by
    rw [star_comm P (Q ⋆ R), star_comm Q R] at h
    have := star_assoc_le R Q P m h
    rw [star_comm R, star_comm Q P] at this
    exact this⟩

instance : Std.Associative HP.star := ⟨star_assoc⟩
instance : Std.Commutative HP.star := ⟨star_comm⟩

def none' : Memory := fun _ => none

theorem none_sub (m : Memory) : Sub none' m := fun _ _ h => by cases h

theorem none_apart (m : Memory) : Apart m none' := fun _ => .inr rfl

theorem pure_star (φ : Prop) (P : HP) : ∀ m, (⌜φ⌝ ⋆ P).holds m ↔ φ ∧ P.holds m := fun m =>
  ⟨fun ⟨_, _, _, _, b, p, q⟩ => ⟨p, P.up b q⟩, fun ⟨p, q⟩ => ⟨none', m, (none_apart m).symm, none_sub _, .refl _, p, q⟩⟩

theorem emp_star (P : HP) : HP.emp ⋆ P = P := HP.ext' fun m => by rw [show HP.emp = ⌜True⌝ from rfl, pure_star]; simp

theorem star_emp (P : HP) : P ⋆ HP.emp = P := by rw [star_comm, emp_star]

theorem ex_star {ι : Type} (P : ι → HP) (Q : HP) : HP.ex P ⋆ Q = HP.ex fun i => P i ⋆ Q :=
  HP.ext' fun _ => ⟨fun ⟨h, k, x, a, b, ⟨i, p⟩, q⟩ => ⟨i, h, k, x, a, b, p, q⟩, fun ⟨i, h, k, x, a, b, p, q⟩ => ⟨h, k, x, a, b, ⟨i, p⟩, q⟩⟩

theorem or_star (P Q R : HP) : HP.or P Q ⋆ R = HP.or (P ⋆ R) (Q ⋆ R) :=
  HP.ext' fun _ => ⟨fun ⟨h, k, x, a, b, p, q⟩ => p.imp (fun p => ⟨h, k, x, a, b, p, q⟩) (fun p => ⟨h, k, x, a, b, p, q⟩), fun h => by
    rcases h with ⟨h, k, x, a, b, p, q⟩ | ⟨h, k, x, a, b, p, q⟩
    · exact ⟨h, k, x, a, b, .inl p, q⟩
    · exact ⟨h, k, x, a, b, .inr p, q⟩⟩

theorem HP.entails.refl (P : HP) : P ⊢ₕ P := fun _ h => h

theorem HP.entails.trans {P Q R : HP} (h : P ⊢ₕ Q) (k : Q ⊢ₕ R) : P ⊢ₕ R := fun m x => k m (h m x)

theorem star_mono {P Q P' Q' : HP} (h : P ⊢ₕ P') (k : Q ⊢ₕ Q') : P ⋆ Q ⊢ₕ P' ⋆ Q' := fun _ ⟨x, y, d, a, b, p, q⟩ => ⟨x, y, d, a, b, h _ p, k _ q⟩

theorem star_left (P Q : HP) : P ⋆ Q ⊢ₕ P := fun _ ⟨_, _, _, a, _, p, _⟩ => P.up a p

theorem star_right (P Q : HP) : P ⋆ Q ⊢ₕ Q := fun _ ⟨_, _, _, _, b, _, q⟩ => Q.up b q

theorem intro_pure {φ : Prop} {P Q : HP} (h : φ) (k : P ⊢ₕ Q) : P ⊢ₕ ⌜φ⌝ ⋆ Q := fun m x => (pure_star φ Q m).2 ⟨h, k m x⟩

theorem elim_pure {φ : Prop} {P Q : HP} (k : φ → P ⊢ₕ Q) : ⌜φ⌝ ⋆ P ⊢ₕ Q := fun m x => k ((pure_star φ P m).1 x).1 m ((pure_star φ P m).1 x).2

theorem elim_ex {ι : Type} {P : ι → HP} {Q : HP} (k : ∀ i, P i ⊢ₕ Q) : HP.ex P ⊢ₕ Q := fun m ⟨i, x⟩ => k i m x

theorem intro_ex {ι : Type} {P : HP} {Q : ι → HP} (i : ι) (k : P ⊢ₕ Q i) : P ⊢ₕ HP.ex Q := fun m x => ⟨i, k m x⟩

theorem entails_of_eq {P Q : HP} (h : P = Q) : P ⊢ₕ Q := h ▸ .refl P

/-! ### Programs -/

section
variable {α β : Type}

/-- The program, which owns `h` and may read `r` too, accesses nothing else, and when it is done `Q` holds of the result and of what it owns then. -/
def WP (r : Memory) : Prog α → (Out α → Memory → Prop) → Memory → Prop
  | .done o, Q, h => Q o h
  | .read a k, Q, h => ∃ c, (h a = some c ∨ r a = some c) ∧ WP r (k c) Q h
  | .write a c k, Q, h => (h a).isSome = true ∧ WP r k Q (h.set a c)
  | .alloc c k, Q, h => ∀ a, h a = none → r a = none → WP r (k a) Q (h.set a c)

theorem Prog.bind_assoc {γ : Type} {f : α → Prog β} {g : β → Prog γ} : ∀ p : Prog α, (p.bind f).bind g = p.bind fun x => (f x).bind g
  | .done (.ret _) => rfl
  | .done .panic => rfl
  | .done .oof => rfl
  | .read a k => congrArg (Prog.read a) (funext fun c => Prog.bind_assoc (k c))
  | .write a c k => congrArg (Prog.write a c) (Prog.bind_assoc k)
  | .alloc c k => congrArg (Prog.alloc c) (funext fun a => Prog.bind_assoc (k a))

theorem WP.mono {r : Memory} {Q Q' : Out α → Memory → Prop} (hq : ∀ o h, Q o h → Q' o h) : ∀ (p : Prog α) (h : Memory), WP r p Q h → WP r p Q' h
  | .done o, h, x => hq o h x
  | .read a k, h, ⟨c, x, y⟩ => ⟨c, x, WP.mono hq (k c) h y⟩
  | .write a c k, h, ⟨x, y⟩ => ⟨x, WP.mono hq k _ y⟩
  | .alloc c k, h, x => fun a e f => WP.mono hq (k a) _ (x a e f)

theorem WP.bind {r : Memory} {Q : Out β → Memory → Prop} {f : α → Prog β} : ∀ (p : Prog α) (h : Memory),
    WP r p (fun o h => match o with
      | .ret v => WP r (f v) Q h
      | .panic => Q .panic h
      | .oof => Q .oof h) h → WP r (p.bind f) Q h
  | .done (.ret v), h, x => x
  | .done .panic, h, x => x
  | .done .oof, h, x => x
  | .read a k, h, ⟨c, x, y⟩ => ⟨c, x, WP.bind (k c) h y⟩
  | .write a c k, h, ⟨x, y⟩ => ⟨x, WP.bind k _ y⟩
  | .alloc c k, h, x => fun a e f => WP.bind (k a) _ (x a e f)

/-- What the program does not own and does not read is still there. -/
theorem WP.frame {r : Memory} {Q : Out α → Memory → Prop} {f m : Memory} : ∀ (p : Prog α) (h : Memory), WP r p Q h → Apart h f → Sub h m → Sub f m →
    WP r p (fun o m => ∃ h, Apart h f ∧ Sub h m ∧ Sub f m ∧ Q o h) m
  | .done o, h, x, d, s, t => ⟨h, d, s, t, x⟩
  | .read a k, h, ⟨c, x, y⟩, d, s, t => ⟨c, x.imp_left (s a c), WP.frame (k c) h y d s t⟩
  | .write a c k, h, ⟨x, y⟩, d, s, t => by
    have hf : f a = none := (d a).resolve_left fun e => by rw [e] at x; cases x
    obtain ⟨c', hc'⟩ := Option.isSome_iff_exists.1 x
    refine ⟨by rw [s a c' hc']; rfl, WP.frame (m := m.set a c) k (h.set a c) y ?_ ?_ ?_⟩
    · intro b
      by_cases e : b = a
      · exact .inr (e ▸ hf)
      · rw [set_ne h c e]; exact d b
    · intro b c' hb
      by_cases e : b = a
      · subst e; rw [set_at] at hb ⊢; exact hb
      · rw [set_ne _ _ e] at hb ⊢; exact s b c' hb
    · intro b c' hb
      have e : b ≠ a := fun e => by rw [e, hf] at hb; cases hb
      rw [set_ne _ _ e]; exact t b c' hb
  | .alloc c k, h, x, d, s, t => fun a e g => by
    have hf : f a = none := t.none e
    refine WP.frame (m := m.set a c) (k a) (h.set a c) (x a (s.none e) g) ?_ ?_ ?_
    · intro b
      by_cases e : b = a
      · exact .inr (e ▸ hf)
      · rw [set_ne h c e]; exact d b
    · intro b c' hb
      by_cases e : b = a
      · subst e; rw [set_at] at hb ⊢; exact hb
      · rw [set_ne _ _ e] at hb ⊢; exact s b c' hb
    · intro b c' hb
      have e : b ≠ a := fun e => by rw [e, hf] at hb; cases hb
      rw [set_ne _ _ e]; exact t b c' hb

/-- If `P` holds of what the program owns, then it accesses nothing else but `r`, and `Q` holds in the end. -/
def Tri (r : Memory) (P : HP) (p : Prog α) (Q : Out α → HP) : Prop := ∀ h, P.holds h → WP r p (fun o h => (Q o).holds h) h

/-- The program returns and `Q` holds. -/
def rets (Q : α → HP) : Out α → HP
  | .ret v => Q v
  | _ => ⌜False⌝

variable {r : Memory} {P P' F : HP} {p : Prog α} {R : Out β → HP} {Q : Out α → HP}

theorem Tri.pre (h : P ⊢ₕ P') (t : Tri r P' p Q) : Tri r P p Q := fun m x => t m (h m x)

theorem Tri.post {Q' : Out α → HP} (t : Tri r P p Q) (h : ∀ o, Q o ⊢ₕ Q' o) : Tri r P p Q' := fun m x => WP.mono (fun o k => h o k) p m (t m x)

theorem Tri.rets {Q Q' : α → HP} (t : Tri r P p (rets Q)) (h : ∀ v, Q v ⊢ₕ Q' v) : Tri r P p (rets Q') := t.post fun o => by
  cases o with
  | ret v => exact h v
  | panic => exact .refl _
  | oof => exact .refl _

theorem Tri.ret {v : α} {Q : Out α → HP} (h : P ⊢ₕ Q (.ret v)) : Tri r P (pure v) Q := fun m x => h m x

theorem Tri.done {o : Out α} {Q : Out α → HP} (h : P ⊢ₕ Q o) : Tri r P (.done o) Q := fun m x => h m x

theorem Tri.bind {Q : α → HP} {f : α → Prog β} (t : Tri r P p (Conc.rets Q)) (k : ∀ v, Tri r (Q v) (f v) R) : Tri r P (p >>= f) R := fun m x => by
  refine WP.bind p m (WP.mono (fun o h y => ?_) p m (t m x))
  cases o with
  | ret v => exact k v h y
  | panic => exact y.elim
  | oof => exact y.elim

theorem Tri.frame (t : Tri r P p Q) : Tri r (P ⋆ F) p (fun o => Q o ⋆ F) := by
  rintro m ⟨h, k, d, a, b, x, y⟩
  exact WP.mono (fun o m' ⟨h', d', a', b', z⟩ => ⟨h', k, d', a', b', z, y⟩) p m (WP.frame p h (t h x) d a b)

/-- A part of the program that concerns only `P`. -/
theorem Tri.call {Q : α → HP} {f : α → Prog β} (t : Tri r P p (Conc.rets Q)) (k : ∀ v, Tri r (Q v ⋆ F) (f v) R) : Tri r (P ⋆ F) (p >>= f) R := by
  refine Tri.bind (Q := fun v => Q v ⋆ F) ((t.frame (F := F)).post fun o => ?_) k
  cases o with
  | ret v => exact .refl _
  | panic => exact elim_pure fun h => h.elim
  | oof => exact elim_pure fun h => h.elim

theorem Tri.exists {ι : Type} {P : ι → HP} (k : ∀ i, Tri r (P i) p Q) : Tri r (HP.ex P) p Q := fun m ⟨i, x⟩ => k i m x

theorem Tri.pure {φ : Prop} (k : φ → Tri r P p Q) : Tri r (⌜φ⌝ ⋆ P) p Q := fun m x => k ((pure_star φ P m).1 x).1 m ((pure_star φ P m).1 x).2

theorem Tri.or {P' : HP} (h : Tri r P p Q) (k : Tri r P' p Q) : Tri r (HP.or P P') p Q := fun m x => x.elim (h m) (k m)

theorem Tri.eq (h : P = P') (t : Tri r P' p Q) : Tri r P p Q := h ▸ t

theorem Tri.false (h : P ⊢ₕ ⌜False⌝) : Tri r P p Q := fun m x => (h m x).elim

/-! ### Accesses -/

theorem Tri.read {a : Nat} {c : Cell} {k : Cell → Prog α} (t : Tri r (a ↦ c ⋆ F) (k c) Q) : Tri r (a ↦ c ⋆ F) (.read a k) Q := fun m x =>
  ⟨c, .inl (star_left _ _ m x), t m x⟩

theorem Tri.readFrom {a : Nat} {c : Cell} {k : Cell → Prog α} (h : r a = some c) (t : Tri r P (k c) Q) : Tri r P (.read a k) Q := fun m x =>
  ⟨c, .inr h, t m x⟩

theorem Tri.write {a : Nat} {c d : Cell} {k : Prog α} (t : Tri r (a ↦ d ⋆ F) k Q) : Tri r (a ↦ c ⋆ F) (.write a d k) Q := fun m x => by
  refine ⟨by rw [show m a = some c from star_left _ _ m x]; rfl, t _ ?_⟩
  obtain ⟨h, k', d', s1, s2, y, z⟩ := x
  have hk : k' a = none := (d' a).resolve_left fun e => by rw [show h a = some c from y] at e; cases e
  refine ⟨h.set a d, k', ?_, ?_, ?_, set_at h a d, z⟩
  · intro b
    by_cases e : b = a
    · exact .inr (e ▸ hk)
    · rw [set_ne h d e]; exact d' b
  · intro b c' hb
    by_cases e : b = a
    · subst e; rw [set_at] at hb ⊢; exact hb
    · rw [set_ne _ _ e] at hb ⊢; exact s1 b c' hb
  · intro b c' hb
    have e : b ≠ a := fun e => by rw [e, hk] at hb; cases hb
    rw [set_ne _ _ e]; exact s2 b c' hb

theorem Tri.alloc {c : Cell} {k : Nat → Prog α} (t : ∀ a, Tri r (a ↦ c ⋆ F) (k a) Q) : Tri r F (.alloc c k) Q := fun m x a e _ => by
  refine t a _ ⟨none'.set a c, m, ?_, ?_, ?_, set_at _ _ _, x⟩
  · intro b
    by_cases e' : b = a
    · exact .inr (e' ▸ e)
    · exact .inl (by rw [set_ne _ _ e']; rfl)
  · intro b c' hb
    by_cases e : b = a
    · subst e; rw [set_at] at hb ⊢; exact hb
    · rw [set_ne _ _ e] at hb; cases hb
  · intro b c' hb
    have e : b ≠ a := fun e' => by rw [e', e] at hb; cases hb
    rw [set_ne _ _ e]; exact hb

end

section
variable {β : Type} {r : Memory} {F : HP} {R : Out β → HP}

theorem Tri.put {a : Nat} {c d : Cell} {f : Unit → Prog β} (t : Tri r (a ↦ d ⋆ F) (f ()) R) : Tri r (a ↦ c ⋆ F) (put a d >>= f) R :=
  Tri.write (k := (Pure.pure () : Prog Unit).bind f) t

theorem Tri.new {c : Cell} {f : Nat → Prog β} (t : ∀ a, Tri r (a ↦ c ⋆ F) (f a) R) : Tri r F (new c >>= f) R :=
  Tri.alloc (k := fun a => (Pure.pure a : Prog Nat).bind f) t

theorem Tri.readNode {α : Type} [IsItem α] {a : Nat} {x : α} {q : Ptr} {pos : Int} {f : α × Ptr × Int → Prog β}
    (t : Tri r (a ↦ .node (IsItem.inj x) q pos ⋆ F) (f (x, q, pos)) R) : Tri r (a ↦ .node (IsItem.inj x) q pos ⋆ F) (readNode a >>= f) R := by
  refine Tri.read (k := fun c => Prog.bind _ f) ?_
  dsimp only
  rw [IsItem.proj_inj]
  exact t

theorem Tri.readTypeCell {a : Nat} {c : TypeCell} {f : TypeCell → Prog β} (t : Tri r (a ↦ .type c ⋆ F) (f c) R) :
    Tri r (a ↦ .type c ⋆ F) (readTypeCell a >>= f) R := Tri.read (k := fun c => Prog.bind _ f) t

theorem Tri.readTypeCellFrom {P : HP} {a : Nat} {c : TypeCell} {f : TypeCell → Prog β} (h : r a = some (.type c)) (t : Tri r P (f c) R) :
    Tri r P (Conc.readTypeCell a >>= f) R := Tri.readFrom (k := fun c => Prog.bind _ f) h t

theorem Tri.readSchemaDefCell {a : Nat} {p q : Ptr} {f : Ptr × Ptr → Prog β} (t : Tri r (a ↦ .schemaDef p q ⋆ F) (f (p, q)) R) :
    Tri r (a ↦ .schemaDef p q ⋆ F) (readSchemaDefCell a >>= f) R := Tri.read (k := fun c => Prog.bind _ f) t

theorem Tri.readSchemaCell {a : Nat} {c : SchemaCell} {f : SchemaCell → Prog β} (t : Tri r (a ↦ .schema c ⋆ F) (f c) R) :
    Tri r (a ↦ .schema c ⋆ F) (readSchemaCell a >>= f) R := Tri.read (k := fun c => Prog.bind _ f) t

theorem Tri.readDirMap {a : Nat} {m : GMap DirDef} {f : GMap DirDef → Prog β} (t : Tri r (a ↦ .dirMap m ⋆ F) (f m) R) :
    Tri r (a ↦ .dirMap m ⋆ F) (readDirMap (some a) >>= f) R := Tri.read (k := fun c => Prog.bind _ f) t

theorem Tri.readTypeMap {a : Nat} {m : GMap Nat} {f : GMap Nat → Prog β} (t : Tri r (a ↦ .typeMap m ⋆ F) (f m) R) :
    Tri r (a ↦ .typeMap m ⋆ F) (readTypeMap (some a) >>= f) R := Tri.read (k := fun c => Prog.bind _ f) t

end

end GQL.Conc
