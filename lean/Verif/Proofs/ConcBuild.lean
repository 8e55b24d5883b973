/-
`BuildSchema` of Model/Conc does what `BuildSchema` on values does, and touches nothing but the schema and the definitions of the document.
-/
import Verif.Proofs.ConcLists
import Verif.Proofs.HeapState

namespace GQL.Conc

variable {r : Memory} {F : HP}

/-! ### Maps and lists of things in memory -/

section
variable {σ τ : Type} {R : σ → τ → HP}

/-- The entries of the maps belong together. -/
def Map2 (R : σ → τ → HP) : GMap σ → GMap τ → HP
  | [], [] => .emp
  | (n, a) :: m, (n', t) :: ts => ⌜n = n'⌝ ⋆ R a t ⋆ Map2 R m ts
  | [], _ :: _ => ⌜False⌝
  | _ :: _, [] => ⌜False⌝

def All2 (R : σ → τ → HP) : List σ → List τ → HP
  | [], [] => .emp
  | a :: m, t :: ts => R a t ⋆ All2 R m ts
  | [], _ :: _ => ⌜False⌝
  | _ :: _, [] => ⌜False⌝

theorem newMap_ok {f : τ → Prog σ} (hf : ∀ t, Tri r .emp (f t) (rets fun a => R a t)) : ∀ ts : GMap τ, Tri r .emp (newMap f ts) (rets fun m => Map2 R m ts)
  | [] => Tri.ret (.refl _)
  | (n, t) :: ts => by
    refine Tri.eq (emp_star _).symm (Tri.call (hf t) fun a => ?_)
    rw [star_comm]
    refine Tri.call (newMap_ok hf ts) fun l => Tri.ret (intro_pure rfl (entails_of_eq ?_))
    ac_rfl

theorem newAll_ok {f : τ → Prog σ} (hf : ∀ t, Tri r .emp (f t) (rets fun a => R a t)) : ∀ ts : List τ, Tri r .emp (newAll f ts) (rets fun m => All2 R m ts)
  | [] => Tri.ret (.refl _)
  | t :: ts => by
    refine Tri.eq (emp_star _).symm (Tri.call (hf t) fun a => ?_)
    rw [star_comm]
    refine Tri.call (newAll_ok hf ts) fun l => Tri.ret (entails_of_eq ?_)
    show _ = R a t ⋆ All2 R l ts
    ac_rfl

theorem lookup_here {α : Type} (n : Bytes) (v : α) (l : GMap α) : ((n, v) :: l : GMap α).lookup n = some v := by simp [List.lookup]

theorem lookup_there {α : Type} {n k : Bytes} (v : α) (l : GMap α) (h : n ≠ k) : ((k, v) :: l : GMap α).lookup n = l.lookup n := by
  have : (n == k) = false := by simpa using h
  simp only [List.lookup, this]

theorem mapSet_here {α : Type} (n : Bytes) (v w : α) (l : GMap α) : mapSet ((n, v) :: l) n w = (n, w) :: l := by simp [mapSet]

theorem mapSet_there {α : Type} {n k : Bytes} (v w : α) (l : GMap α) (h : n ≠ k) : mapSet ((k, v) :: l) n w = (k, v) :: mapSet l n w := by
  have : (k == n) = false := by simpa using fun e => h e.symm
  simp [mapSet, this]

theorem map2_none {n : Bytes} : ∀ {m : GMap σ} {ts : GMap τ}, m.lookup n = none → Map2 R m ts ⊢ₕ ⌜ts.lookup n = none⌝
  | [], [], _ => fun _ _ => rfl
  | [], _ :: _, _ => fun _ h => h.elim
  | _ :: _, [], _ => fun _ h => h.elim
  | (k, a) :: m, (k', t) :: ts, h => by
    refine elim_pure fun e => ?_
    subst e
    by_cases hk : n = k
    · subst hk; rw [lookup_here] at h; cases h
    · rw [lookup_there _ _ hk] at h ⊢
      exact (star_right _ _).trans (map2_none h)

theorem map2_some {n : Bytes} {a : σ} : ∀ {m : GMap σ} {ts : GMap τ}, m.lookup n = some a →
    Map2 R m ts ⊢ₕ HP.ex fun t => HP.ex fun K => ⌜ts.lookup n = some t ∧ ∀ t', R a t' ⋆ K ⊢ₕ Map2 R m (mapSet ts n t')⌝ ⋆ R a t ⋆ K
  | [], [], h => by cases h
  | [], _ :: _, h => by cases h
  | _ :: _, [], _ => fun _ h => h.elim
  | (k, b) :: m, (k', t) :: ts, h => by
    refine elim_pure fun e => ?_
    subst e
    by_cases hk : n = k
    · subst hk
      rw [lookup_here] at h
      cases h
      refine intro_ex t (intro_ex (Map2 R m ts) (intro_pure ⟨lookup_here _ _ _, fun t' => ?_⟩ (.refl _)))
      rw [mapSet_here]
      exact intro_pure rfl (.refl _)
    · rw [lookup_there _ _ hk] at h
      refine (star_mono (.refl _) (map2_some h)).trans ?_
      rw [star_comm, ex_star]
      refine elim_ex fun t1 => ?_
      rw [ex_star]
      refine elim_ex fun K => ?_
      rw [star_assoc]
      refine elim_pure fun ⟨e1, e2⟩ => ?_
      refine intro_ex t1 (intro_ex (R b t ⋆ K) (intro_pure ⟨by rw [lookup_there _ _ hk]; exact e1, fun t' => ?_⟩ (entails_of_eq (by ac_rfl))))
      rw [mapSet_there _ _ _ hk]
      refine intro_pure rfl (HP.entails.trans (entails_of_eq ?_) (star_mono (.refl (R b t)) (e2 t')))
      ac_rfl

theorem map2_set {n : Bytes} {a : σ} {t : τ} : ∀ {m : GMap σ} {ts : GMap τ}, Map2 R m ts ⋆ R a t ⊢ₕ Map2 R (mapSet m n a) (mapSet ts n t)
  | [], [] => intro_pure rfl (entails_of_eq (star_comm _ _))
  | [], _ :: _ => elim_pure fun h => h.elim
  | _ :: _, [] => elim_pure fun h => h.elim
  | (k, b) :: m, (k', u) :: ts => by
    show (⌜k = k'⌝ ⋆ R b u ⋆ Map2 R m ts) ⋆ R a t ⊢ₕ _
    rw [star_assoc]
    refine elim_pure fun e => ?_
    subst e
    by_cases hk : n = k
    · subst hk
      rw [mapSet_here, mapSet_here]
      refine intro_pure rfl (HP.entails.trans (entails_of_eq ?_) (star_right (R b u) _))
      ac_rfl
    · rw [mapSet_there _ _ _ hk, mapSet_there _ _ _ hk]
      refine intro_pure rfl (HP.entails.trans (entails_of_eq ?_) (star_mono (.refl (R b u)) (map2_set (m := m) (ts := ts))))
      ac_rfl

theorem map2_perm {m' m : GMap σ} (h : m'.Perm m) : ∀ {ts : GMap τ}, Map2 R m ts ⊢ₕ HP.ex fun ts' => ⌜ts'.Perm ts⌝ ⋆ Map2 R m' ts' := by
  induction h with
  | nil => intro ts; exact intro_ex ts (intro_pure (.refl _) (.refl _))
  | @cons x l l' _ ih =>
    intro ts
    obtain ⟨n, a⟩ := x
    cases ts with
    | nil => exact fun _ h => h.elim
    | cons y ts =>
      obtain ⟨n', t⟩ := y
      refine elim_pure fun e => ?_
      refine (star_mono (.refl _) ih).trans ?_
      rw [star_comm, ex_star]
      refine elim_ex fun ts' => ?_
      rw [star_assoc]
      refine elim_pure fun p => ?_
      refine intro_ex ((n', t) :: ts') (intro_pure (p.cons _) (intro_pure e (entails_of_eq (star_comm _ _))))
  | swap x y l =>
    intro ts
    obtain ⟨n1, a1⟩ := x
    obtain ⟨n2, a2⟩ := y
    cases ts with
    | nil => exact fun _ h => h.elim
    | cons u ts =>
      obtain ⟨k1, t1⟩ := u
      refine elim_pure fun e => ?_
      cases ts with
      | nil => exact fun _ ⟨_, _, _, _, _, _, h⟩ => h.elim
      | cons v ts =>
        obtain ⟨k2, t2⟩ := v
        show R a1 t1 ⋆ ⌜n2 = k2⌝ ⋆ R a2 t2 ⋆ Map2 R l ts ⊢ₕ _
        rw [show R a1 t1 ⋆ ⌜n2 = k2⌝ ⋆ R a2 t2 ⋆ Map2 R l ts = ⌜n2 = k2⌝ ⋆ R a2 t2 ⋆ R a1 t1 ⋆ Map2 R l ts from by ac_rfl]
        refine elim_pure fun e' => ?_
        refine intro_ex ((k2, t2) :: (k1, t1) :: ts) (intro_pure (.swap _ _ _) (intro_pure e' ?_))
        exact star_mono (.refl _) (intro_pure e (.refl _))
  | trans _ _ ih1 ih2 =>
    intro ts
    refine ih2.trans (elim_ex fun ts' => elim_pure fun p => ?_)
    refine ih1.trans (elim_ex fun ts'' => elim_pure fun p' => ?_)
    exact intro_ex ts'' (intro_pure (p'.trans p) (.refl _))

end

/-! ### Types -/

def headOf (t : TypeDef) : TypeHead := ⟨t.desc, t.name, t.kind⟩

/-- The lists of a type struct. -/
def Lists (c : TypeCell) (t : TypeDef) : HP :=
  LSeg c.dirs t.dirs ⋆ LSeg c.fields t.fields ⋆ LSeg c.ifaces t.ifaces ⋆ LSeg c.members t.members ⋆ LSeg c.values t.values ⋆ LSeg c.inputs t.inputs

/-- At `a` there is a type struct with contents `t`, which is owned. -/
def OwnT (a : Nat) (t : TypeDef) : HP := HP.ex fun c => ⌜c.head = headOf t⌝ ⋆ a ↦ .type c ⋆ Lists c t

theorem newType_ok (t : TypeDef) : Tri r .emp (newType t) (rets fun a => OwnT a t) := by
  unfold newType
  refine make_call fun p1 => make_call fun p2 => make_call fun p3 => make_call fun p4 => make_call fun p5 => make_call fun p6 => ?_
  refine Tri.alloc fun a => Tri.ret (intro_ex { head := headOf t, dirs := p1, fields := p2, ifaces := p3, members := p4, values := p5, inputs := p6 } (intro_pure rfl ?_))
  unfold Lists
  rw [star_emp]
  refine star_mono (.refl _) (entails_of_eq ?_)
  dsimp only
  ac_rfl

/-- `a` is the address of a global variable with contents `t`. -/
def Glob (r : Memory) (a : Nat) (t : TypeDef) : Prop := r a = some (.type { head := headOf t }) ∧ Inert t

/-- At `a` there is a type struct with contents `t`, which is owned or a global variable. -/
def RefT (r : Memory) (a : Nat) (t : TypeDef) : HP := HP.or ⌜Glob r a t⌝ (OwnT a t)

theorem Inert.eq {t : TypeDef} (h : Inert t) : t = { desc := t.desc, name := t.name, kind := t.kind } := by
  obtain ⟨desc, name, kind, ifaces, dirs, fields, members, values, inputs⟩ := t
  obtain ⟨rfl, rfl, rfl, rfl, rfl, rfl⟩ := h
  rfl

theorem readType_ok {a : Nat} {t : TypeDef} : Tri r (RefT r a t) (readType a) (rets fun v => ⌜v = t⌝ ⋆ RefT r a t) := by
  unfold readType
  refine Tri.or ?_ ?_
  · rw [← star_emp ⌜Glob r a t⌝]
    refine Tri.pure fun ⟨h1, h2⟩ => ?_
    refine Tri.readTypeCellFrom h1 ?_
    refine Tri.ret (v := ({ desc := t.desc, name := t.name, kind := t.kind } : TypeDef)) ?_
    exact intro_pure (Inert.eq h2).symm fun _ _ => .inl ⟨h1, h2⟩
  · refine Tri.exists fun c => Tri.pure fun hc => Tri.readTypeCell ?_
    rw [star_comm]
    unfold Lists
    simp only [star_assoc]
    refine items_call (l := t.dirs) ?_
    refine Tri.eq (P' := LSeg c.fields t.fields ⋆ LSeg c.ifaces t.ifaces ⋆ LSeg c.members t.members ⋆ LSeg c.values t.values ⋆ LSeg c.inputs t.inputs ⋆
      a ↦ .type c ⋆ LSeg c.dirs t.dirs) (by ac_rfl) ?_
    refine items_call (l := t.fields) ?_
    refine Tri.eq (P' := LSeg c.ifaces t.ifaces ⋆ LSeg c.members t.members ⋆ LSeg c.values t.values ⋆ LSeg c.inputs t.inputs ⋆
      a ↦ .type c ⋆ LSeg c.dirs t.dirs ⋆ LSeg c.fields t.fields) (by ac_rfl) ?_
    refine items_call (l := t.ifaces) ?_
    refine Tri.eq (P' := LSeg c.members t.members ⋆ LSeg c.values t.values ⋆ LSeg c.inputs t.inputs ⋆
      a ↦ .type c ⋆ LSeg c.dirs t.dirs ⋆ LSeg c.fields t.fields ⋆ LSeg c.ifaces t.ifaces) (by ac_rfl) ?_
    refine items_call (l := t.members) ?_
    refine Tri.eq (P' := LSeg c.values t.values ⋆ LSeg c.inputs t.inputs ⋆
      a ↦ .type c ⋆ LSeg c.dirs t.dirs ⋆ LSeg c.fields t.fields ⋆ LSeg c.ifaces t.ifaces ⋆ LSeg c.members t.members) (by ac_rfl) ?_
    refine items_call (l := t.values) ?_
    refine Tri.eq (P' := LSeg c.inputs t.inputs ⋆
      a ↦ .type c ⋆ LSeg c.dirs t.dirs ⋆ LSeg c.fields t.fields ⋆ LSeg c.ifaces t.ifaces ⋆ LSeg c.members t.members ⋆ LSeg c.values t.values) (by ac_rfl) ?_
    refine items_call (l := t.inputs) ?_
    refine Tri.ret (intro_pure ?_ fun m h => .inr (intro_ex c (intro_pure hc (entails_of_eq ?_)) m h))
    · rw [hc]; rfl
    · unfold Lists; ac_rfl

/-- One `Join`, in front of the rest. -/
theorem join_call {α β : Type} [IsItem α] {p q : Ptr} {l m : List α} {f : Unit → Prog β} {Q : Out β → HP} (t : Tri r (LSeg p (joined l m) ⋆ F) (f ()) Q) :
    Tri r ((LSeg p l ⋆ LSeg q m) ⋆ F) (join α p q >>= f) Q := Tri.call join_ok fun _ => t

theorem join_last {α : Type} [IsItem α] {p q : Ptr} {l m : List α} {Q : HP} (t : LSeg p (joined l m) ⋆ F ⊢ₕ Q) :
    Tri r ((LSeg p l ⋆ LSeg q m) ⋆ F) (join α p q) (rets fun _ => Q) := (join_ok.frame).post fun o => by
  cases o with
  | ret v => exact t
  | panic => exact elim_pure fun h => h.elim
  | oof => exact elim_pure fun h => h.elim

theorem mergeTypeExt_ok {a e : Nat} {t te : TypeDef} : Tri r (RefT r a t ⋆ OwnT e te) (mergeTypeExt a e) (rets fun _ => RefT r a (GQL.mergeTypeExt t te)) := by
  unfold RefT
  rw [or_star]
  refine Tri.or ?_ ?_
  · refine Tri.pure fun ⟨h1, h2⟩ => ?_
    refine Tri.exists fun d => Tri.pure fun hd => ?_
    unfold mergeTypeExt
    refine Tri.readTypeCellFrom h1 (Tri.readTypeCell ?_)
    have hq : ∀ P : HP, P ⊢ₕ HP.or ⌜Glob r a (GQL.mergeTypeExt t te)⌝ (OwnT a (GQL.mergeTypeExt t te)) := fun _ _ _ => .inl (by
      rw [h2.merge]; exact ⟨h1, h2⟩)
    show Tri r _ (match d.head.kind with
      | .object => _
      | .interface => _
      | .union => _
      | .enum => _
      | .inputObject => _
      | .scalar => _) _
    cases d.head.kind <;> exact Tri.ret (v := ()) (hq _)
  · unfold OwnT
    rw [ex_star]
    refine Tri.exists fun c => ?_
    rw [star_assoc]
    refine Tri.pure fun hc => ?_
    rw [star_comm, ex_star]
    refine Tri.exists fun d => ?_
    rw [star_assoc]
    refine Tri.pure fun hd => ?_
    unfold mergeTypeExt
    refine Tri.eq (P' := a ↦ .type c ⋆ e ↦ .type d ⋆ Lists c t ⋆ Lists d te) (by ac_rfl) (Tri.readTypeCell ?_)
    refine Tri.eq (P' := e ↦ .type d ⋆ a ↦ .type c ⋆ Lists c t ⋆ Lists d te) (by ac_rfl) (Tri.readTypeCell ?_)
    unfold Lists
    simp only [star_assoc]
    refine Tri.eq (P' := (LSeg c.dirs t.dirs ⋆ LSeg d.dirs te.dirs) ⋆ (e ↦ .type d ⋆ a ↦ .type c ⋆ 
      LSeg c.fields t.fields ⋆ LSeg c.ifaces t.ifaces ⋆ LSeg c.members t.members ⋆ LSeg c.values t.values ⋆ LSeg c.inputs t.inputs ⋆
      LSeg d.fields te.fields ⋆ LSeg d.ifaces te.ifaces ⋆ LSeg d.members te.members ⋆ LSeg d.values te.values ⋆ LSeg d.inputs te.inputs)) (by ac_rfl) ?_
    refine join_call ?_
    rw [hd]
    have fin : ∀ {G : HP} (t' : TypeDef), headOf t' = headOf t → a ↦ .type c ⋆ Lists c t' ⋆ G ⊢ₕ HP.or ⌜Glob r a t'⌝ (OwnT a t') := fun t' h m x =>
      .inr (intro_ex c (intro_pure (hc.trans h.symm) ((entails_of_eq (star_assoc _ _ _).symm).trans (star_left _ _))) m x)
    unfold GQL.mergeTypeExt headOf
    dsimp only
    cases te.kind with
    | scalar =>
      dsimp only
      refine Tri.ret (HP.entails.trans (entails_of_eq ?_) (fin (G := e ↦ .type d ⋆ LSeg d.fields te.fields ⋆ LSeg d.ifaces te.ifaces ⋆ LSeg d.members te.members ⋆ LSeg d.values te.values ⋆ LSeg d.inputs te.inputs) _ rfl))
      unfold Lists
      ac_rfl
    | object =>
      dsimp only
      refine Tri.eq (P' := (LSeg c.fields t.fields ⋆ LSeg d.fields te.fields) ⋆ (e ↦ .type d ⋆ a ↦ .type c ⋆ LSeg c.dirs (joined t.dirs te.dirs) ⋆ LSeg c.ifaces t.ifaces ⋆ LSeg d.ifaces te.ifaces ⋆ LSeg c.members t.members ⋆ LSeg d.members te.members ⋆ LSeg c.values t.values ⋆ LSeg d.values te.values ⋆ LSeg c.inputs t.inputs ⋆ LSeg d.inputs te.inputs)) (by ac_rfl) ?_
      refine join_call ?_
      refine Tri.eq (P' := (LSeg c.ifaces t.ifaces ⋆ LSeg d.ifaces te.ifaces) ⋆ (e ↦ .type d ⋆ a ↦ .type c ⋆ LSeg c.dirs (joined t.dirs te.dirs) ⋆ LSeg c.fields (joined t.fields te.fields) ⋆ LSeg c.members t.members ⋆ LSeg d.members te.members ⋆ LSeg c.values t.values ⋆ LSeg d.values te.values ⋆ LSeg c.inputs t.inputs ⋆ LSeg d.inputs te.inputs)) (by ac_rfl) ?_
      refine join_last ?_
      refine HP.entails.trans (entails_of_eq ?_) (fin (G := e ↦ .type d ⋆ LSeg d.members te.members ⋆ LSeg d.values te.values ⋆ LSeg d.inputs te.inputs) _ rfl)
      unfold Lists
      ac_rfl
    | interface =>
      dsimp only
      refine Tri.eq (P' := (LSeg c.fields t.fields ⋆ LSeg d.fields te.fields) ⋆ (e ↦ .type d ⋆ a ↦ .type c ⋆ LSeg c.dirs (joined t.dirs te.dirs) ⋆ LSeg c.ifaces t.ifaces ⋆ LSeg d.ifaces te.ifaces ⋆ LSeg c.members t.members ⋆ LSeg d.members te.members ⋆ LSeg c.values t.values ⋆ LSeg d.values te.values ⋆ LSeg c.inputs t.inputs ⋆ LSeg d.inputs te.inputs)) (by ac_rfl) ?_
      refine join_last ?_
      refine HP.entails.trans (entails_of_eq ?_) (fin (G := e ↦ .type d ⋆ LSeg d.ifaces te.ifaces ⋆ LSeg d.members te.members ⋆ LSeg d.values te.values ⋆ LSeg d.inputs te.inputs) _ rfl)
      unfold Lists
      ac_rfl
    | union =>
      dsimp only
      refine Tri.eq (P' := (LSeg c.members t.members ⋆ LSeg d.members te.members) ⋆ (e ↦ .type d ⋆ a ↦ .type c ⋆ LSeg c.dirs (joined t.dirs te.dirs) ⋆ LSeg c.fields t.fields ⋆ LSeg d.fields te.fields ⋆ LSeg c.ifaces t.ifaces ⋆ LSeg d.ifaces te.ifaces ⋆ LSeg c.values t.values ⋆ LSeg d.values te.values ⋆ LSeg c.inputs t.inputs ⋆ LSeg d.inputs te.inputs)) (by ac_rfl) ?_
      refine join_last ?_
      refine HP.entails.trans (entails_of_eq ?_) (fin (G := e ↦ .type d ⋆ LSeg d.fields te.fields ⋆ LSeg d.ifaces te.ifaces ⋆ LSeg d.values te.values ⋆ LSeg d.inputs te.inputs) _ rfl)
      unfold Lists
      ac_rfl
    | enum =>
      dsimp only
      refine Tri.eq (P' := (LSeg c.values t.values ⋆ LSeg d.values te.values) ⋆ (e ↦ .type d ⋆ a ↦ .type c ⋆ LSeg c.dirs (joined t.dirs te.dirs) ⋆ LSeg c.fields t.fields ⋆ LSeg d.fields te.fields ⋆ LSeg c.ifaces t.ifaces ⋆ LSeg d.ifaces te.ifaces ⋆ LSeg c.members t.members ⋆ LSeg d.members te.members ⋆ LSeg c.inputs t.inputs ⋆ LSeg d.inputs te.inputs)) (by ac_rfl) ?_
      refine join_last ?_
      refine HP.entails.trans (entails_of_eq ?_) (fin (G := e ↦ .type d ⋆ LSeg d.fields te.fields ⋆ LSeg d.ifaces te.ifaces ⋆ LSeg d.members te.members ⋆ LSeg d.inputs te.inputs) _ rfl)
      unfold Lists
      ac_rfl
    | inputObject =>
      dsimp only
      refine Tri.eq (P' := (LSeg c.inputs t.inputs ⋆ LSeg d.inputs te.inputs) ⋆ (e ↦ .type d ⋆ a ↦ .type c ⋆ LSeg c.dirs (joined t.dirs te.dirs) ⋆ LSeg c.fields t.fields ⋆ LSeg d.fields te.fields ⋆ LSeg c.ifaces t.ifaces ⋆ LSeg d.ifaces te.ifaces ⋆ LSeg c.members t.members ⋆ LSeg d.members te.members ⋆ LSeg c.values t.values ⋆ LSeg d.values te.values)) (by ac_rfl) ?_
      refine join_last ?_
      refine HP.entails.trans (entails_of_eq ?_) (fin (G := e ↦ .type d ⋆ LSeg d.fields te.fields ⋆ LSeg d.ifaces te.ifaces ⋆ LSeg d.members te.members ⋆ LSeg d.values te.values) _ rfl)
      unfold Lists
      ac_rfl

theorem mergeInto_ok {a : Nat} : ∀ {es : List Nat} {tes : List TypeDef} {t : TypeDef},
    Tri r (RefT r a t ⋆ All2 OwnT es tes) (mergeInto a es) (rets fun _ => RefT r a (tes.foldl GQL.mergeTypeExt t))
  | [], [], t => Tri.ret (star_left _ _)
  | [], _ :: _, _ => Tri.false (star_right _ _)
  | _ :: _, [], _ => Tri.false (star_right _ _)
  | e :: es, te :: tes, t => by
    refine Tri.eq (P' := (RefT r a t ⋆ OwnT e te) ⋆ All2 OwnT es tes) (star_assoc _ _ _).symm ?_
    exact Tri.call mergeTypeExt_ok fun _ => mergeInto_ok

/-! ### Schemas -/

/-- At `b` there is a schema definition with contents `d`. -/
def OwnD (b : Nat) (d : SchemaDef) : HP := HP.ex fun p => HP.ex fun q => b ↦ .schemaDef p q ⋆ LSeg p d.dirs ⋆ LSeg q d.ops

def RDef : Ptr → Option SchemaDef → HP
  | none, none => .emp
  | some b, some d => OwnD b d
  | _, _ => ⌜False⌝

def RDirs : Ptr → GMap DirDef → HP
  | none, m => ⌜m = []⌝
  | some a, m => a ↦ .dirMap m

def RTypes (r : Memory) : Ptr → GMap TypeDef → HP
  | none, m => ⌜m = []⌝
  | some a, ts => HP.ex fun m => a ↦ .typeMap m ⋆ Map2 (RefT r) m ts

structure Roots (c : SchemaCell) (v : Schema) : Prop where
  query : c.queryType = v.queryType
  mutation : c.mutationType = v.mutationType
  subscription : c.subscriptionType = v.subscriptionType

/-- At `a` there is a schema with contents `v`; everything that it points to is owned, or one of the global variables. -/
def RSchema (r : Memory) (a : Nat) (v : Schema) : HP :=
  HP.ex fun c => ⌜Roots c v⌝ ⋆ a ↦ .schema c ⋆ RDef c.definition v.definition ⋆ RDirs c.directives v.directives ⋆ RTypes r c.types v.types

theorem newSchemaDef_ok (d : SchemaDef) : Tri r .emp (newSchemaDef d) (rets fun a => OwnD a d) := by
  unfold newSchemaDef
  refine make_call fun p => make_call fun q => ?_
  refine Tri.alloc fun a => Tri.ret (intro_ex p (intro_ex q (star_mono (.refl _) (entails_of_eq ?_))))
  rw [star_emp, star_comm]

theorem newOpt_ok (d : Option SchemaDef) : Tri r .emp (newOpt newSchemaDef d) (rets fun p => RDef p d) := by
  cases d with
  | none => exact Tri.ret (.refl _)
  | some d => exact Tri.bind (newSchemaDef_ok d) fun a => Tri.ret (.refl _)

/-- The definitions of the document are in memory. -/
def RSDL (r : Memory) (q : PSDL) (s : SDLContext) : HP :=
  ⌜q.directives = s.directives ∧ q.isExtending = s.isExtending⌝ ⋆ Map2 (RefT r) q.types s.types ⋆ Map2 (All2 OwnT) q.typeExts s.typeExts ⋆
    RDef q.schemaDef s.schemaDef ⋆ All2 OwnD q.schemaExts s.schemaExts

theorem newSDL_ok (s : SDLContext) : Tri r .emp (newSDL s) (rets fun q => RSDL r q s) := by
  unfold newSDL
  refine Tri.eq (emp_star _).symm (Tri.call (newMap_ok (R := RefT r) (fun t => (newType_ok t).rets fun v _ h => .inr h) _) fun p1 => ?_)
  rw [star_comm]
  refine Tri.call (newMap_ok (fun t => newAll_ok newType_ok t) _) fun p2 => ?_
  refine Tri.eq (emp_star _).symm (Tri.call (newOpt_ok _) fun p3 => ?_)
  refine Tri.eq (emp_star _).symm (Tri.call (newAll_ok newSchemaDef_ok _) fun p4 => ?_)
  refine Tri.ret (intro_pure ⟨rfl, rfl⟩ (entails_of_eq ?_))
  dsimp only
  ac_rfl

theorem readTypes_ok : ∀ {m : GMap Nat} {ts : GMap TypeDef}, Tri r (Map2 (RefT r) m ts) (readTypes m) (rets fun v => ⌜v = ts⌝ ⋆ Map2 (RefT r) m ts)
  | [], [] => Tri.ret (intro_pure rfl (.refl _))
  | [], _ :: _ => Tri.false (.refl _)
  | _ :: _, [] => Tri.false (.refl _)
  | (n, a) :: m, (n', t) :: ts => by
    refine Tri.pure fun e => ?_
    subst e
    refine Tri.call readType_ok fun v => ?_
    rw [star_assoc]
    refine Tri.pure fun e => ?_
    subst e
    rw [star_comm]
    refine Tri.call readTypes_ok fun w => ?_
    rw [star_assoc]
    refine Tri.pure fun e => ?_
    subst e
    exact Tri.ret (intro_pure rfl (intro_pure rfl (entails_of_eq (star_comm _ _))))

theorem readDefinition_ok : ∀ {p : Ptr} {d : Option SchemaDef}, Tri r (RDef p d) (readDefinition p) (rets fun v => ⌜v = d⌝ ⋆ RDef p d)
  | none, none => Tri.ret (intro_pure rfl (.refl _))
  | none, some _ => Tri.false (.refl _)
  | some _, none => Tri.false (.refl _)
  | some b, some d => by
    refine Tri.exists fun p => Tri.exists fun q => Tri.readSchemaDefCell ?_
    dsimp only
    refine Tri.eq (P' := LSeg p d.dirs ⋆ LSeg q d.ops ⋆ b ↦ .schemaDef p q) (by ac_rfl) (items_call ?_)
    refine Tri.eq (P' := LSeg q d.ops ⋆ LSeg p d.dirs ⋆ b ↦ .schemaDef p q) (by ac_rfl) (items_call ?_)
    refine Tri.ret (intro_pure rfl (intro_ex p (intro_ex q (entails_of_eq ?_))))
    ac_rfl

theorem readSchema_ok {a : Nat} {v : Schema} : Tri r (RSchema r a v) (readSchema a) (rets fun w => ⌜w = v⌝ ⋆ RSchema r a v) := by
  refine Tri.exists fun c => Tri.pure fun ⟨h1, h2, h3⟩ => ?_
  unfold readSchema
  refine Tri.readSchemaCell ?_
  refine Tri.eq (P' := RDef c.definition v.definition ⋆ a ↦ .schema c ⋆ RDirs c.directives v.directives ⋆ RTypes r c.types v.types) (by ac_rfl) ?_
  refine Tri.call readDefinition_ok fun d => ?_
  rw [star_assoc]
  refine Tri.pure fun e => ?_
  subst e
  refine Tri.eq (P' := RDirs c.directives v.directives ⋆ RDef c.definition v.definition ⋆ a ↦ .schema c ⋆ RTypes r c.types v.types) (by ac_rfl) ?_
  refine Tri.call (Q := fun w => ⌜w = v.directives⌝ ⋆ RDirs c.directives v.directives) ?_ fun w => ?_
  · cases c.directives with
    | none => exact Tri.ret fun m (h : v.directives = []) => (pure_star _ _ m).2 ⟨h.symm, h⟩
    | some x => exact Tri.eq (star_emp _).symm (Tri.read (Tri.ret (intro_pure rfl (star_left _ _))))
  rw [star_assoc]
  refine Tri.pure fun e => ?_
  subst e
  refine Tri.eq (P' := RTypes r c.types v.types ⋆ RDirs c.directives v.directives ⋆ RDef c.definition v.definition ⋆ a ↦ .schema c) (by ac_rfl) ?_
  have fin : ∀ w, w = v.types → (RTypes r c.types v.types ⋆ RDirs c.directives v.directives ⋆ RDef c.definition v.definition ⋆ a ↦ .schema c) ⊢ₕ
      ⌜({ definition := v.definition, queryType := c.queryType, mutationType := c.mutationType, subscriptionType := c.subscriptionType,
          directives := v.directives, types := w } : Schema) = v⌝ ⋆ RSchema r a v := by
    rintro w rfl
    refine intro_pure (by rw [h1, h2, h3]) (intro_ex c (intro_pure ⟨h1, h2, h3⟩ (entails_of_eq ?_)))
    ac_rfl
  cases hc : c.types with
  | none =>
    rw [hc] at fin
    refine Tri.pure fun e => ?_
    refine Tri.pre (fun m h => (pure_star _ _ m).2 ⟨e, h⟩) (Tri.ret (fin [] e.symm))
  | some x =>
    rw [hc] at fin
    unfold RTypes
    dsimp only
    rw [ex_star]
    refine Tri.exists fun m => ?_
    rw [star_assoc]
    refine Tri.readTypeMap ?_
    refine Tri.eq (P' := Map2 (RefT r) m v.types ⋆ x ↦ .typeMap m ⋆ RDirs c.directives v.directives ⋆ RDef c.definition v.definition ⋆ a ↦ .schema c) (by ac_rfl) ?_
    refine Tri.call readTypes_ok fun w => ?_
    rw [star_assoc]
    refine Tri.pure fun e => ?_
    refine Tri.ret (HP.entails.trans ?_ (fin w e))
    rw [← star_assoc]
    refine star_mono (intro_ex m (entails_of_eq (star_comm _ _))) (.refl _)

/-! ### Building -/

theorem mergeSchemaExts_ok {b : Nat} : ∀ {es : List Nat} {des : List SchemaDef} {d : SchemaDef},
    Tri r (OwnD b d ⋆ All2 OwnD es des) (mergeSchemaExts b es) (rets fun _ => OwnD b (GQL.mergeSchemaExts d des))
  | [], [], t => Tri.ret (star_left _ _)
  | [], _ :: _, _ => Tri.false (star_right _ _)
  | _ :: _, [], _ => Tri.false (star_right _ _)
  | e :: es, de :: des, d => by
    refine Tri.eq (P' := OwnD b d ⋆ OwnD e de ⋆ All2 OwnD es des) rfl ?_
    unfold OwnD
    rw [ex_star]
    refine Tri.exists fun p => ?_
    rw [ex_star]
    refine Tri.exists fun q => ?_
    rw [star_comm, ex_star, ex_star]
    refine Tri.exists fun p' => ?_
    rw [ex_star, ex_star]
    refine Tri.exists fun q' => ?_
    refine Tri.eq (P' := b ↦ .schemaDef p q ⋆ e ↦ .schemaDef p' q' ⋆ LSeg p d.dirs ⋆ LSeg p' de.dirs ⋆ LSeg q d.ops ⋆ LSeg q' de.ops ⋆ All2 OwnD es des)
      (by unfold OwnD; ac_rfl) ?_
    refine Tri.readSchemaDefCell ?_
    refine Tri.eq (P' := e ↦ .schemaDef p' q' ⋆ b ↦ .schemaDef p q ⋆ LSeg p d.dirs ⋆ LSeg p' de.dirs ⋆ LSeg q d.ops ⋆ LSeg q' de.ops ⋆ All2 OwnD es des)
      (by ac_rfl) (Tri.readSchemaDefCell ?_)
    dsimp only
    refine Tri.eq (P' := (LSeg p d.dirs ⋆ LSeg p' de.dirs) ⋆ (LSeg q d.ops ⋆ LSeg q' de.ops) ⋆ (e ↦ .schemaDef p' q' ⋆ b ↦ .schemaDef p q ⋆ All2 OwnD es des))
      (by ac_rfl) (join_call ?_)
    refine Tri.eq (P' := (LSeg q d.ops ⋆ LSeg q' de.ops) ⋆ (LSeg p (joined d.dirs de.dirs) ⋆ e ↦ .schemaDef p' q' ⋆ b ↦ .schemaDef p q ⋆ All2 OwnD es des))
      (by ac_rfl) (join_call ?_)
    refine Tri.pre ?_ (mergeSchemaExts_ok (es := es) (des := des) (d := ⟨joined d.dirs de.dirs, joined d.ops de.ops⟩))
    refine HP.entails.trans (entails_of_eq ?_) ((star_right (e ↦ .schemaDef p' q') _).trans
      (star_mono (P := b ↦ .schemaDef p q ⋆ LSeg p (joined d.dirs de.dirs) ⋆ LSeg q (joined d.ops de.ops)) (intro_ex p (intro_ex q (.refl _))) (.refl _)))
    ac_rfl

theorem mergeSchemaExtensions_ok {q : PSDL} {s : SDLContext} :
    Tri r (RDef q.schemaDef s.schemaDef ⋆ All2 OwnD q.schemaExts s.schemaExts) (mergeSchemaExtensions q)
      (rets fun _ => RDef q.schemaDef (GQL.mergeSchemaExtensions s).schemaDef) := by
  unfold mergeSchemaExtensions GQL.mergeSchemaExtensions
  cases h1 : q.schemaDef with
  | none =>
    cases h2 : s.schemaDef with
    | none => refine Tri.ret ?_; dsimp only; rw [h2]; exact star_left _ _
    | some d => exact Tri.false (star_left _ _)
  | some b =>
    cases h2 : s.schemaDef with
    | none => exact Tri.false (star_left _ _)
    | some d =>
      dsimp only
      refine mergeSchemaExts_ok.rets fun _ => ?_
      split
      · rename_i h3
        rw [h2, List.length_eq_zero_iff.1 h3]
        exact .refl _
      · exact .refl _

theorem mergeSchemaExtensions_keeps (s : SDLContext) : (GQL.mergeSchemaExtensions s).types = s.types ∧ (GQL.mergeSchemaExtensions s).typeExts = s.typeExts ∧
    (GQL.mergeSchemaExtensions s).directives = s.directives ∧ (GQL.mergeSchemaExtensions s).isExtending = s.isExtending := by
  unfold GQL.mergeSchemaExtensions
  split
  · exact ⟨rfl, rfl, rfl, rfl⟩
  · split <;> exact ⟨rfl, rfl, rfl, rfl⟩

theorem mergeTypeExts_keeps : ∀ (l : List (Bytes × List TypeDef)) (sch : Schema) (s : SDLContext),
    ∃ T T', GQL.mergeTypeExts l (sch, s) = ({ sch with types := T }, { s with types := T' })
  | [], sch, s => ⟨sch.types, s.types, rfl⟩
  | (name, exts) :: rest, sch, s => by
    unfold GQL.mergeTypeExts
    split
    · obtain ⟨T, T', h⟩ := mergeTypeExts_keeps rest { sch with types := _ } s
      exact ⟨T, T', h⟩
    · split
      · obtain ⟨T, T', h⟩ := mergeTypeExts_keeps rest sch { s with types := _ }
        exact ⟨T, T', h⟩
      · exact ⟨sch.types, s.types, rfl⟩

theorem typeDefinition_extending {β : Type} {a : Nat} {q : PSDL} {name : Bytes} {f : Ptr → Prog β} (h : q.isExtending = true) :
    typeDefinition a q name >>= f = readSchemaCell a >>= fun c => readTypeMap c.types >>= fun m =>
      f (match m.lookup name with
        | some t => some t
        | none => q.types.lookup name) := by
  unfold typeDefinition
  rw [if_pos h]
  show Prog.bind (Prog.bind _ _) _ = Prog.bind _ _
  rw [Prog.bind_assoc]
  congr 1
  funext c
  show Prog.bind (Prog.bind _ _) _ = Prog.bind _ _
  rw [Prog.bind_assoc]
  congr 1
  funext m
  cases m.lookup name <;> rfl

/-- The merging of one type, and then the rest. -/
theorem mergeTypeExts_ok {a : Nat} {q : PSDL} : ∀ {l : GMap (List Nat)} {vl : GMap (List TypeDef)} {sch : Schema} {s : SDLContext}, q.isExtending = s.isExtending →
    Tri r (RSchema r a sch ⋆ Map2 (RefT r) q.types s.types ⋆ Map2 (All2 OwnT) l vl) (mergeTypeExts a q l)
      (rets fun _ => RSchema r a (GQL.mergeTypeExts vl (sch, s)).1 ⋆ Map2 (RefT r) q.types (GQL.mergeTypeExts vl (sch, s)).2.types)
  | [], [], sch, s, _ => by
    refine Tri.ret ?_
    show RSchema r a sch ⋆ Map2 (RefT r) q.types s.types ⋆ HP.emp ⊢ₕ RSchema r a sch ⋆ Map2 (RefT r) q.types s.types
    rw [star_emp]
    exact .refl _
  | [], _ :: _, _, _, _ => Tri.false ((star_right _ _).trans (star_right _ _))
  | _ :: _, [], _, _, _ => Tri.false ((star_right _ _).trans (star_right _ _))
  | (name, es) :: l, (name', tes) :: vl, sch, s, hs => by
    refine Tri.eq (P' := ⌜name = name'⌝ ⋆ RSchema r a sch ⋆ Map2 (RefT r) q.types s.types ⋆ All2 OwnT es tes ⋆ Map2 (All2 OwnT) l vl)
      (by show _ ⋆ _ ⋆ ⌜name = name'⌝ ⋆ _ ⋆ _ = _; ac_rfl) ?_
    refine Tri.pure fun e => ?_
    subst e
    -- the document's own types
    have own : (if s.isExtending then sch.types.lookup name else none) = none →
        Tri r (RSchema r a sch ⋆ Map2 (RefT r) q.types s.types ⋆ All2 OwnT es tes ⋆ Map2 (All2 OwnT) l vl)
          (match q.types.lookup name with
            | none => pure ()
            | some t => do
              mergeInto t es
              mergeTypeExts a q l)
          (rets fun _ => RSchema r a (GQL.mergeTypeExts ((name, tes) :: vl) (sch, s)).1 ⋆
            Map2 (RefT r) q.types (GQL.mergeTypeExts ((name, tes) :: vl) (sch, s)).2.types) := by
      intro h1
      cases h2 : q.types.lookup name with
      | none =>
        refine Tri.pre (P' := ⌜s.types.lookup name = none⌝ ⋆ RSchema r a sch ⋆ Map2 (RefT r) q.types s.types) ?_ (Tri.pure fun h3 => Tri.ret ?_)
        · intro m h
          refine (pure_star _ _ m).2 ⟨map2_none h2 m (((star_right _ _).trans (star_left _ _)) m h), ?_⟩
          have h' : ((RSchema r a sch ⋆ Map2 (RefT r) q.types s.types) ⋆ (All2 OwnT es tes ⋆ Map2 (All2 OwnT) l vl)).holds m := by rw [star_assoc]; exact h
          exact star_left _ _ m h'
        · rw [mergeTypeExts_none h1 h3]
          exact .refl _
      | some t =>
        dsimp only
        rw [show (RSchema r a sch ⋆ Map2 (RefT r) q.types s.types ⋆ All2 OwnT es tes ⋆ Map2 (All2 OwnT) l vl) =
          Map2 (RefT r) q.types s.types ⋆ RSchema r a sch ⋆ All2 OwnT es tes ⋆ Map2 (All2 OwnT) l vl from by ac_rfl]
        refine Tri.pre (star_mono (map2_some h2) (.refl _)) ?_
        rw [ex_star]
        refine Tri.exists fun td => ?_
        rw [ex_star]
        refine Tri.exists fun K => ?_
        rw [star_assoc]
        refine Tri.pure fun ⟨h3, h4⟩ => ?_
        refine Tri.eq (P' := (RefT r t td ⋆ All2 OwnT es tes) ⋆ K ⋆ RSchema r a sch ⋆ Map2 (All2 OwnT) l vl) (by ac_rfl) ?_
        refine Tri.call mergeInto_ok fun _ => ?_
        rw [mergeTypeExts_new h1 h3]
        refine Tri.pre ?_ (mergeTypeExts_ok (l := l) (vl := vl) (sch := sch) (s := { s with types := mapSet s.types name (tes.foldl GQL.mergeTypeExt td) }) hs)
        dsimp only
        refine HP.entails.trans (entails_of_eq ?_) (star_mono (.refl (RSchema r a sch)) (star_mono (h4 _) (.refl (Map2 (All2 OwnT) l vl))))
        ac_rfl
    unfold mergeTypeExts
    by_cases hx : q.isExtending = true
    · rw [typeDefinition_extending hx]
      have hx' : s.isExtending = true := hs ▸ hx
      unfold RSchema
      rw [ex_star]
      refine Tri.exists fun c => ?_
      rw [star_assoc]
      refine Tri.pure fun hr => ?_
      rw [star_assoc]
      refine Tri.readSchemaCell ?_
      have back : ∀ {c : SchemaCell}, Roots c sch → (a ↦ .schema c ⋆ (RDef c.definition sch.definition ⋆ RDirs c.directives sch.directives ⋆ RTypes r c.types sch.types)) ⊢ₕ
          RSchema r a sch := fun hr => intro_ex _ (intro_pure hr (.refl _))
      cases hc : c.types with
      | none =>
        rw [show (a ↦ .schema c ⋆ (RDef c.definition sch.definition ⋆ RDirs c.directives sch.directives ⋆ RTypes r none sch.types) ⋆
            Map2 (RefT r) q.types s.types ⋆ All2 OwnT es tes ⋆ Map2 (All2 OwnT) l vl) =
          RTypes r none sch.types ⋆ (a ↦ .schema c ⋆ RDef c.definition sch.definition ⋆ RDirs c.directives sch.directives ⋆
            Map2 (RefT r) q.types s.types ⋆ All2 OwnT es tes ⋆ Map2 (All2 OwnT) l vl) from by ac_rfl]
        refine Tri.pure fun e => ?_
        refine Tri.pre ?_ (own (by rw [hx', e]; rfl))
        have := back hr
        rw [hc] at this
        refine HP.entails.trans (fun m h => ?_) (star_mono this (.refl _))
        have h' := (pure_star (sch.types = []) _ m).2 ⟨e, h⟩
        revert h'
        refine entails_of_eq ?_ m
        show RTypes r none sch.types ⋆ _ = _
        ac_rfl
      | some x =>
        unfold RTypes
        dsimp only
        rw [show (a ↦ .schema c ⋆ (RDef c.definition sch.definition ⋆ RDirs c.directives sch.directives ⋆ (HP.ex fun m => x ↦ .typeMap m ⋆ Map2 (RefT r) m sch.types)) ⋆
            Map2 (RefT r) q.types s.types ⋆ All2 OwnT es tes ⋆ Map2 (All2 OwnT) l vl) =
          (HP.ex fun m => x ↦ .typeMap m ⋆ Map2 (RefT r) m sch.types) ⋆ (a ↦ .schema c ⋆ RDef c.definition sch.definition ⋆ RDirs c.directives sch.directives ⋆
            Map2 (RefT r) q.types s.types ⋆ All2 OwnT es tes ⋆ Map2 (All2 OwnT) l vl) from by ac_rfl]
        rw [ex_star]
        refine Tri.exists fun m => ?_
        rw [star_assoc]
        refine Tri.readTypeMap ?_
        have back' : ∀ T, (x ↦ .typeMap m ⋆ Map2 (RefT r) m T ⋆ a ↦ .schema c ⋆ RDef c.definition sch.definition ⋆ RDirs c.directives sch.directives) ⊢ₕ
            RSchema r a { sch with types := T } := fun T => by
          refine intro_ex c (intro_pure ⟨hr.1, hr.2, hr.3⟩ ?_)
          rw [hc]
          refine HP.entails.trans (entails_of_eq ?_) (star_mono (.refl (a ↦ .schema c)) (star_mono (.refl (RDef c.definition sch.definition)) (star_mono
            (.refl (RDirs c.directives sch.directives)) (Q := x ↦ .typeMap m ⋆ Map2 (RefT r) m T) (intro_ex m (.refl _)))))
          ac_rfl
        cases h1 : m.lookup name with
        | none =>
          refine Tri.pre (P' := ⌜sch.types.lookup name = none⌝ ⋆ RSchema r a sch ⋆ Map2 (RefT r) q.types s.types ⋆ All2 OwnT es tes ⋆ Map2 (All2 OwnT) l vl)
            (fun k h => (pure_star _ _ k).2 ⟨map2_none h1 k (((star_right _ _).trans (star_left _ _)) k h), ?_⟩) (Tri.pure fun h2 => own (by rw [hx', h2]; rfl))
          revert h
          refine HP.entails.trans (entails_of_eq ?_) (star_mono (back' sch.types) (.refl (Map2 (RefT r) q.types s.types ⋆ All2 OwnT es tes ⋆ Map2 (All2 OwnT) l vl))) k
          ac_rfl
        | some t =>
          show Tri r _ (do
            mergeInto t es
            mergeTypeExts a q l) _
          rw [show (x ↦ .typeMap m ⋆ Map2 (RefT r) m sch.types ⋆ (a ↦ .schema c ⋆ RDef c.definition sch.definition ⋆ RDirs c.directives sch.directives ⋆
              Map2 (RefT r) q.types s.types ⋆ All2 OwnT es tes ⋆ Map2 (All2 OwnT) l vl)) = Map2 (RefT r) m sch.types ⋆ (x ↦ .typeMap m ⋆
              a ↦ .schema c ⋆ RDef c.definition sch.definition ⋆ RDirs c.directives sch.directives ⋆
              Map2 (RefT r) q.types s.types ⋆ All2 OwnT es tes ⋆ Map2 (All2 OwnT) l vl) from by ac_rfl]
          refine Tri.pre (star_mono (map2_some h1) (.refl _)) ?_
          rw [ex_star]
          refine Tri.exists fun td => ?_
          rw [ex_star]
          refine Tri.exists fun K => ?_
          rw [star_assoc]
          refine Tri.pure fun ⟨h3, h4⟩ => ?_
          refine Tri.eq (P' := (RefT r t td ⋆ All2 OwnT es tes) ⋆ K ⋆ (x ↦ .typeMap m ⋆
              a ↦ .schema c ⋆ RDef c.definition sch.definition ⋆ RDirs c.directives sch.directives ⋆
              Map2 (RefT r) q.types s.types ⋆ Map2 (All2 OwnT) l vl)) (by ac_rfl) ?_
          refine Tri.call mergeInto_ok fun _ => ?_
          rw [mergeTypeExts_base (by rw [hx', h3]; rfl)]
          refine Tri.pre ?_ (mergeTypeExts_ok (l := l) (vl := vl) (sch := { sch with types := mapSet sch.types name (tes.foldl GQL.mergeTypeExt td) }) (s := s) hs)
          refine HP.entails.trans ?_ (star_mono (back' (mapSet sch.types name (tes.foldl GQL.mergeTypeExt td))) (.refl (Map2 (RefT r) q.types s.types ⋆ Map2 (All2 OwnT) l vl)))
          refine HP.entails.trans (entails_of_eq ?_) (HP.entails.trans (star_mono (h4 (tes.foldl GQL.mergeTypeExt td)) (.refl (x ↦ .typeMap m ⋆
              a ↦ .schema c ⋆ RDef c.definition sch.definition ⋆ RDirs c.directives sch.directives ⋆
              Map2 (RefT r) q.types s.types ⋆ Map2 (All2 OwnT) l vl))) (entails_of_eq ?_))
          · ac_rfl
          · ac_rfl
    · unfold typeDefinition
      rw [if_neg hx]
      show Tri r _ ((pure (q.types.lookup name) : Prog Ptr) >>= _) _
      refine own ?_
      rw [hs] at hx
      exact if_neg hx

theorem setRoots_ok {a : Nat} : ∀ {ops : List OpTypeDef} {c : SchemaCell},
    Tri r (a ↦ .schema c) (setRoots a ops) (rets fun _ => a ↦ .schema (ops.foldl setRoot c))
  | [], c => Tri.ret (.refl _)
  | o :: ops, c => by
    refine Tri.eq (star_emp _).symm (Tri.readSchemaCell (Tri.put ?_))
    rw [star_emp]
    exact setRoots_ok

theorem setRoots_roots : ∀ (ops : List OpTypeDef) {c : SchemaCell} {v : Schema}, Roots c v → Roots (ops.foldl setRoot c) (ops.foldl setRootType v)
  | [], _, _, h => h
  | o :: ops, c, v, h => by
    refine setRoots_roots ops ?_
    obtain ⟨h1, h2, h3⟩ := h
    unfold setRoot setRootType
    cases o.op
    · exact ⟨rfl, h2, h3⟩
    · exact ⟨h1, rfl, h3⟩
    · exact ⟨h1, h2, rfl⟩

theorem setRoots_cell : ∀ (ops : List OpTypeDef) (c : SchemaCell), (ops.foldl setRoot c).directives = c.directives ∧ (ops.foldl setRoot c).types = c.types
  | [], _ => ⟨rfl, rfl⟩
  | o :: ops, c => by
    have := setRoots_cell ops (setRoot c o)
    refine this.imp (fun h => h.trans ?_) (fun h => h.trans ?_) <;> (unfold setRoot; cases o.op <;> rfl)

theorem setRoots_schema : ∀ (ops : List OpTypeDef) (v : Schema), (ops.foldl setRootType v).directives = v.directives ∧ (ops.foldl setRootType v).types = v.types
  | [], _ => ⟨rfl, rfl⟩
  | o :: ops, v => by
    have := setRoots_schema ops (setRootType v o)
    refine this.imp (fun h => h.trans ?_) (fun h => h.trans ?_) <;> (unfold setRootType; cases o.op <;> rfl)

/-- `buildSchemaDefinition`, once there is a definition. -/
theorem setDefinition_ok {a b : Nat} {d : SchemaDef} {v : Schema} :
    Tri r (RSchema r a v ⋆ OwnD b d) (do
      let d ← readSchemaDefCell b
      let ops ← items OpTypeDef d.2
      setRoots a ops
      let c ← readSchemaCell a
      put a (.schema { c with definition := some b }))
      (rets fun _ => RSchema r a { d.ops.foldl setRootType v with definition := some d }) := by
  unfold RSchema
  rw [ex_star]
  refine Tri.exists fun c => ?_
  rw [star_assoc]
  refine Tri.pure fun hc => ?_
  unfold OwnD
  rw [star_comm, ex_star]
  refine Tri.exists fun p => ?_
  rw [ex_star]
  refine Tri.exists fun q => ?_
  rw [star_assoc]
  refine Tri.readSchemaDefCell ?_
  refine Tri.eq (P' := LSeg q d.ops ⋆ b ↦ .schemaDef p q ⋆ LSeg p d.dirs ⋆ a ↦ .schema c ⋆ RDef c.definition v.definition ⋆
    RDirs c.directives v.directives ⋆ RTypes r c.types v.types) (by ac_rfl) (items_call ?_)
  refine Tri.eq (P' := a ↦ .schema c ⋆ LSeg q d.ops ⋆ b ↦ .schemaDef p q ⋆ LSeg p d.dirs ⋆ RDef c.definition v.definition ⋆
    RDirs c.directives v.directives ⋆ RTypes r c.types v.types) (by ac_rfl) (Tri.call setRoots_ok fun _ => ?_)
  refine Tri.readSchemaCell (Tri.write (Tri.ret ?_))
  have hk := setRoots_roots d.ops hc
  refine intro_ex { d.ops.foldl setRoot c with definition := some b } (intro_pure ⟨hk.1, hk.2, hk.3⟩ ?_)
  dsimp only
  rw [(setRoots_cell d.ops c).1, (setRoots_cell d.ops c).2, (setRoots_schema d.ops v).1, (setRoots_schema d.ops v).2]
  refine HP.entails.trans (entails_of_eq ?_) ((star_right (RDef c.definition v.definition) _).trans (star_mono (.refl _) (star_mono
    (P := b ↦ .schemaDef p q ⋆ LSeg p d.dirs ⋆ LSeg q d.ops) (intro_ex p (intro_ex q (.refl _)))
    (.refl (RDirs c.directives v.directives ⋆ RTypes r c.types v.types)))))
  ac_rfl

theorem buildSchemaDefinition_ok {a : Nat} {q : PSDL} {s : SDLContext} {v : Schema} :
    Tri r (RSchema r a v ⋆ RDef q.schemaDef s.schemaDef) (buildSchemaDefinition a q) (rets fun _ => RSchema r a (GQL.buildSchemaDefinition v s)) := by
  unfold buildSchemaDefinition GQL.buildSchemaDefinition
  cases h1 : q.schemaDef with
  | none =>
    cases h2 : s.schemaDef with
    | some d => exact Tri.false (star_right _ _)
    | none =>
      dsimp only
      refine Tri.eq (star_comm _ _) (Tri.call (newSchemaDef_ok defaultSchemaDef) fun b => ?_)
      rw [star_comm]
      exact setDefinition_ok
  | some b =>
    cases h2 : s.schemaDef with
    | none => exact Tri.false (star_right _ _)
    | some d => exact setDefinition_ok

/-! ### The maps -/

theorem addMissingDirs_ok {m : Nat} : ∀ {l x : GMap DirDef}, Tri r (m ↦ .dirMap x) (addMissingDirs m l) (rets fun _ => m ↦ .dirMap (addMissing x l))
  | [], x => Tri.ret (.refl _)
  | (n, d) :: l, x => by
    refine Tri.eq (star_emp _).symm (Tri.readDirMap ?_)
    unfold addMissing
    rw [List.foldl_cons]
    by_cases h : (x.lookup n).isSome = true
    · simp only [h, if_true]
      rw [star_emp]
      exact addMissingDirs_ok
    · simp only [h]
      refine Tri.put ?_
      rw [star_emp]
      exact addMissingDirs_ok

theorem copyDirs_ok {m : Nat} : ∀ {l x : GMap DirDef}, Tri r (m ↦ .dirMap x) (copyDirs m l) (rets fun _ => m ↦ .dirMap (l.foldl (fun m p => mapSet m p.1 p.2) x))
  | [], x => Tri.ret (.refl _)
  | (n, d) :: l, x => by
    refine Tri.eq (star_emp _).symm (Tri.readDirMap (Tri.put ?_))
    rw [star_emp]
    exact copyDirs_ok

/-- The schema gets another map of directives. -/
theorem setDirs {a m : Nat} {c : SchemaCell} {v : Schema} {x : GMap DirDef} (hc : Roots c v) :
    a ↦ .schema { c with directives := some m } ⋆ m ↦ .dirMap x ⋆ RDef c.definition v.definition ⋆ RDirs c.directives v.directives ⋆ RTypes r c.types v.types ⊢ₕ
      RSchema r a { v with directives := x } := by
  refine intro_ex { c with directives := some m } (intro_pure ⟨hc.1, hc.2, hc.3⟩ ?_)
  dsimp only
  refine HP.entails.trans (entails_of_eq ?_) (star_right (RDirs c.directives v.directives) _)
  show _ = RDirs c.directives v.directives ⋆ a ↦ _ ⋆ RDef c.definition v.definition ⋆ m ↦ .dirMap x ⋆ RTypes r c.types v.types
  ac_rfl

theorem buildDirectives_ok {ord : Order DirDef} {a : Nat} {q : PSDL} {s : SDLContext} {v : Schema} (h1 : q.directives = s.directives)
    (h2 : q.isExtending = s.isExtending) : Tri r (RSchema r a v) (buildDirectives ord a q) (rets fun _ => RSchema r a (GQL.buildDirectives ord v s)) := by
  unfold buildDirectives GQL.buildDirectives
  rw [h1, h2]
  refine Tri.exists fun c => Tri.pure fun hc => ?_
  by_cases hx : (!s.isExtending) = true
  · rw [if_pos hx, if_pos hx]
    refine Tri.new fun m => ?_
    rw [show m ↦ .dirMap s.directives ⋆ a ↦ .schema c ⋆ RDef c.definition v.definition ⋆ RDirs c.directives v.directives ⋆ RTypes r c.types v.types =
      a ↦ .schema c ⋆ m ↦ .dirMap s.directives ⋆ RDef c.definition v.definition ⋆ RDirs c.directives v.directives ⋆ RTypes r c.types v.types from by ac_rfl]
    refine Tri.readSchemaCell (Tri.put ?_)
    refine Tri.eq (P' := m ↦ .dirMap s.directives ⋆ a ↦ .schema { c with directives := some m } ⋆ RDef c.definition v.definition ⋆
      RDirs c.directives v.directives ⋆ RTypes r c.types v.types) (by ac_rfl) ?_
    refine (addMissingDirs_ok.frame).post fun o => ?_
    cases o with
    | panic => exact elim_pure fun h => h.elim
    | oof => exact elim_pure fun h => h.elim
    | ret _ => 
      refine HP.entails.trans (entails_of_eq ?_) (setDirs (m := m) hc)
      show m ↦ _ ⋆ _ = _
      ac_rfl
  · rw [if_neg hx, if_neg hx]
    refine Tri.new fun m => ?_
    refine Tri.call copyDirs_ok fun _ => ?_
    rw [show ∀ x, m ↦ .dirMap x ⋆ a ↦ .schema c ⋆ RDef c.definition v.definition ⋆ RDirs c.directives v.directives ⋆ RTypes r c.types v.types =
      a ↦ .schema c ⋆ m ↦ .dirMap x ⋆ RDef c.definition v.definition ⋆ RDirs c.directives v.directives ⋆ RTypes r c.types v.types from fun _ => by ac_rfl]
    exact Tri.readSchemaCell (Tri.write (Tri.ret (setDirs hc)))

/-- A map of types in memory. -/
def OwnM (r : Memory) (m : Nat) (ts : GMap TypeDef) : HP := HP.ex fun x => m ↦ .typeMap x ⋆ Map2 (RefT r) x ts

theorem map2_isSome {σ τ : Type} {R : σ → τ → HP} {n : Bytes} {m : GMap σ} {ts : GMap τ} :
    Map2 R m ts ⊢ₕ ⌜(m.lookup n).isSome = (ts.lookup n).isSome⌝ := by
  intro k h
  show (m.lookup n).isSome = (ts.lookup n).isSome
  cases hl : m.lookup n with
  | none =>
    rw [map2_none hl k h]
    rfl
  | some a =>
    obtain ⟨t, K, h'⟩ := map2_some hl k h
    rw [((pure_star _ _ k).1 h').1.1]
    rfl

theorem addMissingTypes_ok {m : Nat} : ∀ {l : GMap Nat} {vl ts : GMap TypeDef},
    Tri r (OwnM r m ts ⋆ Map2 (RefT r) l vl) (addMissingTypes m l) (rets fun _ => OwnM r m (addMissing ts vl))
  | [], [], ts => Tri.ret (star_left _ _)
  | [], _ :: _, _ => Tri.false (star_right _ _)
  | _ :: _, [], _ => Tri.false (star_right _ _)
  | (n, a) :: l, (n', t) :: vl, ts => by
    refine Tri.eq (P' := ⌜n = n'⌝ ⋆ OwnM r m ts ⋆ RefT r a t ⋆ Map2 (RefT r) l vl) (by show _ ⋆ ⌜n = n'⌝ ⋆ _ ⋆ _ = _; ac_rfl) ?_
    refine Tri.pure fun e => ?_
    subst e
    unfold OwnM
    rw [ex_star]
    refine Tri.exists fun x => ?_
    rw [star_assoc]
    refine Tri.readTypeMap ?_
    refine Tri.pre (P' := ⌜(x.lookup n).isSome = (ts.lookup n).isSome⌝ ⋆ m ↦ .typeMap x ⋆ Map2 (RefT r) x ts ⋆ RefT r a t ⋆ Map2 (RefT r) l vl)
      (fun k h => (pure_star _ _ k).2 ⟨map2_isSome k (((star_right _ _).trans (star_left _ _)) k h), h⟩) ?_
    refine Tri.pure fun e => ?_
    unfold addMissing
    rw [List.foldl_cons]
    by_cases h : (x.lookup n).isSome = true
    · rw [if_pos h]
      rw [e] at h
      rw [if_pos h]
      refine Tri.pre ?_ (addMissingTypes_ok (l := l) (vl := vl) (ts := ts))
      refine HP.entails.trans (entails_of_eq ?_) ((star_right (RefT r a t) _).trans (star_mono (P := m ↦ .typeMap x ⋆ Map2 (RefT r) x ts) (intro_ex x (.refl _))
        (.refl (Map2 (RefT r) l vl))))
      ac_rfl
    · rw [if_neg h]
      rw [e] at h
      rw [if_neg h]
      refine Tri.put (Tri.pre ?_ (addMissingTypes_ok (l := l) (vl := vl) (ts := mapSet ts n t)))
      refine HP.entails.trans (entails_of_eq ?_) (star_mono (P := m ↦ .typeMap (mapSet x n a) ⋆ Map2 (RefT r) x ts ⋆ RefT r a t) (intro_ex (mapSet x n a)
        (star_mono (.refl _) map2_set)) (.refl (Map2 (RefT r) l vl)))
      ac_rfl

theorem copyTypes_ok {m : Nat} : ∀ {l : GMap Nat} {vl ts : GMap TypeDef},
    Tri r (OwnM r m ts ⋆ Map2 (RefT r) l vl) (copyTypes m l) (rets fun _ => OwnM r m (vl.foldl (fun m p => mapSet m p.1 p.2) ts))
  | [], [], ts => Tri.ret (star_left _ _)
  | [], _ :: _, _ => Tri.false (star_right _ _)
  | _ :: _, [], _ => Tri.false (star_right _ _)
  | (n, a) :: l, (n', t) :: vl, ts => by
    refine Tri.eq (P' := ⌜n = n'⌝ ⋆ OwnM r m ts ⋆ RefT r a t ⋆ Map2 (RefT r) l vl) (by show _ ⋆ ⌜n = n'⌝ ⋆ _ ⋆ _ = _; ac_rfl) ?_
    refine Tri.pure fun e => ?_
    subst e
    unfold OwnM
    rw [ex_star]
    refine Tri.exists fun x => ?_
    rw [star_assoc]
    refine Tri.readTypeMap ?_
    rw [List.foldl_cons]
    refine Tri.put (Tri.pre ?_ (copyTypes_ok (l := l) (vl := vl) (ts := mapSet ts n t)))
    refine HP.entails.trans (entails_of_eq ?_) (star_mono (P := m ↦ .typeMap (mapSet x n a) ⋆ Map2 (RefT r) x ts ⋆ RefT r a t) (intro_ex (mapSet x n a)
      (star_mono (.refl _) map2_set)) (.refl (Map2 (RefT r) l vl)))
    ac_rfl

/-- The schema gets another map of types. -/
theorem setTypes {a m : Nat} {c : SchemaCell} {v : Schema} {x : GMap TypeDef} (hc : Roots c v) :
    a ↦ .schema { c with types := some m } ⋆ OwnM r m x ⋆ RDef c.definition v.definition ⋆ RDirs c.directives v.directives ⋆ RTypes r c.types v.types ⊢ₕ
      RSchema r a { v with types := x } := by
  refine intro_ex { c with types := some m } (intro_pure ⟨hc.1, hc.2, hc.3⟩ ?_)
  dsimp only
  refine HP.entails.trans (entails_of_eq ?_) (star_right (RTypes r c.types v.types) _)
  show _ = RTypes r c.types v.types ⋆ a ↦ _ ⋆ RDef c.definition v.definition ⋆ RDirs c.directives v.directives ⋆ OwnM r m x
  ac_rfl

/-- The two global variables. -/
structure HasGlobals (r : Memory) : Prop where
  id : r 0 = some (.type { head := ⟨[], b!"ID", .scalar⟩ })
  string : r 1 = some (.type { head := ⟨[], b!"String", .scalar⟩ })

theorem specified_ok (hr : HasGlobals r) {P : HP} : P ⊢ₕ P ⋆ Map2 (RefT r) specifiedTypesP specifiedTypes := by
  have h : (Map2 (RefT r) specifiedTypesP specifiedTypes).holds none' := by
    refine (pure_star _ _ _).2 ⟨rfl, none', none', none_apart _, .refl _, .refl _, .inl ⟨hr.id, ⟨rfl, rfl, rfl, rfl, rfl, rfl⟩⟩, ?_⟩
    exact (pure_star _ _ _).2 ⟨rfl, none', none', none_apart _, .refl _, .refl _, .inl ⟨hr.string, ⟨rfl, rfl, rfl, rfl, rfl, rfl⟩⟩, trivial⟩
  exact fun m hm => ⟨m, none', none_apart _, .refl _, none_sub _, hm, h⟩

theorem buildTypes_ok (hr : HasGlobals r) {ord : Order Nat} {a : Nat} {q : PSDL} {s : SDLContext} {v : Schema} (h2 : q.isExtending = s.isExtending) :
    Tri r (RSchema r a v ⋆ Map2 (RefT r) q.types s.types) (buildTypes ord a q)
      (rets fun _ => HP.ex fun ord' => RSchema r a (GQL.buildTypes ord' v s)) := by
  unfold buildTypes GQL.buildTypes
  rw [h2]
  unfold RSchema
  rw [ex_star]
  refine Tri.exists fun c => ?_
  rw [star_assoc]
  refine Tri.pure fun hc => ?_
  by_cases hx : (!s.isExtending) = true
  · rw [if_pos hx]
    simp only [hx, if_true]
    refine Tri.new fun m => ?_
    rw [show m ↦ .typeMap q.types ⋆ (a ↦ .schema c ⋆ RDef c.definition v.definition ⋆ RDirs c.directives v.directives ⋆ RTypes r c.types v.types) ⋆
        Map2 (RefT r) q.types s.types =
      a ↦ .schema c ⋆ (m ↦ .typeMap q.types ⋆ Map2 (RefT r) q.types s.types) ⋆ RDef c.definition v.definition ⋆ RDirs c.directives v.directives ⋆
        RTypes r c.types v.types from by ac_rfl]
    refine Tri.readSchemaCell (Tri.put ?_)
    refine Tri.pre (specified_ok hr) ?_
    refine Tri.pre (star_mono (.refl _) (map2_perm (ord.perm specifiedTypesP))) ?_
    rw [star_comm, ex_star]
    refine Tri.exists fun ts' => ?_
    rw [star_assoc]
    refine Tri.pure fun hp => ?_
    refine Tri.pre (P' := (OwnM r m s.types ⋆ Map2 (RefT r) (ord.arrange specifiedTypesP) ts') ⋆ a ↦ .schema { c with types := some m } ⋆
      RDef c.definition v.definition ⋆ RDirs c.directives v.directives ⋆ RTypes r c.types v.types) ?_ ?_
    · refine HP.entails.trans (entails_of_eq ?_) (star_mono (P := (m ↦ .typeMap q.types ⋆ Map2 (RefT r) q.types s.types) ⋆
        Map2 (RefT r) (ord.arrange specifiedTypesP) ts') (star_mono (intro_ex q.types (.refl _)) (.refl _)) (.refl _))
      ac_rfl
    refine (addMissingTypes_ok.frame).post fun o => ?_
    cases o with
    | panic => exact elim_pure fun h => h.elim
    | oof => exact elim_pure fun h => h.elim
    | ret _ =>
      refine intro_ex (Order.at specifiedTypes ts' hp) ?_
      rw [Order.at_arrange]
      refine HP.entails.trans (entails_of_eq ?_) (setTypes (m := m) hc)
      show OwnM r m _ ⋆ _ = _
      ac_rfl
  · rw [if_neg hx]
    simp only [hx]
    refine Tri.new fun m => ?_
    refine Tri.pre (P' := HP.ex fun ts' => ⌜ts'.Perm s.types⌝ ⋆ (OwnM r m [] ⋆ Map2 (RefT r) (ord.arrange q.types) ts') ⋆ a ↦ .schema c ⋆
      RDef c.definition v.definition ⋆ RDirs c.directives v.directives ⋆ RTypes r c.types v.types) ?_ ?_
    · rw [show ∀ A : HP, A ⋆ (a ↦ .schema c ⋆ RDef c.definition v.definition ⋆ RDirs c.directives v.directives ⋆ RTypes r c.types v.types) ⋆
          Map2 (RefT r) q.types s.types = Map2 (RefT r) q.types s.types ⋆ A ⋆ a ↦ .schema c ⋆ RDef c.definition v.definition ⋆ RDirs c.directives v.directives ⋆
          RTypes r c.types v.types from fun A => by ac_rfl]
      refine HP.entails.trans (star_mono (map2_perm (ord.perm q.types)) (.refl _)) ?_
      rw [ex_star]
      refine elim_ex fun ts' => ?_
      rw [star_assoc]
      refine elim_pure fun hp => intro_ex ts' (intro_pure hp ?_)
      refine HP.entails.trans (entails_of_eq ?_) (star_mono (P := m ↦ .typeMap [] ⋆ Map2 (RefT r) (ord.arrange q.types) ts') (star_mono (intro_ex [] ?_) (.refl _)) (.refl _))
      · ac_rfl
      · exact entails_of_eq (star_emp _).symm
    refine Tri.exists fun ts' => Tri.pure fun hp => ?_
    refine Tri.call copyTypes_ok fun _ => ?_
    rw [show ∀ x, OwnM r m x ⋆ a ↦ .schema c ⋆ RDef c.definition v.definition ⋆ RDirs c.directives v.directives ⋆ RTypes r c.types v.types =
      a ↦ .schema c ⋆ OwnM r m x ⋆ RDef c.definition v.definition ⋆ RDirs c.directives v.directives ⋆ RTypes r c.types v.types from fun _ => by ac_rfl]
    refine Tri.readSchemaCell (Tri.write (Tri.ret (intro_ex (Order.at s.types ts' hp) ?_)))
    simp only [Order.at_arrange]
    exact setTypes hc

/-- `buildSchema` on memory. -/
theorem buildSchema_ok (hr : HasGlobals r) {ord : POrders} {a : Nat} {q : PSDL} {s : SDLContext} {v : Schema} :
    Tri r (RSchema r a v ⋆ RSDL r q s) (buildSchema ord a q)
      (rets fun _ => HP.ex fun ord' : BuildOrders => ⌜ord'.dirs = ord.dirs⌝ ⋆ RSchema r a (buildSchemaOf ord' v s)) := by
  unfold RSDL
  refine Tri.eq (P' := ⌜q.directives = s.directives ∧ q.isExtending = s.isExtending⌝ ⋆ (RDef q.schemaDef s.schemaDef ⋆ All2 OwnD q.schemaExts s.schemaExts) ⋆
    RSchema r a v ⋆ Map2 (RefT r) q.types s.types ⋆ Map2 (All2 OwnT) q.typeExts s.typeExts) (by ac_rfl) ?_
  refine Tri.pure fun ⟨h1, h2⟩ => ?_
  unfold buildSchema
  refine Tri.call mergeSchemaExtensions_ok fun _ => ?_
  rw [show ∀ A : HP, A ⋆ RSchema r a v ⋆ Map2 (RefT r) q.types s.types ⋆ Map2 (All2 OwnT) q.typeExts s.typeExts =
    Map2 (All2 OwnT) q.typeExts s.typeExts ⋆ A ⋆ RSchema r a v ⋆ Map2 (RefT r) q.types s.types from fun _ => by ac_rfl]
  refine Tri.pre (star_mono (map2_perm (ord.exts.perm q.typeExts)) (.refl _)) ?_
  rw [ex_star]
  refine Tri.exists fun vl => ?_
  rw [star_assoc]
  refine Tri.pure fun hp => ?_
  obtain ⟨k1, k2, k3, k4⟩ := mergeSchemaExtensions_keeps s
  rw [← k1]
  refine Tri.eq (P' := (RSchema r a v ⋆ Map2 (RefT r) q.types (GQL.mergeSchemaExtensions s).types ⋆ Map2 (All2 OwnT) (ord.exts.arrange q.typeExts) vl) ⋆
    RDef q.schemaDef (GQL.mergeSchemaExtensions s).schemaDef) (by ac_rfl) ?_
  refine Tri.call (mergeTypeExts_ok (h2.trans k4.symm)) fun _ => ?_
  obtain ⟨T, T', hk⟩ := mergeTypeExts_keeps vl v (GQL.mergeSchemaExtensions s)
  rw [hk]
  dsimp only
  refine Tri.eq (P' := (RSchema r a { v with types := T } ⋆ RDef q.schemaDef ({ GQL.mergeSchemaExtensions s with types := T' } : SDLContext).schemaDef) ⋆
    Map2 (RefT r) q.types T') (by dsimp only; ac_rfl) ?_
  refine Tri.call buildSchemaDefinition_ok fun _ => ?_
  refine Tri.call (buildDirectives_ok (s := { GQL.mergeSchemaExtensions s with types := T' }) (by rw [h1, ← k3]) (h2.trans k4.symm)) fun _ => ?_
  refine (buildTypes_ok hr (s := { GQL.mergeSchemaExtensions s with types := T' }) (h2.trans k4.symm)).rets fun _ => ?_
  refine elim_ex fun ot => ?_
  have hp' : vl.Perm (GQL.mergeSchemaExtensions s).typeExts := k2.symm ▸ hp
  refine intro_ex ⟨Order.at (GQL.mergeSchemaExtensions s).typeExts vl hp', ord.dirs, ot⟩ (intro_pure rfl (entails_of_eq ?_))
  unfold buildSchemaOf mergeTypeExtensions
  dsimp only
  rw [Order.at_arrange, hk]

end GQL.Conc
