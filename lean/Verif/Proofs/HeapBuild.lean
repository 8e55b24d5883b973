/-
`BuildSchema` with pointers (Model/HeapBuild.lean) does what `BuildSchema` with values (Model/Schema.lean) does.
-/
import Verif.Model.HeapBuild
import Verif.Props.C25
import Verif.Proofs.SdlDoc

namespace GQL
open Spec (Vars)

/-! ### One kind of lists -/

section
variable {α : Type} {m : Mem α} {s : Vars α}

theorem Rep.make (hr : Rep m s) (x : Nat) (l : List α) : ∃ m', m.make x l = .ret m' ∧ Rep m' (s.set x (some l)) :=
  exec_step (c := .fromSlice x l) hr rfl (by intro _ _ h; cases h)

theorem Rep.drop (hr : Rep m s) (y : Nat) : Rep m (s.set y none) := by
  obtain ⟨N, h1, h2⟩ := hr
  refine ⟨N, fun x l hx => ?_, fun x z hxz hx hz => ?_⟩
  · unfold Spec.Vars.set at hx
    split at hx
    · cases hx
    · exact h1 x l hx
  · unfold Spec.Vars.set at hx hz
    split at hx
    · cases hx
    · split at hz
      · cases hz
      · exact h2 x z hxz hx hz

theorem Spec.Vars.set_self (s : Vars α) {x : Nat} {v : Option (List α)} (h : s x = v) : s.set x v = s := by
  funext y
  unfold Spec.Vars.set
  split
  · rename_i e; rw [e, h]
  · rfl

theorem Rep.joinVar (hr : Rep m s) {x y : Nat} {l k : List α} (hx : s x = some l) (hy : s y = some k) (hxy : x ≠ y) :
    ∃ m', m.joinVar x y = .ret m' ∧ Rep m' ((s.set x (some (joined l k))).set y none) := by
  cases l with
  | nil =>
    have hp : m.vars x = none := by
      obtain ⟨N, h1, -⟩ := hr
      have := (h1 x [] hx).1
      cases hN : N x with
      | nil => rw [hN] at this; exact this
      | cons a l => rw [hN] at this; exact this.elim
    refine ⟨m, ?_, ?_⟩
    · unfold Mem.joinVar
      rw [hp]
      rfl
    · rw [Spec.Vars.set_self s (show s x = some (joined [] k) from hx)]
      exact hr.drop y
  | cons d l =>
    refine exec_step (c := .join x y) hr ?_ ?_
    · unfold Spec.step
      dsimp only
      rw [hx, hy]
      simp only [hxy, if_false]
      rfl
    · intro x' y' h
      cases h
      rw [hx]
      simp

theorem Rep.items (hr : Rep m s) {x : Nat} {l : List α} (hx : s x = some l) : m.items x = .ret l := by
  obtain ⟨N, h1, -⟩ := hr
  unfold Mem.items
  rw [((h1 x l hx).shows).2]
  show Out.ret _ = _
  rw [List.zipIdx_map_fst]

theorem Rep.empty : Rep (α := α) Mem.init (fun _ => some []) := Rep.init

end

/-! ### The memory, as values -/

/-- The values in memory: the lists that the struct fields hold, `none` for one that was given away to `Join`. -/
structure AMem where
  heads : List TypeHead
  sdefs : Nat
  dirs : Vars Directive
  fields : Vars FieldDef
  tys : Vars Ty
  values : Vars EnumVal
  inputs : Vars InputVal
  ops : Vars OpTypeDef

structure Is (m : PMem) (A : AMem) : Prop where
  heads : m.heads = A.heads
  sdefs : m.sdefs = A.sdefs
  dirs : Rep m.dirs A.dirs
  fields : Rep m.fields A.fields
  tys : Rep m.tys A.tys
  values : Rep m.values A.values
  inputs : Rep m.inputs A.inputs
  ops : Rep m.ops A.ops

instance : Inhabited TypeHead := ⟨⟨[], [], .scalar⟩⟩

def AMem.head (A : AMem) (a : Nat) : TypeHead := A.heads[a]?.getD default

/-- The contents of type struct `a`. -/
def AMem.get (A : AMem) (a : Nat) : TypeDef where
  desc := (A.head a).desc
  name := (A.head a).name
  kind := (A.head a).kind
  ifaces := (A.tys (2 * a)).getD []
  dirs := (A.dirs (2 * a)).getD []
  fields := (A.fields a).getD []
  members := (A.tys (2 * a + 1)).getD []
  values := (A.values a).getD []
  inputs := (A.inputs a).getD []

/-- Type struct `a` exists and none of its lists was given away. -/
structure AMem.Live (A : AMem) (a : Nat) : Prop where
  head : a < A.heads.length
  ifaces : ∃ l, A.tys (2 * a) = some l
  dirs : ∃ l, A.dirs (2 * a) = some l
  fields : ∃ l, A.fields a = some l
  members : ∃ l, A.tys (2 * a + 1) = some l
  values : ∃ l, A.values a = some l
  inputs : ∃ l, A.inputs a = some l

/-- The contents of schema struct `b`. -/
def AMem.sget (A : AMem) (b : Nat) : SchemaDef where
  dirs := (A.dirs (2 * b + 1)).getD []
  ops := (A.ops b).getD []

structure AMem.SLive (A : AMem) (b : Nat) : Prop where
  lt : b < A.sdefs
  dirs : ∃ l, A.dirs (2 * b + 1) = some l
  ops : ∃ l, A.ops b = some l

/-- From `A` to `A'` structs may have been added, and those of `T` and `U` changed. -/
structure Grow (A A' : AMem) (T U : Nat → Prop) : Prop where
  heads : A.heads.length ≤ A'.heads.length
  sdefs : A.sdefs ≤ A'.sdefs
  types : ∀ a, A.Live a → ¬ T a → A'.Live a ∧ A'.get a = A.get a
  schemas : ∀ b, A.SLive b → ¬ U b → A'.SLive b ∧ A'.sget b = A.sget b

def nowhere : Nat → Prop := fun _ => False

theorem Grow.refl (A : AMem) (T U : Nat → Prop) : Grow A A T U := ⟨Nat.le_refl _, Nat.le_refl _, fun _ h _ => ⟨h, rfl⟩, fun _ h _ => ⟨h, rfl⟩⟩

theorem Grow.trans {A B C : AMem} {T U : Nat → Prop} (h : Grow A B T U) (h' : Grow B C T U) : Grow A C T U := by
  refine ⟨Nat.le_trans h.heads h'.heads, Nat.le_trans h.sdefs h'.sdefs, fun a ha hT => ?_, fun b hb hU => ?_⟩
  · obtain ⟨h1, h2⟩ := h.types a ha hT
    obtain ⟨h3, h4⟩ := h'.types a h1 hT
    exact ⟨h3, h4.trans h2⟩
  · obtain ⟨h1, h2⟩ := h.schemas b hb hU
    obtain ⟨h3, h4⟩ := h'.schemas b h1 hU
    exact ⟨h3, h4.trans h2⟩

theorem Grow.mono {A B : AMem} {T U T' U' : Nat → Prop} (h : Grow A B T U) (hT : ∀ a, T a → T' a) (hU : ∀ a, U a → U' a) : Grow A B T' U' :=
  ⟨h.heads, h.sdefs, fun a ha hn => h.types a ha fun ht => hn (hT a ht), fun b hb hn => h.schemas b hb fun hu => hn (hU b hu)⟩

/-! ### Allocation -/

theorem set_same {α : Type} (s : Vars α) (x : Nat) (v : Option (List α)) : (s.set x v) x = v := by simp [Spec.Vars.set]

theorem set_other {α : Type} (s : Vars α) {x y : Nat} (v : Option (List α)) (h : y ≠ x) : (s.set x v) y = s y := by simp [Spec.Vars.set, h]

/-- What allocating a type struct makes of the memory. -/
def AMem.addType (A : AMem) (t : TypeDef) : AMem :=
  let a := A.heads.length
  { A with
    heads := A.heads ++ [⟨t.desc, t.name, t.kind⟩]
    dirs := A.dirs.set (2 * a) (some t.dirs)
    fields := A.fields.set a (some t.fields)
    tys := (A.tys.set (2 * a) (some t.ifaces)).set (2 * a + 1) (some t.members)
    values := A.values.set a (some t.values)
    inputs := A.inputs.set a (some t.inputs) }

theorem allocType_is {m : PMem} {A : AMem} (h : Is m A) (t : TypeDef) : ∃ m', m.allocType t = .ret (m', A.heads.length) ∧ Is m' (A.addType t) := by
  have hl : m.heads.length = A.heads.length := by rw [h.heads]
  obtain ⟨d, e1, r1⟩ := h.dirs.make (2 * A.heads.length) t.dirs
  obtain ⟨f, e2, r2⟩ := h.fields.make A.heads.length t.fields
  obtain ⟨i, e3, r3⟩ := h.tys.make (2 * A.heads.length) t.ifaces
  obtain ⟨u, e4, r4⟩ := r3.make (2 * A.heads.length + 1) t.members
  obtain ⟨v, e5, r5⟩ := h.values.make A.heads.length t.values
  obtain ⟨n, e6, r6⟩ := h.inputs.make A.heads.length t.inputs
  refine ⟨{ m with heads := m.heads ++ [⟨t.desc, t.name, t.kind⟩], dirs := d, fields := f, tys := u, values := v, inputs := n }, ?_, ?_⟩
  · unfold PMem.allocType
    simp only [hl, e1, e2, e3, e4, e5, e6, Out.bind]
  · exact ⟨by show m.heads ++ _ = A.heads ++ _; rw [h.heads], h.sdefs, r1, r2, r4, r5, r6, h.ops⟩

theorem addType_live (A : AMem) (t : TypeDef) : (A.addType t).Live A.heads.length ∧ (A.addType t).get A.heads.length = t := by
  have hi : (A.addType t).tys (2 * A.heads.length) = some t.ifaces := by
    show ((A.tys.set _ _).set _ _) _ = _
    rw [set_other _ _ (by omega), set_same]
  have hm : (A.addType t).tys (2 * A.heads.length + 1) = some t.members := set_same _ _ _
  have hd : (A.addType t).dirs (2 * A.heads.length) = some t.dirs := set_same _ _ _
  have hf : (A.addType t).fields A.heads.length = some t.fields := set_same _ _ _
  have hv : (A.addType t).values A.heads.length = some t.values := set_same _ _ _
  have hn : (A.addType t).inputs A.heads.length = some t.inputs := set_same _ _ _
  have hh : (A.addType t).head A.heads.length = ⟨t.desc, t.name, t.kind⟩ := by
    show ((A.heads ++ [_])[_]?).getD _ = _
    simp
  refine ⟨⟨by show _ < (A.heads ++ [_]).length; simp, ⟨_, hi⟩, ⟨_, hd⟩, ⟨_, hf⟩, ⟨_, hm⟩, ⟨_, hv⟩, ⟨_, hn⟩⟩, ?_⟩
  unfold AMem.get
  rw [hi, hm, hd, hf, hv, hn, hh]
  rfl

theorem addType_grow (A : AMem) (t : TypeDef) (T U : Nat → Prop) : Grow A (A.addType t) T U := by
  refine ⟨?_, Nat.le_refl _, fun a ha _ => ?_, fun b hb _ => ?_⟩
  · show A.heads.length ≤ (A.heads ++ [_]).length
    simp
  · have hlt := ha.head
    have hi : (A.addType t).tys (2 * a) = A.tys (2 * a) := by
      show ((A.tys.set _ _).set _ _) _ = _
      rw [set_other _ _ (by omega), set_other _ _ (by omega)]
    have hm : (A.addType t).tys (2 * a + 1) = A.tys (2 * a + 1) := by
      show ((A.tys.set _ _).set _ _) _ = _
      rw [set_other _ _ (by omega), set_other _ _ (by omega)]
    have hd : (A.addType t).dirs (2 * a) = A.dirs (2 * a) := set_other _ _ (by omega)
    have hf : (A.addType t).fields a = A.fields a := set_other _ _ (by omega)
    have hv : (A.addType t).values a = A.values a := set_other _ _ (by omega)
    have hn : (A.addType t).inputs a = A.inputs a := set_other _ _ (by omega)
    have hh : (A.addType t).head a = A.head a := by
      show ((A.heads ++ [_])[_]?).getD _ = _
      rw [List.getElem?_append_left hlt]
      rfl
    refine ⟨⟨?_, hi ▸ ha.ifaces, hd ▸ ha.dirs, hf ▸ ha.fields, hm ▸ ha.members, hv ▸ ha.values, hn ▸ ha.inputs⟩, ?_⟩
    · show a < (A.heads ++ [_]).length
      simp; omega
    · unfold AMem.get
      rw [hi, hm, hd, hf, hv, hn, hh]
  · have hd : (A.addType t).dirs (2 * b + 1) = A.dirs (2 * b + 1) := set_other _ _ (by omega)
    refine ⟨⟨hb.lt, hd ▸ hb.dirs, hb.ops⟩, ?_⟩
    unfold AMem.sget
    rw [hd]
    rfl

/-- Several type structs are allocated. -/
theorem allocTypes_is : ∀ (ts : List TypeDef) {m : PMem} {A : AMem}, Is m A → ∃ m' A' r, allocAll PMem.allocType m ts = .ret (m', r) ∧ Is m' A' ∧
    Grow A A' nowhere nowhere ∧ A'.sdefs = A.sdefs ∧ r.map A'.get = ts ∧ (∀ a ∈ r, A'.Live a ∧ A.heads.length ≤ a) ∧ r.Nodup
  | [], m, A, h => ⟨m, A, [], rfl, h, .refl _ _ _, rfl, rfl, by simp, by simp⟩
  | t :: ts, m, A, h => by
    obtain ⟨m1, e1, h1⟩ := allocType_is h t
    obtain ⟨m2, A2, r, e2, h2, g2, hs, hv, hl, hn⟩ := allocTypes_is ts h1
    have hlive := addType_live A t
    have hlen : A.heads.length < (A.addType t).heads.length := hlive.1.head
    obtain ⟨k1, k2⟩ := g2.types _ hlive.1 id
    refine ⟨m2, A2, A.heads.length :: r, ?_, h2, (addType_grow A t _ _).trans g2, hs, ?_, ?_, ?_⟩
    · simp only [allocAll, e1, Out.bind, e2]
    · rw [List.map_cons, k2, hlive.2, hv]
    · intro a ha
      rcases List.mem_cons.1 ha with rfl | ha
      · exact ⟨k1, Nat.le_refl _⟩
      · exact ⟨(hl a ha).1, by have := (hl a ha).2; omega⟩
    · rw [List.nodup_cons]
      exact ⟨fun hm => (by have := (hl _ hm).2; omega), hn⟩

/-- The values that the entries of a map of addresses stand for. -/
def AMem.vals (A : AMem) (m : GMap Nat) : GMap TypeDef := m.map fun p => (p.1, A.get p.2)

def AMem.lists (A : AMem) (m : GMap (List Nat)) : GMap (List TypeDef) := m.map fun p => (p.1, p.2.map A.get)

theorem allocTypeMap_is : ∀ (ts : GMap TypeDef) {m : PMem} {A : AMem}, Is m A → ∃ m' A' r, allocAll (allocEntry PMem.allocType) m ts = .ret (m', r) ∧ Is m' A' ∧
    Grow A A' nowhere nowhere ∧ A'.sdefs = A.sdefs ∧ A'.vals r = ts ∧ (∀ p ∈ r, A'.Live p.2 ∧ A.heads.length ≤ p.2) ∧ (r.map (·.2)).Nodup
  | [], m, A, h => ⟨m, A, [], rfl, h, .refl _ _ _, rfl, rfl, by simp, by simp⟩
  | (n, t) :: ts, m, A, h => by
    obtain ⟨m1, e1, h1⟩ := allocType_is h t
    obtain ⟨m2, A2, r, e2, h2, g2, hs, hv, hl, hn⟩ := allocTypeMap_is ts h1
    have hlive := addType_live A t
    have hlen : A.heads.length < (A.addType t).heads.length := hlive.1.head
    obtain ⟨k1, k2⟩ := g2.types _ hlive.1 id
    refine ⟨m2, A2, (n, A.heads.length) :: r, ?_, h2, (addType_grow A t _ _).trans g2, hs, ?_, ?_, ?_⟩
    · simp only [allocAll, allocEntry, e1, Out.bind, e2]
    · unfold AMem.vals at hv ⊢
      rw [List.map_cons, hv, k2, hlive.2]
    · intro a ha
      rcases List.mem_cons.1 ha with rfl | ha
      · exact ⟨k1, Nat.le_refl _⟩
      · exact ⟨(hl a ha).1, by have := (hl a ha).2; omega⟩
    · rw [List.map_cons, List.nodup_cons]
      refine ⟨fun hm => ?_, hn⟩
      obtain ⟨p, hp, e⟩ := List.mem_map.1 hm
      have := (hl p hp).2
      omega

theorem allocExts_is : ∀ (ts : GMap (List TypeDef)) {m : PMem} {A : AMem}, Is m A → ∃ m' A' r,
    allocAll (allocEntry (allocAll PMem.allocType)) m ts = .ret (m', r) ∧ Is m' A' ∧
    Grow A A' nowhere nowhere ∧ A'.sdefs = A.sdefs ∧ A'.lists r = ts ∧ (∀ p ∈ r, ∀ a ∈ p.2, A'.Live a ∧ A.heads.length ≤ a) ∧ (r.flatMap (·.2)).Nodup
  | [], m, A, h => ⟨m, A, [], rfl, h, .refl _ _ _, rfl, rfl, by simp, by simp⟩
  | (n, t) :: ts, m, A, h => by
    obtain ⟨m1, A1, r1, e1, h1, g1, hs1, hv1, hl1, hn1⟩ := allocTypes_is t h
    obtain ⟨m2, A2, r, e2, h2, g2, hs, hv, hl, hn⟩ := allocExts_is ts h1
    refine ⟨m2, A2, (n, r1) :: r, ?_, h2, g1.trans g2, hs.trans hs1, ?_, ?_, ?_⟩
    · simp only [allocAll, allocEntry, e1, Out.bind, e2]
    · unfold AMem.lists at hv ⊢
      rw [List.map_cons, hv]
      congr 2
      rw [← hv1]
      exact List.map_congr_left fun a ha => (g2.types a (hl1 a ha).1 id).2
    · intro p hp a ha
      rcases List.mem_cons.1 hp with rfl | hp
      · exact ⟨(g2.types a (hl1 a ha).1 id).1, (hl1 a ha).2⟩
      · exact ⟨(hl p hp a ha).1, Nat.le_trans g1.heads (hl p hp a ha).2⟩
    · rw [List.flatMap_cons, List.nodup_append]
      refine ⟨hn1, hn, fun a ha b hb e => ?_⟩
      subst e
      obtain ⟨p, hp, hb⟩ := List.mem_flatMap.1 hb
      have h3 := (hl p hp a hb).2
      have h4 := (hl1 a ha).1.head
      omega

/-- What allocating a schema struct makes of the memory. -/
def AMem.addSchemaDef (A : AMem) (d : SchemaDef) : AMem :=
  { A with sdefs := A.sdefs + 1, dirs := A.dirs.set (2 * A.sdefs + 1) (some d.dirs), ops := A.ops.set A.sdefs (some d.ops) }

theorem allocSchemaDef_is {m : PMem} {A : AMem} (h : Is m A) (d : SchemaDef) :
    ∃ m', m.allocSchemaDef d = .ret (m', A.sdefs) ∧ Is m' (A.addSchemaDef d) := by
  obtain ⟨x, e1, r1⟩ := h.dirs.make (2 * A.sdefs + 1) d.dirs
  obtain ⟨y, e2, r2⟩ := h.ops.make A.sdefs d.ops
  refine ⟨{ m with sdefs := m.sdefs + 1, dirs := x, ops := y }, ?_, ?_⟩
  · unfold PMem.allocSchemaDef
    simp only [h.sdefs, e1, e2, Out.bind]
  · exact ⟨h.heads, by show m.sdefs + 1 = A.sdefs + 1; rw [h.sdefs], r1, h.fields, h.tys, h.values, h.inputs, r2⟩

theorem addSchemaDef_live (A : AMem) (d : SchemaDef) : (A.addSchemaDef d).SLive A.sdefs ∧ (A.addSchemaDef d).sget A.sdefs = d := by
  have hd : (A.addSchemaDef d).dirs (2 * A.sdefs + 1) = some d.dirs := set_same _ _ _
  have ho : (A.addSchemaDef d).ops A.sdefs = some d.ops := set_same _ _ _
  refine ⟨⟨Nat.lt_succ_self _, ⟨_, hd⟩, ⟨_, ho⟩⟩, ?_⟩
  unfold AMem.sget
  rw [hd, ho]
  rfl

theorem addSchemaDef_grow (A : AMem) (d : SchemaDef) (T U : Nat → Prop) : Grow A (A.addSchemaDef d) T U := by
  refine ⟨Nat.le_refl _, Nat.le_succ _, fun a ha _ => ?_, fun b hb _ => ?_⟩
  · have hd : (A.addSchemaDef d).dirs (2 * a) = A.dirs (2 * a) := set_other _ _ (by omega)
    refine ⟨⟨ha.head, ha.ifaces, hd ▸ ha.dirs, ha.fields, ha.members, ha.values, ha.inputs⟩, ?_⟩
    unfold AMem.get
    rw [hd]
    rfl
  · have hlt := hb.lt
    have hd : (A.addSchemaDef d).dirs (2 * b + 1) = A.dirs (2 * b + 1) := set_other _ _ (by omega)
    have ho : (A.addSchemaDef d).ops b = A.ops b := set_other _ _ (by omega)
    refine ⟨⟨Nat.lt_succ_of_lt hlt, hd ▸ hb.dirs, ho ▸ hb.ops⟩, ?_⟩
    unfold AMem.sget
    rw [hd, ho]

theorem allocSchemaDefs_is : ∀ (ds : List SchemaDef) {m : PMem} {A : AMem}, Is m A → ∃ m' A' r, allocAll PMem.allocSchemaDef m ds = .ret (m', r) ∧ Is m' A' ∧
    Grow A A' nowhere nowhere ∧ A'.heads = A.heads ∧ r.map A'.sget = ds ∧ (∀ b ∈ r, A'.SLive b ∧ A.sdefs ≤ b) ∧ r.Nodup
  | [], m, A, h => ⟨m, A, [], rfl, h, .refl _ _ _, rfl, rfl, by simp, by simp⟩
  | t :: ts, m, A, h => by
    obtain ⟨m1, e1, h1⟩ := allocSchemaDef_is h t
    obtain ⟨m2, A2, r, e2, h2, g2, hs, hv, hl, hn⟩ := allocSchemaDefs_is ts h1
    have hlive := addSchemaDef_live A t
    have hlen : A.sdefs < (A.addSchemaDef t).sdefs := hlive.1.lt
    obtain ⟨k1, k2⟩ := g2.schemas _ hlive.1 id
    refine ⟨m2, A2, A.sdefs :: r, ?_, h2, (addSchemaDef_grow A t _ _).trans g2, hs, ?_, ?_, ?_⟩
    · simp only [allocAll, e1, Out.bind, e2]
    · rw [List.map_cons, k2, hlive.2, hv]
    · intro a ha
      rcases List.mem_cons.1 ha with rfl | ha
      · exact ⟨k1, Nat.le_refl _⟩
      · exact ⟨(hl a ha).1, by have := (hl a ha).2; omega⟩
    · rw [List.nodup_cons]
      exact ⟨fun hm => (by have := (hl _ hm).2; omega), hn⟩

/-! ### Reading -/

theorem readType_is {m : PMem} {A : AMem} (h : Is m A) {a : Nat} (ha : A.Live a) : m.readType a = .ret (A.get a) := by
  obtain ⟨i, hi⟩ := ha.ifaces
  obtain ⟨d, hd⟩ := ha.dirs
  obtain ⟨f, hf⟩ := ha.fields
  obtain ⟨u, hu⟩ := ha.members
  obtain ⟨v, hv⟩ := ha.values
  obtain ⟨n, hn⟩ := ha.inputs
  unfold PMem.readType AMem.get AMem.head
  rw [h.heads, List.getElem?_eq_getElem ha.head]
  simp only [h.dirs.items hd, h.fields.items hf, h.tys.items hi, h.tys.items hu, h.values.items hv, h.inputs.items hn, Out.bind, hd, hf, hi, hu, hv, hn,
    Option.getD_some]

theorem readSchemaDef_is {m : PMem} {A : AMem} (h : Is m A) {b : Nat} (hb : A.SLive b) : m.readSchemaDef b = .ret (A.sget b) := by
  obtain ⟨d, hd⟩ := hb.dirs
  obtain ⟨o, ho⟩ := hb.ops
  unfold PMem.readSchemaDef AMem.sget
  simp only [h.dirs.items hd, h.ops.items ho, Out.bind, hd, ho, Option.getD_some]

theorem readTypes_is {m : PMem} {A : AMem} (h : Is m A) : ∀ {l : GMap Nat}, (∀ p ∈ l, A.Live p.2) → m.readTypes l = .ret (A.vals l)
  | [], _ => rfl
  | (n, a) :: l, hl => by
    unfold PMem.readTypes
    rw [readType_is h (hl (n, a) (by simp)), Out.bind_ret, readTypes_is h fun p hp => hl p (by simp [hp])]
    rfl

/-- The value of a schema in memory. -/
def AMem.schema (A : AMem) (p : PSchema) : Schema where
  definition := p.definition.map A.sget
  queryType := p.queryType
  mutationType := p.mutationType
  subscriptionType := p.subscriptionType
  directives := p.directives
  types := A.vals p.types

/-- Everything that a schema points to is there. -/
structure AMem.Has (A : AMem) (p : PSchema) : Prop where
  types : ∀ q ∈ p.types, A.Live q.2
  definition : ∀ b, p.definition = some b → A.SLive b

theorem readSchema_is {m : PMem} {A : AMem} (h : Is m A) {p : PSchema} (hp : A.Has p) : m.readSchema p = .ret (A.schema p) := by
  unfold PMem.readSchema
  rw [readTypes_is h hp.types]
  have : m.readDefinition p.definition = .ret (p.definition.map A.sget) := by
    cases hd : p.definition with
    | none => rfl
    | some b =>
      unfold PMem.readDefinition
      dsimp only
      rw [readSchemaDef_is h (hp.definition b hd)]
      rfl
  rw [this]
  rfl

/-! ### Extensions -/

/-- What `x.Join(y)` makes of the lists. -/
def joinVars {α : Type} (s : Vars α) (x y : Nat) : Vars α := (s.set x (some (joined ((s x).getD []) ((s y).getD [])))).set y none

theorem Rep.joinVars {α : Type} {m : Mem α} {s : Vars α} (hr : Rep m s) {x y : Nat} (hx : ∃ l, s x = some l) (hy : ∃ l, s y = some l) (hxy : x ≠ y) :
    ∃ m', m.joinVar x y = .ret m' ∧ Rep m' (joinVars s x y) := by
  obtain ⟨l, hx⟩ := hx
  obtain ⟨k, hy⟩ := hy
  obtain ⟨m', h1, h2⟩ := hr.joinVar hx hy hxy
  refine ⟨m', h1, ?_⟩
  unfold GQL.joinVars
  rw [hx, hy]
  exact h2

theorem joinVars_at {α : Type} (s : Vars α) {x y : Nat} (h : x ≠ y) : joinVars s x y x = some (joined ((s x).getD []) ((s y).getD [])) := by
  unfold joinVars
  rw [set_other _ _ h, set_same]

theorem joinVars_other {α : Type} (s : Vars α) {x y z : Nat} (hx : z ≠ x) (hy : z ≠ y) : joinVars s x y z = s z := by
  unfold joinVars
  rw [set_other _ _ hy, set_other _ _ hx]

/-- What merging extension `e` into type struct `t` makes of the memory. -/
def AMem.merge (A : AMem) (t e : Nat) : AMem :=
  let A := { A with dirs := joinVars A.dirs (2 * t) (2 * e) }
  match (A.head e).kind with
  | .object => { A with fields := joinVars A.fields t e, tys := joinVars A.tys (2 * t) (2 * e) }
  | .interface => { A with fields := joinVars A.fields t e }
  | .union => { A with tys := joinVars A.tys (2 * t + 1) (2 * e + 1) }
  | .enum => { A with values := joinVars A.values t e }
  | .inputObject => { A with inputs := joinVars A.inputs t e }
  | .scalar => A

theorem mergeTypeExt_is {m : PMem} {A : AMem} (h : Is m A) {t e : Nat} (ht : A.Live t) (he : A.Live e) (hte : t ≠ e) :
    ∃ m', m.mergeTypeExt t e = .ret m' ∧ Is m' (A.merge t e) := by
  obtain ⟨d, e1, r1⟩ := h.dirs.joinVars ht.dirs he.dirs (by omega)
  have hh : m.heads[e]? = some (A.head e) := by
    unfold AMem.head
    rw [h.heads, List.getElem?_eq_getElem he.head]
    rfl
  unfold PMem.mergeTypeExt AMem.merge
  rw [hh]
  dsimp only
  rw [e1, Out.bind_ret]
  have hk : AMem.head { A with dirs := joinVars A.dirs (2 * t) (2 * e) } e = A.head e := rfl
  rw [hk]
  cases (A.head e).kind with
  | scalar => exact ⟨_, rfl, h.heads, h.sdefs, r1, h.fields, h.tys, h.values, h.inputs, h.ops⟩
  | object =>
    obtain ⟨f, e2, r2⟩ := h.fields.joinVars ht.fields he.fields hte
    obtain ⟨i, e3, r3⟩ := h.tys.joinVars ht.ifaces he.ifaces (by omega)
    dsimp only
    rw [e2, Out.bind_ret, e3]
    exact ⟨_, rfl, h.heads, h.sdefs, r1, r2, r3, h.values, h.inputs, h.ops⟩
  | interface =>
    obtain ⟨f, e2, r2⟩ := h.fields.joinVars ht.fields he.fields hte
    dsimp only
    rw [e2]
    exact ⟨_, rfl, h.heads, h.sdefs, r1, r2, h.tys, h.values, h.inputs, h.ops⟩
  | union =>
    obtain ⟨i, e3, r3⟩ := h.tys.joinVars ht.members he.members (by omega)
    dsimp only
    rw [e3]
    exact ⟨_, rfl, h.heads, h.sdefs, r1, h.fields, r3, h.values, h.inputs, h.ops⟩
  | enum =>
    obtain ⟨i, e3, r3⟩ := h.values.joinVars ht.values he.values hte
    dsimp only
    rw [e3]
    exact ⟨_, rfl, h.heads, h.sdefs, r1, h.fields, h.tys, r3, h.inputs, h.ops⟩
  | inputObject =>
    obtain ⟨i, e3, r3⟩ := h.inputs.joinVars ht.inputs he.inputs hte
    dsimp only
    rw [e3]
    exact ⟨_, rfl, h.heads, h.sdefs, r1, h.fields, h.tys, h.values, r3, h.ops⟩

theorem merge_heads (A : AMem) (t e : Nat) : (A.merge t e).heads = A.heads ∧ (A.merge t e).sdefs = A.sdefs ∧ (A.merge t e).ops = A.ops ∧
    (A.merge t e).dirs = joinVars A.dirs (2 * t) (2 * e) := by
  unfold AMem.merge
  dsimp only
  split <;> exact ⟨rfl, rfl, rfl, rfl⟩

theorem merge_live (A : AMem) {t e : Nat} (ht : A.Live t) (hte : t ≠ e) : (A.merge t e).Live t ∧ (A.merge t e).get t = mergeTypeExt (A.get t) (A.get e) := by
  have hd := joinVars_at A.dirs (x := 2 * t) (y := 2 * e) (by omega)
  have hf := joinVars_at A.fields hte
  have hi := joinVars_at A.tys (x := 2 * t) (y := 2 * e) (by omega)
  have hi' := joinVars_other A.tys (x := 2 * t) (y := 2 * e) (z := 2 * t + 1) (by omega) (by omega)
  have hu := joinVars_at A.tys (x := 2 * t + 1) (y := 2 * e + 1) (by omega)
  have hu' := joinVars_other A.tys (x := 2 * t + 1) (y := 2 * e + 1) (z := 2 * t) (by omega) (by omega)
  have hv := joinVars_at A.values hte
  have hn := joinVars_at A.inputs hte
  have hk : ∀ D, AMem.head { A with dirs := D } e = A.head e := fun _ => rfl
  have hke : (A.get e).kind = (A.head e).kind := rfl
  unfold AMem.merge mergeTypeExt
  dsimp only
  rw [hk, hke]
  cases (A.head e).kind with
  | scalar =>
    refine ⟨⟨ht.head, ht.ifaces, ⟨_, hd⟩, ht.fields, ht.members, ht.values, ht.inputs⟩, ?_⟩
    unfold AMem.get
    dsimp only
    rw [hd]
    rfl
  | object =>
    refine ⟨⟨ht.head, ⟨_, hi⟩, ⟨_, hd⟩, ⟨_, hf⟩, (ht.members.imp fun _ h => hi'.trans h), ht.values, ht.inputs⟩, ?_⟩
    unfold AMem.get
    dsimp only
    rw [hd, hf, hi, hi']
    rfl
  | interface =>
    refine ⟨⟨ht.head, ht.ifaces, ⟨_, hd⟩, ⟨_, hf⟩, ht.members, ht.values, ht.inputs⟩, ?_⟩
    unfold AMem.get
    dsimp only
    rw [hd, hf]
    rfl
  | union =>
    refine ⟨⟨ht.head, (ht.ifaces.imp fun _ h => hu'.trans h), ⟨_, hd⟩, ht.fields, ⟨_, hu⟩, ht.values, ht.inputs⟩, ?_⟩
    unfold AMem.get
    dsimp only
    rw [hd, hu, hu']
    rfl
  | enum =>
    refine ⟨⟨ht.head, ht.ifaces, ⟨_, hd⟩, ht.fields, ht.members, ⟨_, hv⟩, ht.inputs⟩, ?_⟩
    unfold AMem.get
    dsimp only
    rw [hd, hv]
    rfl
  | inputObject =>
    refine ⟨⟨ht.head, ht.ifaces, ⟨_, hd⟩, ht.fields, ht.members, ht.values, ⟨_, hn⟩⟩, ?_⟩
    unfold AMem.get
    dsimp only
    rw [hd, hn]
    rfl

theorem merge_other (A : AMem) {t e a : Nat} (hat : a ≠ t) (hae : a ≠ e) : (A.merge t e).head a = A.head a ∧ (A.merge t e).dirs (2 * a) = A.dirs (2 * a) ∧
    (A.merge t e).fields a = A.fields a ∧ (A.merge t e).tys (2 * a) = A.tys (2 * a) ∧ (A.merge t e).tys (2 * a + 1) = A.tys (2 * a + 1) ∧
    (A.merge t e).values a = A.values a ∧ (A.merge t e).inputs a = A.inputs a := by
  have hd := joinVars_other A.dirs (x := 2 * t) (y := 2 * e) (z := 2 * a) (by omega) (by omega)
  have hf := joinVars_other A.fields hat hae
  have hi := joinVars_other A.tys (x := 2 * t) (y := 2 * e) (z := 2 * a) (by omega) (by omega)
  have hi' := joinVars_other A.tys (x := 2 * t) (y := 2 * e) (z := 2 * a + 1) (by omega) (by omega)
  have hu := joinVars_other A.tys (x := 2 * t + 1) (y := 2 * e + 1) (z := 2 * a + 1) (by omega) (by omega)
  have hu' := joinVars_other A.tys (x := 2 * t + 1) (y := 2 * e + 1) (z := 2 * a) (by omega) (by omega)
  have hv := joinVars_other A.values hat hae
  have hn := joinVars_other A.inputs hat hae
  unfold AMem.merge
  dsimp only
  split
  · exact ⟨rfl, hd, hf, hi, hi', rfl, rfl⟩
  · exact ⟨rfl, hd, hf, rfl, rfl, rfl, rfl⟩
  · exact ⟨rfl, hd, rfl, hu', hu, rfl, rfl⟩
  · exact ⟨rfl, hd, rfl, rfl, rfl, hv, rfl⟩
  · exact ⟨rfl, hd, rfl, rfl, rfl, rfl, hn⟩
  · exact ⟨rfl, hd, rfl, rfl, rfl, rfl, rfl⟩

theorem merge_grow (A : AMem) (t e : Nat) : Grow A (A.merge t e) (fun a => a = t ∨ a = e) nowhere := by
  obtain ⟨h1, h2, h3, h4⟩ := merge_heads A t e
  refine ⟨by rw [h1]; exact Nat.le_refl _, by rw [h2]; exact Nat.le_refl _, fun a ha hT => ?_, fun b hb _ => ?_⟩
  · obtain ⟨k1, k2, k3, k4, k5, k6, k7⟩ := merge_other A (t := t) (e := e) (a := a) (fun h => hT (.inl h)) (fun h => hT (.inr h))
    refine ⟨⟨h1 ▸ ha.head, k4 ▸ ha.ifaces, k2 ▸ ha.dirs, k3 ▸ ha.fields, k5 ▸ ha.members, k6 ▸ ha.values, k7 ▸ ha.inputs⟩, ?_⟩
    unfold AMem.get
    rw [k1, k2, k3, k4, k5, k6, k7]
  · have hd : (A.merge t e).dirs (2 * b + 1) = A.dirs (2 * b + 1) := by
      rw [h4]
      exact joinVars_other _ (by omega) (by omega)
    refine ⟨⟨h2 ▸ hb.lt, hd ▸ hb.dirs, h3 ▸ hb.ops⟩, ?_⟩
    unfold AMem.sget
    rw [hd, h3]

/-- The inner loop. -/
theorem mergeInto_is (t : Nat) : ∀ (es : List Nat) {m : PMem} {A : AMem}, Is m A → A.Live t → (∀ e ∈ es, A.Live e) → t ∉ es → es.Nodup →
    ∃ m' A', m.mergeInto t es = .ret m' ∧ Is m' A' ∧ A'.heads = A.heads ∧ A'.sdefs = A.sdefs ∧ Grow A A' (fun a => a = t ∨ a ∈ es) nowhere ∧ A'.Live t ∧
      A'.get t = (es.map A.get).foldl mergeTypeExt (A.get t)
  | [], m, A, h, ht, _, _, _ => ⟨m, A, rfl, h, rfl, rfl, .refl _ _ _, ht, rfl⟩
  | e :: es, m, A, h, ht, he, hte, hn => by
    rw [List.nodup_cons] at hn
    have hne : t ≠ e := fun e' => hte (by simp [e'])
    obtain ⟨m1, e1, h1⟩ := mergeTypeExt_is h ht (he e (by simp)) hne
    obtain ⟨l1, v1⟩ := merge_live A ht hne
    have g1 := merge_grow A t e
    have hkeep : ∀ x ∈ es, (A.merge t e).Live x ∧ (A.merge t e).get x = A.get x := fun x hx =>
      g1.types x (he x (by simp [hx])) (by
        rintro (rfl | rfl)
        · exact hte (by simp [hx])
        · exact hn.1 hx)
    obtain ⟨m2, A2, e2, h2, a2, s2, g2, l2, v2⟩ := mergeInto_is t es h1 l1 (fun x hx => (hkeep x hx).1) (fun hx => hte (by simp [hx])) hn.2
    refine ⟨m2, A2, ?_, h2, a2.trans (merge_heads A t e).1, s2.trans (merge_heads A t e).2.1, ?_, l2, ?_⟩
    · unfold PMem.mergeInto
      rw [e1]
      exact e2
    · refine (g1.mono ?_ fun _ h => h).trans (g2.mono ?_ fun _ h => h)
      · rintro a (rfl | rfl) <;> simp
      · rintro a (rfl | h) <;> simp [*]
    · rw [v2, v1, List.map_cons, List.foldl_cons]
      congr 1
      exact List.map_congr_left fun x hx => (hkeep x hx).2

/-- A type whose lists are all empty: nothing can be merged into it, because `Join` does nothing on a nil list. -/
structure Inert (t : TypeDef) : Prop where
  ifaces : t.ifaces = []
  dirs : t.dirs = []
  fields : t.fields = []
  members : t.members = []
  values : t.values = []
  inputs : t.inputs = []

theorem Inert.merge {t : TypeDef} (h : Inert t) (e : TypeDef) : mergeTypeExt t e = t := by
  obtain ⟨desc, name, kind, ifaces, dirs, fields, members, values, inputs⟩ := t
  obtain ⟨rfl, rfl, rfl, rfl, rfl, rfl⟩ := h
  unfold mergeTypeExt
  dsimp only
  split <;> rfl

theorem Inert.mergeAll {t : TypeDef} (h : Inert t) : ∀ es : List TypeDef, es.foldl mergeTypeExt t = t
  | [] => rfl
  | e :: es => by rw [List.foldl_cons, h.merge, h.mergeAll es]

theorem lookup_mem {α : Type} {n : Bytes} {v : α} : ∀ {l : GMap α}, l.lookup n = some v → (n, v) ∈ l
  | (k, w) :: l, h => by
    by_cases e : n = k
    · subst e
      simp only [List.lookup, beq_self_eq_true, Option.some.injEq] at h
      simp [h]
    · have e' : (n == k) = false := by simpa using e
      simp only [List.lookup, e'] at h
      exact List.mem_cons_of_mem _ (lookup_mem h)

/-- An entry of a map changes: the map of values has a new value there. -/
theorem vals_update {A A' : AMem} {name : Bytes} {t : Nat} : ∀ {l : GMap Nat}, (l.map (·.2)).Nodup → l.lookup name = some t →
    (∀ p ∈ l, p.2 ≠ t → A'.get p.2 = A.get p.2) → A'.vals l = mapSet (A.vals l) name (A'.get t)
  | [], _, h, _ => by cases h
  | (n, a) :: l, hn, hl, hk => by
    rw [List.map_cons, List.nodup_cons] at hn
    unfold AMem.vals mapSet
    rw [List.map_cons, List.map_cons]
    dsimp only
    by_cases e : n = name
    · subst e
      rw [if_pos (by simp)]
      simp only [List.lookup, beq_self_eq_true, Option.some.injEq] at hl
      subst hl
      congr 1
      refine List.map_congr_left fun p hp => ?_
      rw [hk p (by simp [hp]) fun e => hn.1 (List.mem_map.2 ⟨p, hp, e⟩)]
    · rw [if_neg (by simpa using e)]
      have e' : (name == n) = false := by simpa using fun h => e h.symm
      simp only [List.lookup, e'] at hl
      have hat : a ≠ t := fun h => hn.1 (List.mem_map.2 ⟨(name, t), lookup_mem hl, h.symm⟩)
      rw [hk (n, a) (by simp) hat]
      congr 1
      exact vals_update hn.2 hl fun p hp => hk p (by simp [hp])

theorem lookup_vals (A : AMem) (n : Bytes) : ∀ l : GMap Nat, (A.vals l).lookup n = (l.lookup n).map A.get
  | [] => rfl
  | (k, a) :: l => by
    unfold AMem.vals
    rw [List.map_cons]
    by_cases e : (n == k) = true
    · simp only [List.lookup, e]
      rfl
    · rw [Bool.not_eq_true] at e
      simp only [List.lookup, e]
      exact lookup_vals A n l

theorem vals_congr {A A' : AMem} {l : GMap Nat} (h : ∀ p ∈ l, A'.get p.2 = A.get p.2) : A'.vals l = A.vals l := by
  unfold AMem.vals
  exact List.map_congr_left fun p hp => by rw [h p hp]

section
variable {sch : Schema} {s : SDLContext} {name : Bytes} {exts : List TypeDef} {rest : List (Bytes × List TypeDef)}

theorem mergeTypeExts_none (h : (if s.isExtending then sch.types.lookup name else none) = none) (h' : s.types.lookup name = none) :
    mergeTypeExts ((name, exts) :: rest) (sch, s) = (sch, s) := by
  unfold mergeTypeExts
  rw [h, h']

theorem mergeTypeExts_base {t : TypeDef} (h : (if s.isExtending then sch.types.lookup name else none) = some t) :
    mergeTypeExts ((name, exts) :: rest) (sch, s) = mergeTypeExts rest ({ sch with types := mapSet sch.types name (exts.foldl mergeTypeExt t) }, s) := by
  conv => lhs; unfold mergeTypeExts
  rw [h]

theorem mergeTypeExts_new {t : TypeDef} (h : (if s.isExtending then sch.types.lookup name else none) = none) (h' : s.types.lookup name = some t) :
    mergeTypeExts ((name, exts) :: rest) (sch, s) = mergeTypeExts rest (sch, { s with types := mapSet s.types name (exts.foldl mergeTypeExt t) }) := by
  conv => lhs; unfold mergeTypeExts
  rw [h, h']

end

theorem mergeTarget_none {p : PSchema} {q : PSDL} {name : Bytes} (h : mergeTarget p q name = none) :
    (if q.isExtending then p.types.lookup name else none) = none ∧ q.types.lookup name = none := by
  unfold mergeTarget at h
  split at h
  · cases h
  · rename_i h'
    exact ⟨h', h⟩

theorem mergeTarget_some {p : PSchema} {q : PSDL} {name : Bytes} {t : Nat} (h : mergeTarget p q name = some t) :
    (if q.isExtending then p.types.lookup name else none) = some t ∨
    (if q.isExtending then p.types.lookup name else none) = none ∧ q.types.lookup name = some t := by
  unfold mergeTarget at h
  split at h
  · rename_i h'
    exact .inl (h'.trans h)
  · rename_i h'
    exact .inr ⟨h', h⟩

theorem of_extending {α : Type} {b : Bool} {o : Option α} {t : α} (h : (if b then o else none) = some t) : b = true ∧ o = some t := by
  cases b with
  | false => cases h
  | true => exact ⟨rfl, h⟩

theorem lookup_base {A : AMem} {p : PSchema} {q : PSDL} {sch : Schema} {s : SDLContext} (name : Bytes) (h1 : sch.types = A.vals p.types)
    (h3 : s.isExtending = q.isExtending) :
    (if s.isExtending then sch.types.lookup name else none) = (if q.isExtending then p.types.lookup name else none).map A.get := by
  rw [h1, h3, lookup_vals]
  cases q.isExtending <;> rfl

/-- The loops of `mergeTypeExtensions`: `p` and `q` are the schema and the SDL context with pointers, `sch` and `s` with values. -/
theorem mergeTypeExts_is (p : PSchema) (q : PSDL) : ∀ (l : List (Bytes × List Nat)) {m : PMem} {A : AMem} {sch : Schema} {s : SDLContext}, Is m A →
    (∀ x ∈ p.types, A.Live x.2) → (∀ x ∈ q.types, A.Live x.2) → (p.types.map (·.2) ++ q.types.map (·.2)).Nodup →
    (∀ x ∈ l, ∀ e ∈ x.2, A.Live e) → (l.flatMap (·.2)).Nodup → (∀ x ∈ l, ∀ e ∈ x.2, e ∉ p.types.map (·.2) ++ q.types.map (·.2)) →
    sch.types = A.vals p.types → s.types = A.vals q.types → s.isExtending = q.isExtending →
    ∃ m' A' T T', PMem.mergeTypeExts p q l m = .ret m' ∧ Is m' A' ∧ A'.heads = A.heads ∧ A'.sdefs = A.sdefs ∧
      (∀ x ∈ p.types, A'.Live x.2) ∧ (∀ x ∈ q.types, A'.Live x.2) ∧
      mergeTypeExts (A.lists l) (sch, s) = ({ sch with types := T }, { s with types := T' }) ∧ T = A'.vals p.types ∧ T' = A'.vals q.types ∧
      Grow A A' (fun a => a ∈ l.flatMap (·.2) ∨ (a ∈ p.types.map (·.2) ++ q.types.map (·.2) ∧ ¬ Inert (A.get a))) nowhere
  | [], m, A, sch, s, h, hp, hq, _, _, _, _, h1, h2, _ => by
    refine ⟨m, A, sch.types, s.types, rfl, h, rfl, rfl, hp, hq, ?_, h1, h2, .refl _ _ _⟩
    rfl
  | (name, exts) :: l, m, A, sch, s, h, hp, hq, hpq, hl, hn, hd, h1, h2, h3 => by
    rw [List.flatMap_cons, List.nodup_append] at hn
    cases ht : mergeTarget p q name with
    | none =>
      refine ⟨m, A, sch.types, s.types, ?_, h, rfl, rfl, hp, hq, ?_, h1, h2, .refl _ _ _⟩
      · unfold PMem.mergeTypeExts
        rw [ht]
      · obtain ⟨ht1, ht2⟩ := mergeTarget_none ht
        exact mergeTypeExts_none ((lookup_base name h1 h3).trans (by rw [ht1]; rfl)) (by rw [h2, lookup_vals, ht2]; rfl)
    | some t =>
      have htm : t ∈ p.types.map (·.2) ++ q.types.map (·.2) := by
        rw [List.mem_append]
        rcases mergeTarget_some ht with h' | ⟨-, h'⟩
        · exact .inl (List.mem_map.2 ⟨_, lookup_mem (of_extending h').2, rfl⟩)
        · exact .inr (List.mem_map.2 ⟨_, lookup_mem h', rfl⟩)
      have hlt : A.Live t := by
        rw [List.mem_append, List.mem_map, List.mem_map] at htm
        rcases htm with ⟨x, hx, rfl⟩ | ⟨x, hx, rfl⟩
        · exact hp x hx
        · exact hq x hx
      obtain ⟨m1, A1, e1, i1, k1, k2, g1, l1, v1⟩ := mergeInto_is t exts h hlt (hl (name, exts) (by simp))
        (fun he => hd (name, exts) (by simp) t he htm) hn.1
      have other : ∀ a, A.Live a → a ∉ exts → a ≠ t → A1.Live a ∧ A1.get a = A.get a := fun a ha h1 h2 => g1.types a ha (by simp [h1, h2])
      have live : ∀ a, A.Live a → a ∉ exts → A1.Live a := fun a ha h1 => by
        by_cases e : a = t
        · exact e ▸ l1
        · exact (other a ha h1 e).1
      have hpl : ∀ x ∈ p.types, A1.Live x.2 := fun x hx => live _ (hp x hx) fun he =>
        hd (name, exts) (by simp) x.2 he (List.mem_append.2 (.inl (List.mem_map.2 ⟨x, hx, rfl⟩)))
      have hql : ∀ x ∈ q.types, A1.Live x.2 := fun x hx => live _ (hq x hx) fun he =>
        hd (name, exts) (by simp) x.2 he (List.mem_append.2 (.inr (List.mem_map.2 ⟨x, hx, rfl⟩)))
      have hpk : ∀ x ∈ p.types, x.2 ≠ t → A1.get x.2 = A.get x.2 := fun x hx e => (other _ (hp x hx) (fun he =>
        hd (name, exts) (by simp) x.2 he (List.mem_append.2 (.inl (List.mem_map.2 ⟨x, hx, rfl⟩)))) e).2
      have hqk : ∀ x ∈ q.types, x.2 ≠ t → A1.get x.2 = A.get x.2 := fun x hx e => (other _ (hq x hx) (fun he =>
        hd (name, exts) (by simp) x.2 he (List.mem_append.2 (.inr (List.mem_map.2 ⟨x, hx, rfl⟩)))) e).2
      have hlk : ∀ x ∈ l, ∀ e ∈ x.2, A1.Live e ∧ A1.get e = A.get e := fun x hx e he => other e (hl x (by simp [hx]) e he)
        (fun h' => hn.2.2 e h' e (List.mem_flatMap.2 ⟨x, hx, he⟩) rfl) fun h' => hd x (by simp [hx]) e he (h' ▸ htm)
      have hlists : A1.lists l = A.lists l := by
        unfold AMem.lists
        refine List.map_congr_left fun x hx => ?_
        rw [List.map_congr_left fun e he => (hlk x hx e he).2]
      have hpq' := List.nodup_append.1 hpq
      -- the values after this step
      obtain ⟨sch1, s1, hstep, hsch1, hs1, hext1, b1, b2⟩ : ∃ sch1 s1,
          mergeTypeExts (A.lists ((name, exts) :: l)) (sch, s) = mergeTypeExts (A1.lists l) (sch1, s1) ∧
          sch1.types = A1.vals p.types ∧ s1.types = A1.vals q.types ∧ s1.isExtending = q.isExtending ∧ (∀ T, { sch1 with types := T } = { sch with types := T }) ∧
          (∀ T, { s1 with types := T } = { s with types := T }) := by
        rw [hlists]
        rcases mergeTarget_some ht with h' | ⟨h', h''⟩
        · have hy := (of_extending h').2
          refine ⟨_, _, mergeTypeExts_base ((lookup_base name h1 h3).trans (by rw [h']; rfl)), ?_, ?_, h3, fun _ => rfl, fun _ => rfl⟩
          · show mapSet sch.types name _ = _
            rw [vals_update (A' := A1) hpq'.1 hy hpk, v1, h1]
          · rw [h2]
            refine (vals_congr fun x hx => hqk x hx fun e => ?_).symm
            exact hpq'.2.2 _ (List.mem_map.2 ⟨_, lookup_mem hy, rfl⟩) _ (List.mem_map.2 ⟨x, hx, rfl⟩) e.symm
        · refine ⟨_, _, mergeTypeExts_new ((lookup_base name h1 h3).trans (by rw [h']; rfl)) (by rw [h2, lookup_vals, h'']; rfl), ?_, ?_, h3,
            fun _ => rfl, fun _ => rfl⟩
          · rw [h1]
            refine (vals_congr fun x hx => hpk x hx fun e => ?_).symm
            exact hpq'.2.2 _ (List.mem_map.2 ⟨x, hx, rfl⟩) _ (List.mem_map.2 ⟨_, lookup_mem h'', rfl⟩) e
          · show mapSet s.types name _ = _
            rw [vals_update (A' := A1) hpq'.2.1 h'' hqk, v1, h2]
      obtain ⟨m2, A2, T, T', e2, i2, c1, c2, c3, c4, c5, c6, c7, g2⟩ := mergeTypeExts_is p q l i1 hpl hql hpq (fun x hx e he => (hlk x hx e he).1) hn.2.1
        (fun x hx => hd x (by simp [hx])) hsch1 hs1 hext1
      refine ⟨m2, A2, T, T', ?_, i2, c1.trans k1, c2.trans k2, c3, c4, ?_, c6, c7, ?_⟩
      · unfold PMem.mergeTypeExts
        rw [ht]
        dsimp only
        rw [e1]
        exact e2
      · rw [hstep, c5, b1, b2]
      · have gi : Inert (A.get t) → A1.get t = A.get t := fun hi => by rw [v1, hi.mergeAll]
        refine ⟨Nat.le_trans g1.heads g2.heads, Nat.le_trans g1.sdefs g2.sdefs, fun a ha hT => ?_, fun b hb hU => ?_⟩
        · rw [List.flatMap_cons] at hT
          have hne : a ∉ exts := fun h => hT (.inl (List.mem_append.2 (.inl h)))
          have hA : A1.Live a ∧ A1.get a = A.get a := by
            by_cases e : a = t
            · subst e
              refine ⟨l1, gi (Classical.byContradiction fun hi => hT (.inr ⟨htm, hi⟩))⟩
            · exact other a ha hne e
          obtain ⟨z1, z2⟩ := g2.types a hA.1 (by
            rw [hA.2]
            rintro (h' | h')
            · exact hT (.inl (List.mem_append.2 (.inr h')))
            · exact hT (.inr h'))
          exact ⟨z1, z2.trans hA.2⟩
        · obtain ⟨z1, z2⟩ := g1.schemas b hb hU
          obtain ⟨z3, z4⟩ := g2.schemas b z1 hU
          exact ⟨z3, z4.trans z2⟩

/-- The loop of `mergeSchemaExtensions`. -/
theorem mergeSchemaExts_is (b : Nat) : ∀ (es : List Nat) {m : PMem} {A : AMem}, Is m A → A.SLive b → (∀ e ∈ es, A.SLive e) → b ∉ es → es.Nodup →
    ∃ m' A', m.mergeSchemaExts b es = .ret m' ∧ Is m' A' ∧ A'.heads = A.heads ∧ A'.sdefs = A.sdefs ∧ Grow A A' nowhere (fun a => a = b ∨ a ∈ es) ∧ A'.SLive b ∧
      A'.sget b = mergeSchemaExts (A.sget b) (es.map A.sget)
  | [], m, A, h, hb, _, _, _ => ⟨m, A, rfl, h, rfl, rfl, .refl _ _ _, hb, rfl⟩
  | e :: es, m, A, h, hb, he, hbe, hn => by
    rw [List.nodup_cons] at hn
    have hne : b ≠ e := fun e' => hbe (by simp [e'])
    have hle := he e (by simp)
    obtain ⟨d, e1, r1⟩ := h.dirs.joinVars hb.dirs hle.dirs (by omega)
    obtain ⟨o, e2, r2⟩ := h.ops.joinVars hb.ops hle.ops hne
    let A1 : AMem := { A with dirs := joinVars A.dirs (2 * b + 1) (2 * e + 1), ops := joinVars A.ops b e }
    have i1 : Is { m with dirs := d, ops := o } A1 := ⟨h.heads, h.sdefs, r1, h.fields, h.tys, h.values, h.inputs, r2⟩
    have hd1 : A1.dirs (2 * b + 1) = _ := joinVars_at A.dirs (x := 2 * b + 1) (y := 2 * e + 1) (by omega)
    have ho1 : A1.ops b = _ := joinVars_at A.ops hne
    have l1 : A1.SLive b := ⟨hb.lt, ⟨_, hd1⟩, ⟨_, ho1⟩⟩
    have v1 : A1.sget b = { dirs := joined (A.sget b).dirs (A.sget e).dirs, ops := joined (A.sget b).ops (A.sget e).ops } := by
      show SchemaDef.mk _ _ = _
      rw [hd1, ho1]
      rfl
    have g1 : Grow A A1 nowhere (fun a => a = b ∨ a = e) := by
      refine ⟨Nat.le_refl _, Nat.le_refl _, fun a ha _ => ?_, fun c hc hU => ?_⟩
      · have hd : A1.dirs (2 * a) = A.dirs (2 * a) := joinVars_other _ (by omega) (by omega)
        refine ⟨⟨ha.head, ha.ifaces, hd ▸ ha.dirs, ha.fields, ha.members, ha.values, ha.inputs⟩, ?_⟩
        unfold AMem.get
        rw [hd]
        rfl
      · have hcb : c ≠ b := fun h => hU (.inl h)
        have hce : c ≠ e := fun h => hU (.inr h)
        have hd : A1.dirs (2 * c + 1) = A.dirs (2 * c + 1) := joinVars_other _ (by omega) (by omega)
        have ho : A1.ops c = A.ops c := joinVars_other _ hcb hce
        refine ⟨⟨hc.lt, hd ▸ hc.dirs, ho ▸ hc.ops⟩, ?_⟩
        unfold AMem.sget
        rw [hd, ho]
    have hkeep : ∀ x ∈ es, A1.SLive x ∧ A1.sget x = A.sget x := fun x hx => g1.schemas x (he x (by simp [hx])) (by
        rintro (rfl | rfl)
        · exact hbe (by simp [hx])
        · exact hn.1 hx)
    obtain ⟨m2, A2, e3, h2, a2, s2, g2, l2, v2⟩ := mergeSchemaExts_is b es i1 l1 (fun x hx => (hkeep x hx).1) (fun hx => hbe (by simp [hx])) hn.2
    refine ⟨m2, A2, ?_, h2, a2, s2, ?_, l2, ?_⟩
    · unfold PMem.mergeSchemaExts
      rw [e1, Out.bind_ret, e2]
      exact e3
    · refine (g1.mono (fun _ h => h) ?_).trans (g2.mono (fun _ h => h) ?_)
      · rintro a (rfl | rfl) <;> simp
      · rintro a (rfl | h) <;> simp [*]
    · rw [v2, v1, List.map_cons, List.map_congr_left fun x hx => (hkeep x hx).2]
      rfl

end GQL
