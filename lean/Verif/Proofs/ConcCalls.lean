/-
What the calls of Model/Conc do with the part of the memory that they own.
-/
import Verif.Proofs.ConcBuild
import Verif.Proofs.HeapCalls

namespace GQL.Conc

/-! ### Programs that only read -/

section
variable {α β : Type}

def ReadOnly : Prog α → Prop
  | .done _ => True
  | .read _ k => ∀ c, ReadOnly (k c)
  | .write _ _ _ => False
  | .alloc _ _ => False

theorem ReadOnly.bind {f : α → Prog β} (hf : ∀ v, ReadOnly (f v)) : ∀ {p : Prog α}, ReadOnly p → ReadOnly (p >>= f)
  | .done (.ret v), _ => hf v
  | .done .panic, _ => trivial
  | .done .oof, _ => trivial
  | .read a k, h => fun c => ReadOnly.bind hf (h c)
  | .write _ _ _, h => h.elim
  | .alloc _ _, h => h.elim

theorem ReadOnly.pure (v : α) : ReadOnly (Pure.pure v : Prog α) := trivial

theorem ReadOnly.wp {G h R k : Memory} (s : Sub G R) (t : Sub h R) {Q : Out α → Memory → Prop} :
    ∀ {p : Prog α}, ReadOnly p → WP G p Q h → WP R p (fun o _ => Q o h) k
  | .done _, _, x => x
  | .read a _, hp, ⟨c, x, y⟩ => ⟨c, .inr (x.elim (t a c) (s a c)), ReadOnly.wp s t (hp c) y⟩
  | .write _ _ _, hp, _ => hp.elim
  | .alloc _ _, hp, _ => hp.elim

end

section
variable {α : Type} [IsItem α]

theorem readNode_ro (a : Nat) : ReadOnly (readNode (α := α) a) := by
  intro c
  cases c with
  | node x q pos =>
    dsimp only
    cases IsItem.proj (α := α) x <;> trivial
  | _ => trivial

theorem len_ro : ∀ p : Ptr, ReadOnly (len α p)
  | none => trivial
  | some a => ReadOnly.bind (fun _ => ReadOnly.pure _) (readNode_ro a)

theorem itemsLoop_ro : ∀ (f : Nat) (p : Ptr), ReadOnly (itemsLoop α f p)
  | 0, none => trivial
  | _ + 1, none => trivial
  | 0, some _ => trivial
  | f + 1, some a => by
    refine ReadOnly.bind (fun n => ?_) (readNode_ro a)
    exact ReadOnly.bind (fun _ => ReadOnly.pure _) (itemsLoop_ro f n.2.1)

theorem items_ro (p : Ptr) : ReadOnly (items α p) := ReadOnly.bind (fun _ => itemsLoop_ro _ _) (len_ro p)

end

theorem readTypeCell_ro (a : Nat) : ReadOnly (readTypeCell a) := by
  intro c
  cases c <;> trivial

theorem readSchemaDefCell_ro (a : Nat) : ReadOnly (readSchemaDefCell a) := by
  intro c
  cases c <;> trivial

theorem readSchemaCell_ro (a : Nat) : ReadOnly (readSchemaCell a) := by
  intro c
  cases c <;> trivial

theorem readDirMap_ro : ∀ p : Ptr, ReadOnly (readDirMap p)
  | none => trivial
  | some a => fun c => by cases c <;> trivial

theorem readTypeMap_ro : ∀ p : Ptr, ReadOnly (readTypeMap p)
  | none => trivial
  | some a => fun c => by cases c <;> trivial

theorem readType_ro (a : Nat) : ReadOnly (readType a) :=
  ReadOnly.bind (fun _ => ReadOnly.bind (fun _ => ReadOnly.bind (fun _ => ReadOnly.bind (fun _ => ReadOnly.bind (fun _ => ReadOnly.bind (fun _ =>
    ReadOnly.bind (fun _ => ReadOnly.pure _) (items_ro _)) (items_ro _)) (items_ro _)) (items_ro _)) (items_ro _)) (items_ro _)) (readTypeCell_ro a)

theorem readTypes_ro : ∀ m : GMap Nat, ReadOnly (readTypes m)
  | [] => trivial
  | (_, a) :: l => ReadOnly.bind (fun _ => ReadOnly.bind (fun _ => ReadOnly.pure _) (readTypes_ro l)) (readType_ro a)

theorem readDefinition_ro : ∀ p : Ptr, ReadOnly (readDefinition p)
  | none => trivial
  | some b => ReadOnly.bind (fun _ => ReadOnly.bind (fun _ => ReadOnly.bind (fun _ => ReadOnly.pure _) (items_ro _)) (items_ro _)) (readSchemaDefCell_ro b)

theorem readSchema_ro (a : Nat) : ReadOnly (readSchema a) :=
  ReadOnly.bind (fun _ => ReadOnly.bind (fun _ => ReadOnly.bind (fun _ => ReadOnly.bind (fun _ => ReadOnly.bind (fun _ => ReadOnly.pure _) (readTypes_ro _))
    (readTypeMap_ro _)) (readDirMap_ro _)) (readDefinition_ro _)) (readSchemaCell_ro a)

theorem readBase_ro : ∀ p : Ptr, ReadOnly (readBase p)
  | none => trivial
  | some a => ReadOnly.bind (fun _ => ReadOnly.pure _) (readSchema_ro a)

/-! ### The schema that a call is given -/

def RBase (r : Memory) : Ptr → Option Schema → HP
  | none, none => .emp
  | some a, some v => RSchema r a v
  | _, _ => ⌜False⌝

section
variable {r : Memory}

theorem readBase_ok : ∀ {p : Ptr} {v : Option Schema}, Tri r (RBase r p v) (readBase p) (rets fun w => ⌜w = v⌝ ⋆ RBase r p v)
  | none, none => Tri.ret (intro_pure rfl (.refl _))
  | some _, none => Tri.false (.refl _)
  | none, some _ => Tri.false (.refl _)
  | some a, some v => by
    refine Tri.bind readSchema_ok fun w => ?_
    exact Tri.pure fun e => Tri.ret (intro_pure (congrArg some e) (.refl _))

theorem parseDoc_ok {pf : Bytes → Option Nat} {input : Bytes} {p : Ptr} {v : Option Schema} :
    Tri r (RBase r p v) (parseDoc pf input p) (fun o => ⌜o = GQL.parseDoc pf input v⌝) := by
  unfold parseDoc
  refine Tri.bind readBase_ok fun w => Tri.pure fun e => Tri.done ?_
  rw [e]
  exact fun _ _ => rfl

/-- The schema after `ParseSDLDoc`: the one that was given, or the one that is returned. -/
def RAfter (r : Memory) (base : Ptr) (a : Ptr) (res : SDLResult) : HP :=
  match base with
  | some b => ⌜a = res.schema.map fun _ => b⌝ ⋆ RBase r (some b) res.after
  | none => RBase r a res.schema

/-- The result of `ParseSDLDoc` in memory is the result on values. -/
inductive SameResult (r : Memory) (base : Ptr) (h : Memory) : Out PResult → Out SDLResult → Prop where
  | panic : SameResult r base h .panic .panic
  | oof : SameResult r base h .oof .oof
  | ret {a : Ptr} {errors : Option (List GErr)} {err : Option PErr} {s v : Option Schema} (hs : (RAfter r base a ⟨s, errors, err, v⟩).holds h) :
      SameResult r base h (.ret ⟨a, errors, err⟩) (.ret ⟨s, errors, err, v⟩)

theorem SameResult.up {base : Ptr} {h k : Memory} {x : Out PResult} {y : Out SDLResult} (s : Sub h k) (hx : SameResult r base h x y) :
    SameResult r base k x y := by
  cases hx with
  | panic => exact .panic
  | oof => exact .oof
  | ret hs => exact .ret (HP.up _ s hs)

/-- What holds when `ParseSDLDoc` is done. -/
def SDLPost (r : Memory) (pf : Bytes → Option Nat) (fuel : Nat) (ord : POrders) (input : Bytes) (base : Ptr) (v : Option Schema) (o : Out PResult) : HP where
  holds h := ∃ ord' : Orders, (ord'.run = ord.run ∧ ord'.build.dirs = ord.dirs) ∧ SameResult r base h o (GQL.parseSDLDoc pf fuel ord' input v)
  up s := fun ⟨ord', e, h⟩ => ⟨ord', e, h.up s⟩

theorem target_ok {base : Ptr} {v : Option Schema} : Tri r (RBase r base v) (target base) (rets fun a => ⌜∀ b, base = some b → a = b⌝ ⋆ RSchema r a (v.getD {})) := by
  cases base with
  | none =>
    cases v with
    | some v => exact Tri.false (.refl _)
    | none =>
      refine Tri.eq (P' := HP.emp) rfl ?_
      refine Tri.alloc fun a => Tri.ret (intro_pure (by intro b h; cases h) ?_)
      rw [star_emp]
      refine intro_ex {} (intro_pure ⟨rfl, rfl, rfl⟩ ?_)
      intro m hm
      exact ⟨m, none', none_apart _, .refl _, none_sub _, hm, none', none', none_apart _, .refl _, .refl _, trivial, none', none', none_apart _, .refl _, .refl _,
        rfl, rfl⟩
  | some a =>
    cases v with
    | none => exact Tri.false (.refl _)
    | some v => exact Tri.ret (intro_pure (fun b h => Option.some.inj h) (.refl _))

theorem parseSDLDoc_ok (hr : HasGlobals r) {pf : Bytes → Option Nat} {fuel : Nat} {ord : POrders} {input : Bytes} {base : Ptr} {v : Option Schema} :
    Tri r (RBase r base v) (parseSDLDoc pf fuel ord input base) (SDLPost r pf fuel ord input base v) := by
  by_cases hbv : ∃ d, base = some d ∧ v = none
  · obtain ⟨d, rfl, rfl⟩ := hbv
    exact Tri.false (.refl _)
  let od : Orders := ⟨⟨.id, ord.dirs, .id⟩, ord.run⟩
  have hod : od.run = ord.run ∧ od.build.dirs = ord.dirs := ⟨rfl, rfl⟩
  have same : ∀ (errors : Option (List GErr)) (err : Option PErr) (m : Memory), (RBase r base v).holds m →
      SameResult r base m (.ret ⟨none, errors, err⟩) (.ret ⟨none, errors, err, v⟩) := by
    intro errors err m hm
    refine .ret ?_
    cases base with
    | none => trivial
    | some b => exact (pure_star _ _ _).2 ⟨rfl, hm⟩
  unfold parseSDLDoc
  refine Tri.bind readBase_ok fun w => Tri.pure fun e => ?_
  subst e
  cases hparse : parse pf input with
  | panic =>
    refine Tri.done fun m hm => ⟨od, hod, ?_⟩
    unfold GQL.parseSDLDoc
    rw [hparse]
    exact .panic
  | oof =>
    refine Tri.done fun m hm => ⟨od, hod, ?_⟩
    unfold GQL.parseSDLDoc
    rw [hparse]
    exact .oof
  | err e =>
    refine Tri.ret fun m hm => ⟨od, hod, ?_⟩
    rw [sdlDoc_parse_error hparse]
    exact same _ _ m hm
  | ok doc =>
    obtain ⟨c, v1, -, v3⟩ := validateSDL_all doc w
    dsimp only
    rw [v1]
    show Tri r _ (if c.errors.length > 0 then _ else _) _
    by_cases he : c.errors.length > 0
    · rw [if_pos he]
      refine Tri.ret fun m hm => ⟨od, hod, ?_⟩
      have : GQL.parseSDLDoc pf fuel od input w = .ret { schema := none, errors := some c.errors, err := none, after := w } := by
        unfold GQL.parseSDLDoc
        rw [hparse]
        dsimp only
        rw [v1, Out.bind_ret, if_pos he]
      rw [this]
      exact same _ _ m hm
    · rw [if_neg he]
      have hsch : c.schema = w.getD {} := (congrArg Ctx.schema v3).trans (sdlCtx_schema doc _)
      obtain ⟨s, hs⟩ : ∃ s, c.sdl = some s := by
        have hsdl : c.sdl.map SDLContext.noFlags = some (sdlOf doc w).noFlags := congrArg Ctx.sdl v3
        cases hc : c.sdl with
        | none => rw [hc] at hsdl; cases hsdl
        | some s => exact ⟨s, rfl⟩
      rw [hs]
      dsimp only
      refine Tri.eq (emp_star _).symm (Tri.call (newSDL_ok s) fun q => ?_)
      rw [star_comm]
      refine Tri.call target_ok fun a => ?_
      rw [star_assoc]
      refine Tri.pure fun ha => ?_
      refine Tri.bind (buildSchema_ok hr) fun _ => ?_
      refine Tri.exists fun ob => Tri.pure fun hob => ?_
      refine Tri.bind readSchema_ok fun b => Tri.pure fun hb => ?_
      subst hb
      have hlate := parseSDLDoc_late (fuel := fuel) (ord := ⟨ob, ord.run⟩) hparse v1 he hs (b := buildSchemaOf ob (w.getD {}) s) (by rw [hsch])
      rw [hs] at hlate
      generalize buildSchemaOf ob (w.getD {}) s = b at hlate ⊢
      unfold lastStep at hlate
      cases hval : validateSchema fuel ord.run { c with schema := b, sdl := some s } b with
      | panic =>
        rw [hval] at hlate
        exact Tri.done fun m _ => ⟨⟨ob, ord.run⟩, ⟨rfl, hob⟩, by rw [hlate]; exact .panic⟩
      | oof =>
        rw [hval] at hlate
        exact Tri.done fun m _ => ⟨⟨ob, ord.run⟩, ⟨rfl, hob⟩, by rw [hlate]; exact .oof⟩
      | ret c' =>
        rw [hval] at hlate
        have hc' : c'.schema = b := validateSchema_keeps hval
        show Tri r _ (if c'.errors.length > 0 then _ else _) _
        simp only [Out.bind_ret] at hlate
        by_cases he' : c'.errors.length > 0
        · rw [if_pos he'] at hlate
          rw [if_pos he']
          refine Tri.ret fun m hm => ⟨⟨ob, ord.run⟩, ⟨rfl, hob⟩, ?_⟩
          rw [hlate]
          refine .ret ?_
          cases base with
          | none => trivial
          | some d =>
            cases ha d rfl
            refine (pure_star _ _ _).2 ⟨rfl, ?_⟩
            cases w with
            | none => exact absurd ⟨a, rfl, rfl⟩ hbv
            | some w => exact hm
        · rw [if_neg he'] at hlate
          rw [if_neg he']
          refine Tri.ret fun m hm => ⟨⟨ob, ord.run⟩, ⟨rfl, hob⟩, ?_⟩
          rw [hlate]
          refine .ret ?_
          cases base with
          | none => rw [hc']; exact hm
          | some d =>
            cases ha d rfl
            refine (pure_star _ _ _).2 ⟨rfl, ?_⟩
            cases w with
            | none => exact absurd ⟨a, rfl, rfl⟩ hbv
            | some w => exact hm

end

end GQL.Conc
