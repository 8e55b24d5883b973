/-
Histories of `ParseSDLDoc` calls on the memory.
-/
import Verif.Proofs.HeapState
import Verif.Spec.Store

namespace GQL

/-- The state is in order: everything that schemas point to is there, and two schemas share at most the two global variables. -/
structure Good (st : PState) (A : AMem) : Prop where
  mem : Is st.mem A
  globals : A.Globals
  has : ∀ p ∈ st.schemas, A.Has p
  once : ∀ p ∈ st.schemas, (p.types.map (·.2)).Nodup
  apart : ∀ (i j : Nat) (p q : PSchema), st.schemas[i]? = some p → st.schemas[j]? = some q → i ≠ j → ∀ a ∈ p.types.map (·.2), a ∈ q.types.map (·.2) → a < 2

/-- The values of the schemas. -/
def AMem.store (A : AMem) (st : PState) : List Schema := st.schemas.map A.schema

theorem Good.init : ∃ A, Good PState.init A := by
  refine ⟨⟨PMem.init.heads, 0, fun _ => some [], fun _ => some [], fun _ => some [], fun _ => some [], fun _ => some [], fun _ => some []⟩, ?_⟩
  refine ⟨⟨rfl, rfl, .empty, .empty, .empty, .empty, .empty, .empty⟩, ⟨⟨⟨?_, ⟨_, rfl⟩, ⟨_, rfl⟩, ⟨_, rfl⟩, ⟨_, rfl⟩, ⟨_, rfl⟩, ⟨_, rfl⟩⟩, rfl⟩,
    ⟨⟨?_, ⟨_, rfl⟩, ⟨_, rfl⟩, ⟨_, rfl⟩, ⟨_, rfl⟩, ⟨_, rfl⟩, ⟨_, rfl⟩⟩, rfl⟩⟩, ?_, ?_, ?_⟩
  · exact Nat.zero_lt_succ _
  · exact Nat.lt_succ_self _
  · intro p hp; cases hp
  · intro p hp; cases hp
  · intro i j p q hi; simp [PState.init] at hi

theorem validateSchema_keeps {fuel : Nat} {run : RunOrders} {c c' : Ctx} {s : Schema} (h : validateSchema fuel run c s = .ret c') : c'.schema = c.schema := by
  obtain ⟨X, hX, _⟩ := validateDirectives_eq run.dirs s
  have h' := Adds.fold (f := typeStep fuel run s) (run.types.arrange s.types) (fun p _ => type_adds run s fuel p)
    (validateDirectives run.dirs (validateRootTypes c s) s)
  rw [show validateSchema fuel run c s = _ from h'] at h
  cases ho : outAll (typeOut run s fuel) (run.types.arrange s.types) with
  | panic => rw [ho] at h; cases h
  | oof => rw [ho] at h; cases h
  | ret es =>
    rw [ho] at h
    have := Out.ret.inj h
    rw [← this, hX, validateRootTypes_eq]
    simp [Ctx.addErrors_eq]

section
variable {st : PState} {A A' : AMem} {m : PMem} {p p' r : PSchema}

/-- A schema that shares at most the globals with `p` does not notice that `p` is extended. -/
theorem keep_schema (hr : A.Has r) (hd : ∀ a ∈ r.types.map (·.2), a ∈ p.types.map (·.2) → a < 2)
    (g : Grow A A' (fun a => A.heads.length ≤ a ∨ (a ∈ p.types.map (·.2) ∧ 2 ≤ a)) (fun b => A.sdefs ≤ b)) : A'.Has r ∧ A'.schema r = A.schema r := by
  have ht : ∀ x ∈ r.types, A'.Live x.2 ∧ A'.get x.2 = A.get x.2 := by
    intro x hx
    refine g.types _ (hr.types x hx) ?_
    rintro (h | ⟨h1, h2⟩)
    · have := (hr.types x hx).head
      omega
    · have := hd x.2 (List.mem_map.2 ⟨x, hx, rfl⟩) h1
      omega
  have hs : ∀ b, r.definition = some b → A'.SLive b ∧ A'.sget b = A.sget b := by
    intro b hb
    refine g.schemas _ (hr.definition b hb) fun h => ?_
    have := (hr.definition b hb).lt
    omega
  refine ⟨⟨fun x hx => (ht x hx).1, fun b hb => (hs b hb).1⟩, ?_⟩
  unfold AMem.schema
  rw [vals_congr fun x hx => (ht x hx).2]
  congr 1
  cases hb : r.definition with
  | none => rfl
  | some b => rw [Option.map_some, Option.map_some, (hs b hb).2]

theorem Good.old (hG : Good st A) (hr : r ∈ st.schemas) {a : Nat} (ha : a ∈ r.types.map (·.2)) : a < A.heads.length := by
  obtain ⟨x, hx, rfl⟩ := List.mem_map.1 ha
  exact ((hG.has r hr).types x hx).head

/-- A new schema. -/
theorem Good.add (hG : Good st A) (hm : Is m A') (hg : A'.Globals)
    (g : Grow A A' (fun a => A.heads.length ≤ a ∨ (a ∈ ({} : PSchema).types.map (·.2) ∧ 2 ≤ a)) (fun b => A.sdefs ≤ b)) :
    Good ⟨m, st.schemas⟩ A' ∧ A'.store ⟨m, st.schemas⟩ = A.store st ∧
    (A'.Has p' → (p'.types.map (·.2)).Nodup → (∀ x ∈ p'.types, x.2 < 2 ∨ A.heads.length ≤ x.2) →
      Good ⟨m, st.schemas ++ [p']⟩ A' ∧ A'.store ⟨m, st.schemas ++ [p']⟩ = A.store st ++ [A'.schema p']) := by
  have hk : ∀ r ∈ st.schemas, A'.Has r ∧ A'.schema r = A.schema r := fun r hr => keep_schema (hG.has r hr) (by intro a _ h; cases h) g
  have hst : st.schemas.map A'.schema = st.schemas.map A.schema := List.map_congr_left fun r hr => (hk r hr).2
  refine ⟨⟨hm, hg, fun r hr => (hk r hr).1, hG.once, hG.apart⟩, hst, fun h1 h2 h3 => ⟨⟨hm, hg, ?_, ?_, ?_⟩, ?_⟩⟩
  · intro r hr
    rcases List.mem_append.1 hr with hr | hr
    · exact (hk r hr).1
    · rw [List.mem_singleton.1 hr]; exact h1
  · intro r hr
    rcases List.mem_append.1 hr with hr | hr
    · exact hG.once r hr
    · rw [List.mem_singleton.1 hr]; exact h2
  · have new : ∀ q ∈ st.schemas, ∀ a ∈ p'.types.map (·.2), a ∈ q.types.map (·.2) → a < 2 := by
      intro q hq a ha hqa
      obtain ⟨x, hx, rfl⟩ := List.mem_map.1 ha
      have := hG.old hq hqa
      rcases h3 x hx with h | h
      · exact h
      · omega
    intro i j q r hi hj hij a ha hb
    dsimp only at hi hj
    rw [List.getElem?_append] at hi hj
    split at hi
    · split at hj
      · exact hG.apart i j q r hi hj hij a ha hb
      · have := List.mem_of_getElem? hj
        rw [List.mem_singleton.1 this] at hb
        exact new q (List.mem_of_getElem? hi) a hb ha
    · have hq := List.mem_singleton.1 (List.mem_of_getElem? hi)
      subst hq
      split at hj
      · exact new r (List.mem_of_getElem? hj) a ha hb
      · have h5 := (List.getElem?_eq_some_iff.1 hi).1
        have h6 := (List.getElem?_eq_some_iff.1 hj).1
        simp only [List.length_singleton] at h5 h6
        omega
  · show (st.schemas ++ [p']).map A'.schema = _
    rw [List.map_append, hst]
    rfl

/-- Schema number `i` is changed. -/
theorem Good.change {i : Nat} (hG : Good st A) (hi : st.schemas[i]? = some p) (hm : Is m A') (hg : A'.Globals)
    (g : Grow A A' (fun a => A.heads.length ≤ a ∨ (a ∈ p.types.map (·.2) ∧ 2 ≤ a)) (fun b => A.sdefs ≤ b))
    (h1 : A'.Has p') (h2 : (p'.types.map (·.2)).Nodup) (h3 : ∀ x ∈ p'.types, x.2 < 2 ∨ A.heads.length ≤ x.2) :
    Good ⟨m, st.schemas.set i p'⟩ A' ∧ A'.store ⟨m, st.schemas.set i p'⟩ = (A.store st).set i (A'.schema p') := by
  have hk : ∀ j r, st.schemas[j]? = some r → i ≠ j → A'.Has r ∧ A'.schema r = A.schema r := fun j r hr hij =>
    keep_schema (hG.has r (List.mem_of_getElem? hr)) (fun a ha hb => hG.apart j i r p hr hi (fun e => hij e.symm) a ha hb) g
  have hlt := (List.getElem?_eq_some_iff.1 hi).1
  have hmem : ∀ r ∈ st.schemas.set i p', r = p' ∨ ∃ j, i ≠ j ∧ st.schemas[j]? = some r := by
    intro r hr
    obtain ⟨j, hj⟩ := List.getElem?_of_mem hr
    rw [List.getElem?_set] at hj
    split at hj
    · simp only [hlt, if_true, Option.some.injEq] at hj
      exact .inl hj.symm
    · rename_i hij
      exact .inr ⟨j, hij, hj⟩
  refine ⟨⟨hm, hg, ?_, ?_, ?_⟩, ?_⟩
  · intro r hr
    rcases hmem r hr with rfl | ⟨j, hij, hj⟩
    · exact h1
    · exact (hk j r hj hij).1
  · intro r hr
    rcases hmem r hr with rfl | ⟨j, hij, hj⟩
    · exact h2
    · exact hG.once r (List.mem_of_getElem? hj)
  · have new : ∀ q ∈ st.schemas, ∀ a ∈ p'.types.map (·.2), a ∈ q.types.map (·.2) → a < 2 := by
      intro q hq a ha hqa
      obtain ⟨x, hx, rfl⟩ := List.mem_map.1 ha
      have := hG.old hq hqa
      rcases h3 x hx with h | h
      · exact h
      · omega
    intro k j q r hk hj hkj a ha hb
    dsimp only at hk hj
    rw [List.getElem?_set] at hk hj
    split at hk
    · rename_i e
      simp only [e ▸ hlt, if_true, Option.some.injEq] at hk
      subst hk
      rw [if_neg (by rw [e]; exact hkj)] at hj
      exact new r (List.mem_of_getElem? hj) a ha hb
    · split at hj
      · rename_i e
        simp only [e ▸ hlt, if_true, Option.some.injEq] at hj
        subst hj
        exact new q (List.mem_of_getElem? hk) a hb ha
      · exact hG.apart k j q r hk hj hkj a ha hb
  · apply List.ext_getElem?
    intro j
    show ((st.schemas.set i p').map A'.schema)[j]? = ((st.schemas.map A.schema).set i (A'.schema p'))[j]?
    rw [List.getElem?_map, List.getElem?_set, List.getElem?_set, List.length_map, List.getElem?_map]
    split
    · rfl
    · rename_i hij
      cases hj : st.schemas[j]? with
      | none => rfl
      | some r => rw [Option.map_some, Option.map_some, (hk j r hj hij).2]

/-- `allocSDL` and `buildSchema` together. -/
theorem build_is (hG : Good st A) (hp : A.Has p) (hn : (p.types.map (·.2)).Nodup) (s : SDLContext) (ord : POrders) :
    ∃ (ord' : BuildOrders) (m1 m' : PMem) (q : PSDL) (A' : AMem) (p' : PSchema), ord'.dirs = ord.dirs ∧ st.mem.allocSDL s = .ret (m1, q) ∧
      m1.buildSchema ord p q = .ret (m', p') ∧ Is m' A' ∧ A'.Globals ∧ A'.Has p' ∧
      A'.schema p' = buildSchemaOf ord' (A.schema p) s ∧ (p'.types.map (·.2)).Nodup ∧ (∀ x ∈ p'.types, x.2 < 2 ∨ A.heads.length ≤ x.2) ∧
      Grow A A' (fun a => A.heads.length ≤ a ∨ (a ∈ p.types.map (·.2) ∧ 2 ≤ a)) (fun b => A.sdefs ≤ b) := by
  obtain ⟨m1, A1, q, e1, i1, g1, s1, n1⟩ := allocSDL_is hG.mem s
  have h2 : 2 ≤ A.heads.length := hG.globals.string.1.head
  have hk : A1.Has p ∧ A1.schema p = A.schema p := by
    have ht : ∀ x ∈ p.types, A1.Live x.2 ∧ A1.get x.2 = A.get x.2 := fun x hx => g1.types _ (hp.types x hx) id
    have hs : ∀ b, p.definition = some b → A1.SLive b ∧ A1.sget b = A.sget b := fun b hb => g1.schemas _ (hp.definition b hb) id
    refine ⟨⟨fun x hx => (ht x hx).1, fun b hb => (hs b hb).1⟩, ?_⟩
    unfold AMem.schema
    rw [vals_congr fun x hx => (ht x hx).2]
    congr 1
    cases hb : p.definition with
    | none => rfl
    | some b => rw [Option.map_some, Option.map_some, (hs b hb).2]
  obtain ⟨ord', m', A', p', d, e2, i2, k1, k2, k3, k4, g2⟩ := buildSchema_is i1 (hG.globals.grow g1 id id) hk.1 hn (fun x hx => (hp.types x hx).head) h2 s1 n1 ord
  have g : Grow A A' (fun a => A.heads.length ≤ a ∨ (a ∈ p.types.map (·.2) ∧ 2 ≤ a)) (fun b => A.sdefs ≤ b) :=
    (g1.mono (fun _ h => h.elim) fun _ h => h.elim).trans g2
  refine ⟨ord', m1, m', q, A', p', d, e1, e2, i2, hG.globals.grow g (by omega) (by omega), k1, k2.trans (by rw [hk.2]), k3, k4, g⟩

end

/-- What the program can have passed in. -/
inductive Passed (st : PState) : Option Nat → Option PSchema → Prop where
  | nil : Passed st none none
  | ptr {i : Nat} {p : PSchema} (h : st.schemas[i]? = some p) : Passed st (some i) (some p)

/-- `Spec.call`, with the schema looked up. -/
def Spec.callWith (store : List Schema) (base : Option Nat) (b : Option Schema) (r : SDLResult) : List Schema × PResult :=
  match base with
  | none => Spec.callNew store r
  | some i => Spec.callOn store i (b.getD {}) r

theorem Passed.call {st : PState} {base : Option Nat} {p : Option PSchema} (h : Passed st base p) (A : AMem) (pf : Bytes → Option Nat) (input : Bytes)
    (fuel : Nat) (ord : Orders) : Spec.call pf ⟨input, base, fuel, ord⟩ (A.store st) =
      (parseSDLDoc pf fuel ord input (p.map A.schema)).bind fun r => .ret (Spec.callWith (A.store st) base (p.map A.schema) r) := by
  cases h with
  | nil => rfl
  | @ptr i p h =>
    have : (A.store st)[i]? = some (A.schema p) := by
      unfold AMem.store
      rw [List.getElem?_map, h]
      rfl
    unfold Spec.call
    dsimp only
    rw [this]
    rfl

theorem Passed.read {st : PState} {A : AMem} (hG : Good st A) {base : Option Nat} {p : Option PSchema} (h : Passed st base p) :
    st.base base = .ret p ∧ st.mem.readBase p = .ret (p.map A.schema) ∧ A.Has (p.getD {}) ∧ ((p.getD {}).types.map (·.2)).Nodup := by
  cases h with
  | nil => exact ⟨rfl, rfl, ⟨(fun q hq => by cases hq), (fun b hb => by cases hb)⟩, List.nodup_nil⟩
  | @ptr i p h =>
    have hm := List.mem_of_getElem? h
    refine ⟨?_, ?_, hG.has p hm, hG.once p hm⟩
    · unfold PState.base
      dsimp only
      rw [h]
    · unfold PMem.readBase
      dsimp only
      rw [readSchema_is hG.mem (hG.has p hm)]
      rfl

/-- `ParseSDLDoc` on values, for a document that `ValidateSDL` accepts. -/
theorem parseSDLDoc_late {pf : Bytes → Option Nat} {fuel : Nat} {ord : Orders} {input : Bytes} {schema : Option Schema} {doc : Document} {c : Ctx}
    {s : SDLContext} {b : Schema} (hp : parse pf input = .ok doc) (hv : validateSDL doc schema (rulesWalker specifiedSDL) = .ret c)
    (he : ¬ c.errors.length > 0) (hs : c.sdl = some s) (hb : buildSchemaOf ord.build c.schema s = b) :
    parseSDLDoc pf fuel ord input schema = lastStep fuel ord.run { c with schema := b } b (schema.map fun _ => b) := by
  unfold parseSDLDoc
  rw [hp]
  dsimp only
  rw [hv, Out.bind_ret, if_neg he]
  unfold buildSchema
  rw [hs]
  dsimp only
  rw [Out.bind_ret, hb]
  unfold lastStep
  cases schema <;> rfl

/-- `PState.parseSDLDoc` and `Spec.call` do the same. -/
theorem call_is {st : PState} {A : AMem} (hG : Good st A) (pf : Bytes → Option Nat) (c : Spec.SDLCall POrders) :
    ∃ d, Spec.SameCall c d ∧
      ((∃ st' A' r, st.parseSDLDoc pf c.fuel c.ord c.input c.base = .ret (st', r) ∧ Good st' A' ∧ Spec.call pf d (A.store st) = .ret (A'.store st', r)) ∨
       (st.parseSDLDoc pf c.fuel c.ord c.input c.base = .panic ∧ Spec.call pf d (A.store st) = .panic) ∨
       (st.parseSDLDoc pf c.fuel c.ord c.input c.base = .oof ∧ Spec.call pf d (A.store st) = .oof)) := by
  obtain ⟨input, base, fuel, ord⟩ := c
  dsimp only
  -- some orders
  let od : Orders := ⟨⟨.id, ord.dirs, .id⟩, ord.run⟩
  have hod : Spec.SameCall ⟨input, base, fuel, ord⟩ ⟨input, base, fuel, od⟩ := ⟨rfl, rfl, rfl, rfl, rfl⟩
  by_cases hpass : ∃ p, Passed st base p
  case neg =>
    refine ⟨_, hod, .inr (.inl ?_)⟩
    cases base with
    | none => exact absurd ⟨none, .nil⟩ hpass
    | some i =>
      cases hi : st.schemas[i]? with
      | some p => exact absurd ⟨some p, .ptr hi⟩ hpass
      | none =>
        refine ⟨?_, ?_⟩
        · unfold PState.parseSDLDoc PState.base
          dsimp only
          rw [hi]
          rfl
        · have : (A.store st)[i]? = none := by
            unfold AMem.store
            rw [List.getElem?_map, hi]
            rfl
          unfold Spec.call
          dsimp only
          rw [this]
  case pos =>
    obtain ⟨p, hpass⟩ := hpass
    obtain ⟨r1, r2, r3, r4⟩ := hpass.read hG
    have same : ∀ r : PResult, r.schema = none → ∀ x : SDLResult, x.schema = none → x.after = p.map A.schema → x.errors = r.errors → x.err = r.err →
        Spec.callWith (A.store st) base (p.map A.schema) x = (A.store st, r) := by
      rintro ⟨_, re, rr⟩ rfl ⟨_, xe, xr, xa⟩ rfl rfl rfl rfl
      cases hpass with
      | nil => rfl
      | @ptr i q h =>
        show ((A.store st).set i (A.schema q), _) = _
        have : (A.store st)[i]? = some (A.schema q) := by
          unfold AMem.store
          rw [List.getElem?_map, h]
          rfl
        rw [show (A.store st).set i (A.schema q) = A.store st from by
          apply List.ext_getElem?
          intro j
          rw [List.getElem?_set]
          split
          · rename_i e
            subst e
            have hlt := (List.getElem?_eq_some_iff.1 this).1
            rw [if_pos hlt, this]
          · rfl]
        rfl
    unfold PState.parseSDLDoc
    rw [r1, Out.bind_ret, r2, Out.bind_ret]
    cases hparse : parse pf input with
    | panic =>
      refine ⟨_, hod, .inr (.inl ⟨rfl, ?_⟩)⟩
      rw [hpass.call]
      unfold parseSDLDoc
      rw [hparse]
      rfl
    | oof =>
      refine ⟨_, hod, .inr (.inr ⟨rfl, ?_⟩)⟩
      rw [hpass.call]
      unfold parseSDLDoc
      rw [hparse]
      rfl
    | err e =>
      refine ⟨_, hod, .inl ⟨st, A, ⟨none, none, some e⟩, rfl, hG, ?_⟩⟩
      rw [hpass.call, sdlDoc_parse_error hparse, Out.bind_ret]
      rw [same ⟨none, none, some e⟩ rfl _ rfl rfl rfl rfl]
    | ok doc =>
      obtain ⟨c, v1, -, v3⟩ := validateSDL_all doc (p.map A.schema)
      dsimp only
      rw [v1, Out.bind_ret]
      by_cases he : c.errors.length > 0
      · refine ⟨_, hod, .inl ⟨st, A, ⟨none, some c.errors, none⟩, if_pos he, hG, ?_⟩⟩
        rw [hpass.call]
        have : parseSDLDoc pf fuel od input (p.map A.schema) = .ret { schema := none, errors := some c.errors, err := none, after := p.map A.schema } := by
          unfold parseSDLDoc
          rw [hparse]
          dsimp only
          rw [v1, Out.bind_ret, if_pos he]
        rw [this, Out.bind_ret, same ⟨none, some c.errors, none⟩ rfl _ rfl rfl rfl rfl]
      · rw [if_neg he]
        have hsch : c.schema = A.schema (p.getD {}) := by
          have h1 : c.schema = (p.map A.schema).getD {} := (congrArg Ctx.schema v3).trans (sdlCtx_schema doc _)
          rw [h1]
          cases p <;> rfl
        obtain ⟨s, hs⟩ : ∃ s, c.sdl = some s := by
          have hsdl : c.sdl.map SDLContext.noFlags = some (sdlOf doc (p.map A.schema)).noFlags := congrArg Ctx.sdl v3
          cases hc : c.sdl with
          | none => rw [hc] at hsdl; cases hsdl
          | some s => exact ⟨s, rfl⟩
        rw [hs]
        dsimp only
        obtain ⟨ob, m1, m', q, A', p', b0, b1, b2, b3, b4, b5, b6, b7, b8, b9⟩ := build_is hG r3 r4 s ord
        rw [b1, Out.bind_ret, b2, Out.bind_ret, readSchema_is b3 b5, Out.bind_ret]
        have hlate := parseSDLDoc_late (fuel := fuel) (ord := ⟨ob, ord.run⟩) (b := A'.schema p') hparse v1 he hs (by rw [b6, hsch])
        rw [hs] at hlate
        have hsame : Spec.SameCall ⟨input, base, fuel, ord⟩ ⟨input, base, fuel, ⟨ob, ord.run⟩⟩ := ⟨rfl, rfl, rfl, rfl, b0⟩
        refine ⟨_, hsame, ?_⟩
        rw [hpass.call, hlate]
        unfold lastStep
        dsimp only
        cases hval : validateSchema fuel ord.run { c with schema := A'.schema p', sdl := some s } (A'.schema p') with
        | panic => exact .inr (.inl ⟨rfl, rfl⟩)
        | oof => exact .inr (.inr ⟨rfl, rfl⟩)
        | ret c' =>
          have hc' : c'.schema = A'.schema p' := validateSchema_keeps hval
          left
          simp only [Out.bind_ret]
          by_cases he' : c'.errors.length > 0
          · simp only [he', if_true, Out.bind_ret]
            cases hpass with
            | nil => 
              obtain ⟨k1, k2, -⟩ := hG.add (p' := p') b3 b4 b9
              replace k2 : A'.store (st.update m' none p') = _ := k2
              exact ⟨_, A', _, rfl, k1, by rw [k2]; rfl⟩
            | @ptr i p h =>
              obtain ⟨k1, k2⟩ := hG.change h b3 b4 b9 b5 b7 b8
              replace k2 : A'.store (st.update m' (some i) p') = _ := k2
              exact ⟨_, A', _, rfl, k1, by rw [k2]; rfl⟩
          · simp only [he', if_false, Out.bind_ret]
            cases hpass with
            | nil =>
              obtain ⟨-, -, k3⟩ := hG.add (p' := p') b3 b4 b9
              obtain ⟨k1, k2⟩ := k3 b5 b7 b8
              refine ⟨_, A', _, rfl, k1, ?_⟩
              rw [k2, ← hc']
              show Out.ret (_, PResult.mk (some (A.store st).length) none none) = _
              rw [show (A.store st).length = st.schemas.length from List.length_map _]
            | @ptr i p h =>
              obtain ⟨k1, k2⟩ := hG.change h b3 b4 b9 b5 b7 b8
              refine ⟨_, A', _, rfl, k1, ?_⟩
              rw [k2]
              rfl

end GQL
