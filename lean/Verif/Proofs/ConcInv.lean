/-
The invariant of Props/C77: who owns which part of the memory.
-/
import Verif.Proofs.ConcCalls
import Verif.Spec.Concurrent

namespace GQL.Conc

def Call.isSDL : Call → Bool
  | .sdl _ _ _ _ => true
  | _ => false

/-! ### What holds when a call is done -/

/-- What a call, which was given the schema at `p` with value `v`, comes to. -/
def Post (pf : Bytes → Option Nat) (c : Call) (p : Ptr) (v : Option Schema) (o : Out Result) (h : Memory) : Prop :=
  match c with
  | .look _ => ∃ w, v = some w ∧ o = .ret (.contents w)
  | .doc input _ => o = (GQL.parseDoc pf input v).bind fun r => .ret (.doc r)
  | .sdl input _ fuel ord => ∃ (ord' : Orders) (o' : Out PResult), (ord'.run = ord.run ∧ ord'.build.dirs = ord.dirs) ∧
      o = (o'.bind fun r => .ret (.sdl r)) ∧ SameResult globals p h o' (GQL.parseSDLDoc pf fuel ord' input v)

theorem hasGlobals : HasGlobals globals := ⟨rfl, rfl⟩

theorem prog_ok {pf : Bytes → Option Nat} {c : Call} {p : Ptr} {v : Option Schema} {h : Memory} (hl : ∀ i, c = .look i → p ≠ none)
    (hh : (RBase globals p v).holds h) : WP globals (c.prog pf p) (Post pf c p v) h := by
  cases c with
  | look i =>
    cases p with
    | none => exact absurd rfl (hl i rfl)
    | some a =>
      cases v with
      | none => exact hh.elim
      | some v =>
        refine WP.bind _ _ (WP.mono ?_ _ _ (readSchema_ok h hh))
        intro o k ho
        cases o with
        | panic => exact ho.elim
        | oof => exact ho.elim
        | ret w =>
          have := ((pure_star _ _ _).1 ho).1
          subst this
          exact ⟨w, rfl, rfl⟩
  | doc input base =>
    refine WP.bind _ _ (WP.mono ?_ _ _ (parseDoc_ok (pf := pf) (input := input) h hh))
    intro o k ho
    replace ho : o = GQL.parseDoc pf input v := ho
    cases o with
    | panic => show _ = _; rw [← ho]; rfl
    | oof => show _ = _; rw [← ho]; rfl
    | ret w => show _ = _; rw [← ho]; rfl
  | sdl input base fuel ord =>
    refine WP.bind _ _ (WP.mono ?_ _ _ (parseSDLDoc_ok hasGlobals (pf := pf) (input := input) (fuel := fuel) (ord := ord) h hh))
    rintro o k ⟨ord', e, ho⟩
    cases o with
    | panic => exact ⟨ord', _, e, rfl, ho⟩
    | oof => exact ⟨ord', _, e, rfl, ho⟩
    | ret w => exact ⟨ord', .ret w, e, rfl, ho⟩

theorem prog_ro {pf : Bytes → Option Nat} {c : Call} {p : Ptr} (hc : c.isSDL = false) : ReadOnly (c.prog pf p) := by
  cases c with
  | sdl => cases hc
  | look i =>
    cases p with
    | none => trivial
    | some a => exact ReadOnly.bind (fun _ => ReadOnly.pure _) (readSchema_ro a)
  | doc input base => exact ReadOnly.bind (fun _ => ReadOnly.pure _) (ReadOnly.bind (f := fun s => .done (GQL.parseDoc pf input s)) (fun _ => trivial) (readBase_ro p))

/-! ### Owners -/

inductive Owner where
  | glob
  | schema (i : Nat)
  | thread (t : Nat)
  deriving DecidableEq

/-- The part of the memory that belongs to one owner. -/
def part (o : Nat → Owner) (m : Memory) (x : Owner) : Memory := fun a => if o a = x then m a else none

theorem part_sub (o : Nat → Owner) (m : Memory) (x : Owner) : Sub (part o m x) m := fun a c h => by
  unfold part at h
  by_cases e : o a = x
  · simpa [e] using h
  · simp [e] at h

theorem part_owner {o : Nat → Owner} {m : Memory} {x : Owner} {a : Nat} (h : (part o m x a).isSome = true) : o a = x := by
  unfold part at h
  by_cases e : o a = x
  · exact e
  · simp [e] at h

/-- What a call that only reads may read. -/
def view (o : Nat → Owner) (m : Memory) (base : Option Nat) : Memory := fun a =>
  if o a = .glob then m a
  else match base with
    | none => none
    | some i => part o m (.schema i) a

theorem view_sub (o : Nat → Owner) (m : Memory) (base : Option Nat) : Sub (view o m base) m := fun a c h => by
  unfold view at h
  by_cases e : o a = .glob
  · simpa [e] using h
  · simp only [e, if_false] at h
    cases base with
    | none => cases h
    | some i => exact part_sub o m _ a c h

theorem view_owner {o : Nat → Owner} {m : Memory} {base : Option Nat} {a t : Nat} (h : (view o m base a).isSome = true) : o a ≠ .thread t := by
  intro e
  unfold view at h
  simp only [e] at h
  cases base with
  | none => simp at h
  | some i => simp [part, e] at h

theorem view_glob (o : Nat → Owner) (m : Memory) (base : Option Nat) : Sub (part o m .glob) (view o m base) := fun a c h => by
  unfold part at h
  unfold view
  by_cases e : o a = .glob
  · simpa [e] using h
  · simp [e] at h

theorem view_schema (o : Nat → Owner) (m : Memory) (i : Nat) : Sub (part o m (.schema i)) (view o m (some i)) := fun a c h => by
  have e := part_owner (o := o) (m := m) (x := .schema i) (a := a) (by rw [h]; rfl)
  unfold view
  simpa [e] using h

theorem view_eq (o : Nat → Owner) (m : Memory) (base : Option Nat) (a : Nat) : view o m base a = match part o m .glob a with
    | some c => some c
    | none => match base with
      | none => none
      | some i => part o m (.schema i) a := by
  unfold view part
  by_cases e : o a = .glob
  · simp only [e, if_true]
    cases m a with
    | some c => rfl
    | none => cases base <;> simp
  · simp only [e, if_false]

theorem view_congr {o o' : Nat → Owner} {m m' : Memory} {base : Option Nat} (h : part o' m' .glob = part o m .glob)
    (k : ∀ i, base = some i → part o' m' (.schema i) = part o m (.schema i)) : view o' m' base = view o m base := by
  funext a
  rw [view_eq, view_eq, h]
  cases base with
  | none => rfl
  | some i => dsimp only; rw [k i rfl]

/-! ### The invariant -/

/-- A running call is all right. -/
inductive ThreadOk (pf : Bytes → Option Nat) (s : State) (o : Nat → Owner) (vals : List Schema) (t : Nat) : Thread → Prop where
  | reader {c : Call} {prog : Prog Result} {p : Ptr} {v : Option Schema} (hc : c.isSDL = false) (hp : s.Points c.base p) (hv : Given vals c.base v)
      (ro : ReadOnly prog) (wp : WP (view o s.mem c.base) prog (Post pf c p v) none') : ThreadOk pf s o vals t ⟨c, prog⟩
  | writer {c : Call} {prog : Prog Result} {p : Ptr} {v : Option Schema} (hc : c.isSDL = true) (hp : s.Points c.base p) (hv : Given vals c.base v)
      (wp : WP globals prog (Post pf c p v) (part o s.mem (.thread t))) : ThreadOk pf s o vals t ⟨c, prog⟩

/-- Where a schema is. -/
inductive SchemaOk (s : State) (o : Nat → Owner) (vals : List Schema) (i a : Nat) : Prop where
  | rest {v : Schema} (ho : o a = .schema i) (hv : vals[i]? = some v) (h : (RSchema globals a v).holds (part o s.mem (.schema i)))
  | lent {t : Nat} {th : Thread} (ht : s.threads t = some th) (hc : th.call.isSDL = true) (hb : th.call.base = some i) (ho : o a = .thread t)

structure Inv (pf : Bytes → Option Nat) (s : State) (o : Nat → Owner) (vals : List Schema) : Prop where
  glob : part o s.mem .glob = globals
  seq : Sequential pf s.log vals
  len : vals.length = s.schemas.length
  has : ∀ (i a : Nat), s.schemas[i]? = some a → (s.mem a).isSome = true
  own : ∀ (i a : Nat), s.schemas[i]? = some a → SchemaOk s o vals i a
  excl : ∀ (t u : Nat) (x y : Thread) (i : Nat), s.threads t = some x → s.threads u = some y → x.call.isSDL = true → x.call.base = some i →
    y.call.base = some i → t = u
  run : ∀ (t : Nat) (th : Thread), s.threads t = some th → ThreadOk pf s o vals t th
  fin : ∃ N, ∀ a, N ≤ a → s.mem a = none

section
variable {pf : Bytes → Option Nat} {s s' : State} {o o' : Nat → Owner} {vals vals' : List Schema}

theorem ThreadOk.keep {t : Nat} {th : Thread} (h : ThreadOk pf s o vals t th) (hp : ∀ p, s.Points th.call.base p → s'.Points th.call.base p)
    (hv : ∀ v, Given vals th.call.base v → Given vals' th.call.base v) (ht : part o' s'.mem (.thread t) = part o s.mem (.thread t))
    (hw : view o' s'.mem th.call.base = view o s.mem th.call.base) : ThreadOk pf s' o' vals' t th := by
  cases h with
  | reader hc p v ro wp => exact .reader hc (hp _ p) (hv _ v) ro (by rw [show view o' s'.mem _ = _ from hw]; exact wp)
  | writer hc p v wp => exact .writer hc (hp _ p) (hv _ v) (by rw [ht]; exact wp)

theorem State.Points.given {i : Option Nat} {p : Ptr} (h : s.Points i p) (hl : vals.length = s.schemas.length) : ∃ v, Given vals i v := by
  cases h with
  | nil => exact ⟨none, .nil⟩
  | @«at» i a h =>
    have := (List.getElem?_eq_some_iff.1 h).1
    exact ⟨some (vals[i]'(by omega)), .at (List.getElem?_eq_getElem (by omega))⟩

theorem State.Points.grow {b : Option Nat} {p : Ptr} (hs : ∀ (i a : Nat), s.schemas[i]? = some a → s'.schemas[i]? = some a) (h : s.Points b p) : s'.Points b p := by
  cases h with
  | nil => exact .nil
  | «at» h => exact .at (hs _ _ h)

theorem State.Points.same {b : Option Nat} {p : Ptr} (h : s.Points b p) (e : s'.schemas = s.schemas) : s'.Points b p := h.grow fun i a hi => by rw [e]; exact hi

theorem setThread_at {ts : Nat → Option Thread} {t : Nat} {x : Option Thread} : setThread ts t x t = x := by simp [setThread]

theorem setThread_ne {ts : Nat → Option Thread} {t u : Nat} {x : Option Thread} (h : u ≠ t) : setThread ts t x u = ts u := by simp [setThread, h]

theorem Inv.init : Inv pf State.init (fun _ => .glob) [] where
  glob := by funext a; simp [part, State.init]
  seq := .nil
  len := rfl
  has := by intro i a h; simp [State.init] at h
  own := by intro i a h; simp [State.init] at h
  excl := by intro t u x y i h; cases h
  run := by intro t th h; cases h
  fin := ⟨2, fun a h => by
    match a, h with
    | a + 2, _ => rfl⟩

/-- A call that only reads begins. -/
theorem Inv.startReader {t : Nat} {c : Call} {p : Ptr} (inv : Inv pf s o vals) (idle : s.threads t = none) (hp : s.Points c.base p)
    (hc : c.isSDL = false) (ok : ∀ i, c.base = some i → ¬ Extended s i) :
    Inv pf { s with threads := setThread s.threads t (some ⟨c, c.prog pf p⟩) } o vals := by
  have other : ∀ {u : Nat} {th : Thread}, s.threads u = some th → u ≠ t := by
    intro u th hu e
    rw [e, idle] at hu
    cases hu
  refine ⟨inv.glob, inv.seq, inv.len, inv.has, ?_, ?_, ?_, inv.fin⟩
  · intro i a hi
    cases inv.own i a hi with
    | rest ho hv h => exact .rest ho hv h
    | lent ht hc hb ho => exact .lent ((setThread_ne (other ht)).trans ht) hc hb ho
  · intro u w x y i hu hw hx hxi hyi
    have ext : ∀ {u x}, s.threads u = some x → x.call.isSDL = true → x.call.base = some i → Extended s i := by
      rintro u ⟨c, prog⟩ h hc hb
      cases c with
      | look => cases hc
      | doc => cases hc
      | sdl input b fuel ord =>
        replace hb : b = some i := hb
        subst hb
        exact ⟨u, input, fuel, ord, prog, h⟩
    dsimp only at hu hw
    by_cases h1 : u = t
    · subst h1
      rw [setThread_at] at hu
      cases hu
      rw [hc] at hx
      cases hx
    · rw [setThread_ne h1] at hu
      by_cases h2 : w = t
      · subst h2
        rw [setThread_at] at hw
        cases hw
        exact absurd (ext hu hx hxi) (ok i hyi)
      · rw [setThread_ne h2] at hw
        exact inv.excl u w x y i hu hw hx hxi hyi
  · intro u th hu
    dsimp only at hu
    by_cases h1 : u = t
    · subst h1
      rw [setThread_at] at hu
      cases hu
      obtain ⟨v, hv⟩ := hp.given inv.len
      have hl : ∀ i, c = .look i → p ≠ none := by
        rintro i rfl e
        subst e
        cases hp
      refine .reader (p := p) (v := v) hc (hp.same rfl) hv (prog_ro hc) ?_
      have key : ∃ h, (RBase globals p v).holds h ∧ Sub h (view o s.mem c.base) := by
        generalize hb : c.base = base at hp hv
        cases hp with
        | nil => 
          cases hv
          exact ⟨none', trivial, none_sub _⟩
        | @«at» i a h =>
          cases hv with
          | @«at» i v hv' =>
            cases inv.own i a h with
            | @rest v' ho hv h =>
              rw [hv'] at hv
              cases hv
              exact ⟨_, h, view_schema _ _ _⟩
            | @lent t th ht hc hb' ho =>
              obtain ⟨c', prog⟩ := th
              cases c' with
              | look => cases hc
              | doc => cases hc
              | sdl input b fuel ord =>
                replace hb' : b = some i := hb'
                subst hb'
                exact absurd ⟨t, input, fuel, ord, prog, ht⟩ (ok i hb)
      obtain ⟨h, h1, h2⟩ := key
      have := (prog_ro (pf := pf) (p := p) hc).wp (k := none') (by rw [← inv.glob]; exact view_glob o s.mem c.base) h2 (prog_ok (pf := pf) (c := c) hl h1)
      refine WP.mono ?_ _ _ this
      intro o _ hq
      cases c with
      | look => exact hq
      | doc => exact hq
      | sdl => cases hc
    · rw [setThread_ne h1] at hu
      exact (inv.run u th hu).keep (fun _ h => h.same rfl) (fun _ h => h) rfl rfl

theorem sdl_extended {s : State} {u i : Nat} : ∀ {x : Thread}, s.threads u = some x → x.call.isSDL = true → x.call.base = some i → Extended s i := by
  rintro ⟨c, prog⟩ h hc hb
  cases c with
  | look => cases hc
  | doc => cases hc
  | sdl input b fuel ord =>
    replace hb : b = some i := hb
    subst hb
    exact ⟨u, input, fuel, ord, prog, h⟩

/-- Everything that belonged to one belongs to another. -/
def move (o : Nat → Owner) (x y : Owner) : Nat → Owner := fun a => if o a = x then y else o a

theorem part_move {o : Nat → Owner} {x y z : Owner} (m : Memory) (hx : z ≠ x) (hy : z ≠ y) : part (move o x y) m z = part o m z := by
  funext a
  unfold part move
  by_cases e : o a = x
  · simp [e, hx.symm, hy.symm]
  · simp [e]

theorem part_moved {o : Nat → Owner} {x y : Owner} (m : Memory) : Sub (part o m x) (part (move o x y) m y) := fun a c h => by
  have e := part_owner (o := o) (m := m) (x := x) (a := a) (by rw [h]; rfl)
  unfold part move at *
  simpa [e] using h

/-- `ParseSDLDoc` begins with a schema. -/
theorem Inv.startSDL {t i : Nat} {c : Call} {p : Ptr} (inv : Inv pf s o vals) (idle : s.threads t = none) (hp : s.Points c.base p)
    (hc : c.isSDL = true) (hb : c.base = some i) (ok : ¬ Used s i) :
    Inv pf { s with threads := setThread s.threads t (some ⟨c, c.prog pf p⟩) } (move o (.schema i) (.thread t)) vals := by
  have other : ∀ {u : Nat} {th : Thread}, s.threads u = some th → u ≠ t := by
    intro u th hu e
    rw [e, idle] at hu
    cases hu
  have notI : ∀ {u : Nat} {th : Thread}, s.threads u = some th → th.call.base ≠ some i := fun hu e => ok ⟨_, _, hu, e⟩
  have hg : part (move o (.schema i) (.thread t)) s.mem .glob = part o s.mem .glob := part_move s.mem (by simp) (by simp)
  refine ⟨hg.trans inv.glob, inv.seq, inv.len, inv.has, ?_, ?_, ?_, inv.fin⟩
  · intro j a hj
    cases inv.own j a hj with
    | rest ho hv h =>
      by_cases e : j = i
      · subst e
        exact .lent (t := t) setThread_at hc hb (by simp [move, ho])
      · refine .rest (by simp [move, ho, e]) hv ?_
        rw [show part (move o (.schema i) (.thread t)) _ (.schema j) = part o s.mem (.schema j) from part_move s.mem (by simp [e]) (by simp)]
        exact h
    | lent ht hc hb ho => exact .lent ((setThread_ne (other ht)).trans ht) hc hb (by simp [move, ho])
  · intro u w x y j hu hw hx hxj hyj
    dsimp only at hu hw
    by_cases h1 : u = t
    · subst h1
      rw [setThread_at] at hu
      cases hu
      by_cases h2 : w = u
      · exact h2.symm
      · rw [setThread_ne h2] at hw
        replace hxj : c.base = some j := hxj
        rw [hb] at hxj
        cases hxj
        exact absurd hyj (notI hw)
    · rw [setThread_ne h1] at hu
      by_cases h2 : w = t
      · subst h2
        rw [setThread_at] at hw
        cases hw
        replace hyj : c.base = some j := hyj
        rw [hb] at hyj
        cases hyj
        exact absurd hxj (notI hu)
      · rw [setThread_ne h2] at hw
        exact inv.excl u w x y j hu hw hx hxj hyj
  · intro u th hu
    dsimp only at hu
    by_cases h1 : u = t
    · subst h1
      rw [setThread_at] at hu
      cases hu
      obtain ⟨v, hv⟩ := hp.given inv.len
      have hl : ∀ i, c = .look i → p ≠ none := by
        rintro i rfl
        cases hc
      refine .writer (p := p) (v := v) hc (hp.same rfl) hv (prog_ok hl ?_)
      rw [hb] at hp hv
      cases hp with
      | @«at» i a h =>
        cases hv with
        | @«at» i v hv' =>
          cases inv.own i a h with
          | @rest v' ho hv h =>
            rw [hv'] at hv
            cases hv
            exact HP.up (RSchema globals a v) (part_moved s.mem) h
          | lent ht _ hb' _ => exact absurd hb' (notI ht)
    · rw [setThread_ne h1] at hu
      refine (inv.run u th hu).keep (fun _ h => h.same rfl) (fun _ h => h) (part_move s.mem (by simp) (by simp [h1])) (view_congr hg ?_)
      intro j hj
      refine part_move s.mem ?_ (by simp)
      intro e
      cases e
      exact notI hu hj

/-- `ParseSDLDoc` begins without a schema. -/
theorem Inv.startNew {t : Nat} {c : Call} {p : Ptr} (inv : Inv pf s o vals) (idle : s.threads t = none) (hp : s.Points c.base p)
    (hc : c.isSDL = true) (hb : c.base = none) :
    Inv pf { s with threads := setThread s.threads t (some ⟨c, c.prog pf p⟩) } o vals := by
  have other : ∀ {u : Nat} {th : Thread}, s.threads u = some th → u ≠ t := by
    intro u th hu e
    rw [e, idle] at hu
    cases hu
  refine ⟨inv.glob, inv.seq, inv.len, inv.has, ?_, ?_, ?_, inv.fin⟩
  · intro j a hj
    cases inv.own j a hj with
    | rest ho hv h => exact .rest ho hv h
    | lent ht hc hb ho => exact .lent ((setThread_ne (other ht)).trans ht) hc hb ho
  · intro u w x y j hu hw hx hxj hyj
    dsimp only at hu hw
    by_cases h1 : u = t
    · subst h1
      rw [setThread_at] at hu
      cases hu
      replace hxj : c.base = some j := hxj
      rw [hb] at hxj
      cases hxj
    · rw [setThread_ne h1] at hu
      by_cases h2 : w = t
      · subst h2
        rw [setThread_at] at hw
        cases hw
        replace hyj : c.base = some j := hyj
        rw [hb] at hyj
        cases hyj
      · rw [setThread_ne h2] at hw
        exact inv.excl u w x y j hu hw hx hxj hyj
  · intro u th hu
    dsimp only at hu
    by_cases h1 : u = t
    · subst h1
      rw [setThread_at] at hu
      cases hu
      obtain ⟨v, hv⟩ := hp.given inv.len
      have hl : ∀ i, c = .look i → p ≠ none := by
        rintro i rfl
        cases hc
      refine .writer (p := p) (v := v) hc (hp.same rfl) hv (prog_ok hl ?_)
      rw [hb] at hp hv
      cases hp
      cases hv
      trivial
    · rw [setThread_ne h1] at hu
      exact (inv.run u th hu).keep (fun _ h => h.same rfl) (fun _ h => h) rfl rfl

/-- What one access does to the parts of the memory that a running call does not own. -/
theorem Inv.access {t : Nat} {c : Call} {p p' : Prog Result} {m : Memory} (inv : Inv pf s o vals) (running : s.threads t = some ⟨c, p⟩)
    (acc : Access s.mem p m p') : ∃ o', Inv pf { s with mem := m, threads := setThread s.threads t (some ⟨c, p'⟩) } o' vals := by
  -- it is enough to find the owners and to show that the call itself is all right
  have go : ∀ o' : Nat → Owner, (∀ x, x ≠ .thread t → part o' m x = part o s.mem x) → (∀ a, (s.mem a).isSome = true → o' a = o a) →
      (∀ a, (s.mem a).isSome = true → (m a).isSome = true) → (∃ N, ∀ a, N ≤ a → m a = none) →
      ThreadOk pf { s with mem := m, threads := setThread s.threads t (some ⟨c, p'⟩) } o' vals t ⟨c, p'⟩ →
      ∃ o', Inv pf { s with mem := m, threads := setThread s.threads t (some ⟨c, p'⟩) } o' vals := by
    intro o' hpart ho hm hf htr
    refine ⟨o', (hpart _ (by simp)).trans inv.glob, inv.seq, inv.len, fun i a hi => hm a (inv.has i a hi), ?_, ?_, ?_, hf⟩
    · intro i a hi
      cases inv.own i a hi with
      | rest h1 hv h => exact .rest ((ho a (inv.has i a hi)).trans h1) hv ((hpart (.schema i) (by simp)).symm ▸ h)
      | @lent u th ht hc' hb h1 =>
        by_cases e : u = t
        · subst e
          rw [running] at ht
          cases ht
          exact .lent setThread_at hc' hb ((ho a (inv.has i a hi)).trans h1)
        · exact .lent ((setThread_ne e).trans ht) hc' hb ((ho a (inv.has i a hi)).trans h1)
    · intro u w x y i hu hw hx hxi hyi
      dsimp only at hu hw
      by_cases h1 : u = t
      · subst h1
        rw [setThread_at] at hu
        cases hu
        by_cases h2 : w = u
        · exact h2.symm
        · rw [setThread_ne h2] at hw
          exact inv.excl _ _ _ _ _ running hw hx hxi hyi
      · rw [setThread_ne h1] at hu
        by_cases h2 : w = t
        · subst h2
          rw [setThread_at] at hw
          cases hw
          exact inv.excl _ _ _ _ _ hu running hx hxi hyi
        · rw [setThread_ne h2] at hw
          exact inv.excl u w x y i hu hw hx hxi hyi
    · intro u th hu
      dsimp only at hu
      by_cases h1 : u = t
      · subst h1
        rw [setThread_at] at hu
        cases hu
        exact htr
      · rw [setThread_ne h1] at hu
        exact (inv.run u th hu).keep (fun _ h => h.same rfl) (fun _ h => h) (hpart _ (by simp [h1]))
          (view_congr (hpart _ (by simp)) fun i _ => hpart _ (by simp))
  have hglob : ∀ {a}, s.mem a = none → globals a = none := fun {a} h => by
    rw [← inv.glob]
    unfold part
    simp [h]
  have hg : Sub globals s.mem := by
    rw [← inv.glob]
    exact part_sub _ _ _
  cases inv.run t _ running with
  | @reader _ _ b v hc hp hv ro wp =>
    cases acc with
    | @read a cell k h =>
      obtain ⟨d, hd, wp'⟩ := wp
      have : s.mem a = some d := hd.elim (fun e => by cases e) (fun e => view_sub _ _ _ a d e)
      rw [this] at h
      cases h
      exact go o (fun _ _ => rfl) (fun _ _ => rfl) (fun _ h => h) inv.fin (.reader hc (hp.same rfl) hv (ro _) wp')
    | @readWild a k h =>
      obtain ⟨d, hd, wp'⟩ := wp
      have : s.mem a = some d := hd.elim (fun e => by cases e) (fun e => view_sub _ _ _ a d e)
      rw [this] at h
      cases h
    | write => exact ro.elim
    | writeWild => exact ro.elim
    | alloc => exact ro.elim
  | @writer _ _ b v hc hp hv wp =>
    cases acc with
    | @read a cell k h =>
      obtain ⟨d, hd, wp'⟩ := wp
      have : s.mem a = some d := hd.elim (fun e => part_sub _ _ _ a d e) (hg a d)
      rw [this] at h
      cases h
      exact go o (fun _ _ => rfl) (fun _ _ => rfl) (fun _ h => h) inv.fin (.writer hc (hp.same rfl) hv wp')
    | @readWild a k h =>
      obtain ⟨d, hd, wp'⟩ := wp
      have : s.mem a = some d := hd.elim (fun e => part_sub _ _ _ a d e) (hg a d)
      rw [this] at h
      cases h
    | @write a cell d k h =>
      obtain ⟨h1, wp'⟩ := wp
      have ho : o a = .thread t := part_owner h1
      refine go o ?_ (fun _ _ => rfl) ?_ ?_ (.writer hc (hp.same rfl) hv ?_)
      · intro x hx
        funext b
        unfold part
        by_cases e : b = a
        · subst e
          simp [ho, hx.symm]
        · rw [set_ne _ _ e]
      · intro b hb
        by_cases e : b = a
        · subst e
          rw [set_at]
          rfl
        · rw [set_ne _ _ e]
          exact hb
      · obtain ⟨N, hN⟩ := inv.fin
        refine ⟨N, fun b hb => ?_⟩
        by_cases e : b = a
        · subst e
          rw [hN b hb] at h
          cases h
        · rw [set_ne _ _ e]
          exact hN b hb
      · rw [show part o (s.mem.set a cell) (.thread t) = (part o s.mem (.thread t)).set a cell from by
          funext b
          by_cases e : b = a
          · subst e
            simp [part, Memory.set, ho]
          · simp [part, Memory.set, e]]
        exact wp'
    | @writeWild a cell k h =>
      obtain ⟨h1, wp'⟩ := wp
      obtain ⟨d, hd⟩ := Option.isSome_iff_exists.1 h1
      rw [part_sub _ _ _ a d hd] at h
      cases h
    | @alloc a cell k h =>
      have wp' := wp a ((part_sub o s.mem (.thread t)).none h) (hglob h)
      refine go (fun b => if b = a then .thread t else o b) ?_ ?_ ?_ ?_ (.writer hc (hp.same rfl) hv ?_)
      · intro x hx
        funext b
        unfold part
        by_cases e : b = a
        · subst e
          simp [hx.symm, h]
        · rw [set_ne _ _ e]
          simp [e]
      · intro b hb
        have e : b ≠ a := fun e => by rw [e, h] at hb; cases hb
        simp [e]
      · intro b hb
        have e : b ≠ a := fun e => by rw [e, h] at hb; cases hb
        rw [set_ne _ _ e]
        exact hb
      · obtain ⟨N, hN⟩ := inv.fin
        refine ⟨N + a + 1, fun b hb => ?_⟩
        rw [set_ne _ _ (by omega)]
        exact hN b (by omega)
      · rw [show part (fun b => if b = a then .thread t else o b) (s.mem.set a cell) (.thread t) = (part o s.mem (.thread t)).set a cell from by
          funext b
          by_cases e : b = a
          · subst e
            simp [part, Memory.set]
          · simp [part, Memory.set, e]]
        exact wp'

/-! ### A call returns -/

/-- Two schemas are not at the same address. -/
theorem Inv.inj (inv : Inv pf s o vals) {i j a : Nat} (hi : s.schemas[i]? = some a) (hj : s.schemas[j]? = some a) : i = j := by
  cases inv.own i a hi with
  | rest h1 =>
    cases inv.own j a hj with
    | rest h2 => rw [h1] at h2; cases h2; rfl
    | lent _ _ _ h2 => rw [h1] at h2; cases h2
  | lent ht hc hb h1 =>
    cases inv.own j a hj with
    | rest h2 => rw [h1] at h2; cases h2
    | lent ht' hc' hb' h2 =>
      rw [h1] at h2
      cases h2
      rw [ht] at ht'
      cases ht'
      rw [hb] at hb'
      cases hb'
      rfl

theorem find_at {l : List Nat} {i a : Nat} (h : l[i]? = some a) (inj : ∀ j, l[j]? = some a → j = i) : l.findIdx? (· == a) = some i := by
  rw [List.findIdx?_eq_some_iff_getElem]
  obtain ⟨hi, he⟩ := List.getElem?_eq_some_iff.1 h
  refine ⟨hi, by simp [he], fun j hj => ?_⟩
  intro hja
  have : l[j] = a := by simpa using hja
  have := inj j (List.getElem?_eq_some_iff.2 ⟨by omega, this⟩)
  omega

theorem find_none {l : List Nat} {a : Nat} (h : ∀ i : Nat, l[i]? ≠ some a) : l.findIdx? (· == a) = none := by
  rw [List.findIdx?_eq_none_iff]
  intro x hx
  obtain ⟨i, hi⟩ := List.getElem?_of_mem hx
  simp only [beq_eq_false_iff_ne, ne_eq]
  rintro rfl
  exact h i hi

/-- The owners when goroutine `t` has returned and everything else is as it was. -/
theorem Inv.idle {t : Nat} {c : Call} {prog : Prog Result} {r : Result} (inv : Inv pf s o vals) (running : s.threads t = some ⟨c, prog⟩)
    (hc : c.isSDL = false ∨ c.base = none) (now : CallNow pf vals c (.ret (vals, r))) :
    Inv pf { s with threads := setThread s.threads t none, log := s.log ++ [(c, r)] } o vals := by
  refine ⟨inv.glob, .snoc inv.seq now, inv.len, inv.has, ?_, ?_, ?_, inv.fin⟩
  · intro i a hi
    cases inv.own i a hi with
    | rest ho hv h => exact .rest ho hv h
    | @lent u th ht hc' hb ho =>
      have e : u ≠ t := by
        rintro rfl
        rw [running] at ht
        cases ht
        rcases hc with hc | hc
        · rw [hc] at hc'; cases hc'
        · rw [hc] at hb; cases hb
      exact .lent ((setThread_ne e).trans ht) hc' hb ho
  · intro u w x y i hu hw hx hxi hyi
    dsimp only at hu hw
    have h1 : u ≠ t := by rintro rfl; rw [setThread_at] at hu; cases hu
    have h2 : w ≠ t := by rintro rfl; rw [setThread_at] at hw; cases hw
    rw [setThread_ne h1] at hu
    rw [setThread_ne h2] at hw
    exact inv.excl u w x y i hu hw hx hxi hyi
  · intro u th hu
    dsimp only at hu
    have h1 : u ≠ t := by rintro rfl; rw [setThread_at] at hu; cases hu
    rw [setThread_ne h1] at hu
    exact (inv.run u th hu).keep (fun _ h => h.same rfl) (fun _ h => h) rfl rfl

/-- The schema goes back to where it was. -/
theorem Inv.giveBack {t i a : Nat} {c : Call} {prog : Prog Result} {r : Result} {v : Schema} (inv : Inv pf s o vals) (running : s.threads t = some ⟨c, prog⟩)
    (hc : c.isSDL = true) (hb : c.base = some i) (hi : s.schemas[i]? = some a) (hv : (RSchema globals a v).holds (part o s.mem (.thread t)))
    (now : CallNow pf vals c (.ret (vals.set i v, r))) :
    Inv pf { s with threads := setThread s.threads t none, log := s.log ++ [(c, r)] } (move o (.thread t) (.schema i)) (vals.set i v) := by
  have hlt : i < vals.length := by
    have := (List.getElem?_eq_some_iff.1 hi).1
    have := inv.len
    omega
  have notI : ∀ {u : Nat} {th : Thread}, s.threads u = some th → u ≠ t → th.call.base ≠ some i := fun hu hne e =>
    hne (inv.excl _ _ _ _ _ running hu hc hb e).symm
  have hg : part (move o (.thread t) (.schema i)) s.mem .glob = part o s.mem .glob := part_move s.mem (by simp) (by simp)
  refine ⟨hg.trans inv.glob, .snoc inv.seq now, (List.length_set ..).trans inv.len, inv.has, ?_, ?_, ?_, inv.fin⟩
  · intro j b hj
    by_cases e : j = i
    · subst e
      replace hj : s.schemas[j]? = some b := hj
      rw [hi] at hj
      cases hj
      cases inv.own j a hi with
      | rest ho hv' h =>
        refine .rest (by simp [move, ho]) (by rw [List.getElem?_set_self hlt]) (HP.up _ (part_moved s.mem) hv)
      | @lent u th ht hc' hb' ho =>
        have : u = t := inv.excl _ _ _ _ _ ht running hc' hb' hb
        subst this
        exact .rest (by simp [move, ho]) (by rw [List.getElem?_set_self hlt]) (HP.up _ (part_moved s.mem) hv)
    · have e' : i ≠ j := fun h => e h.symm
      cases inv.own j b hj with
      | rest ho hv' h =>
        refine .rest (by simp [move, ho]) (by rw [List.getElem?_set_ne e']; exact hv') ?_
        rw [show part (move o (.thread t) (.schema i)) _ (.schema j) = part o s.mem (.schema j) from part_move s.mem (by simp) (by simp [e])]
        exact h
      | @lent u th ht hc' hb' ho =>
        have hne : u ≠ t := by
          rintro rfl
          rw [running] at ht
          cases ht
          rw [hb] at hb'
          cases hb'
          exact e rfl
        exact .lent ((setThread_ne hne).trans ht) hc' hb' (by simp [move, ho, hne])
  · intro u w x y j hu hw hx hxj hyj
    dsimp only at hu hw
    have h1 : u ≠ t := by rintro rfl; rw [setThread_at] at hu; cases hu
    have h2 : w ≠ t := by rintro rfl; rw [setThread_at] at hw; cases hw
    rw [setThread_ne h1] at hu
    rw [setThread_ne h2] at hw
    exact inv.excl u w x y j hu hw hx hxj hyj
  · intro u th hu
    dsimp only at hu
    have h1 : u ≠ t := by rintro rfl; rw [setThread_at] at hu; cases hu
    rw [setThread_ne h1] at hu
    refine (inv.run u th hu).keep (fun _ h => h.same rfl) ?_ (part_move s.mem (by simp [h1]) (by simp)) (view_congr hg ?_)
    · intro w hw
      generalize hbase : th.call.base = base at hw
      cases hw with
      | nil => exact .nil
      | @«at» j w h =>
        refine .at ?_
        rw [List.getElem?_set_ne]
        · exact h
        · rintro rfl
          exact notI hu h1 hbase
    · intro j hj
      refine part_move s.mem (by simp) ?_
      intro e
      cases e
      exact notI hu h1 hj

/-- There is a new schema. -/
theorem Inv.add {t a : Nat} {c : Call} {prog : Prog Result} {r : Result} {v : Schema} (inv : Inv pf s o vals) (running : s.threads t = some ⟨c, prog⟩)
    (hb : c.base = none) (hv : (RSchema globals a v).holds (part o s.mem (.thread t)))
    (now : CallNow pf vals c (.ret (vals ++ [v], r))) :
    Inv pf { s with schemas := s.schemas ++ [a], threads := setThread s.threads t none, log := s.log ++ [(c, r)] }
      (move o (.thread t) (.schema s.schemas.length)) (vals ++ [v]) := by
  have hmem : (part o s.mem (.thread t) a).isSome = true := by
    obtain ⟨cell, h⟩ := hv
    have := ((pure_star _ _ _).1 h).2
    rw [show part o s.mem (.thread t) a = some (.schema cell) from star_left _ _ _ this]
    rfl
  have ho : o a = .thread t := part_owner hmem
  have hg : part (move o (.thread t) (.schema s.schemas.length)) s.mem .glob = part o s.mem .glob := part_move s.mem (by simp) (by simp)
  have old : ∀ {u : Nat} {th : Thread} {j : Nat}, s.threads u = some th → th.call.base = some j → j < s.schemas.length := by
    intro u th j hu hj
    have key : ∀ {p}, s.Points th.call.base p → j < s.schemas.length := by
      intro p hp
      rw [hj] at hp
      cases hp with
      | «at» h => exact (List.getElem?_eq_some_iff.1 h).1
    cases inv.run u th hu with
    | reader _ hp => exact key hp
    | writer _ hp => exact key hp
  refine ⟨hg.trans inv.glob, .snoc inv.seq now, by simp [inv.len], ?_, ?_, ?_, ?_, inv.fin⟩
  · intro j b hj
    dsimp only at hj
    rw [List.getElem?_append] at hj
    split at hj
    · exact inv.has j b hj
    · have : b = a := List.mem_singleton.1 (List.mem_of_getElem? hj)
      subst this
      obtain ⟨d, hd⟩ := Option.isSome_iff_exists.1 hmem
      rw [part_sub _ _ _ _ d hd]
      rfl
  · intro j b hj
    dsimp only at hj
    rw [List.getElem?_append] at hj
    split at hj
    · rename_i hlt
      cases inv.own j b hj with
      | rest ho hv' h =>
        refine .rest (by simp [move, ho]) (by rw [List.getElem?_append_left (by rw [inv.len]; exact hlt)]; exact hv') ?_
        rw [show part (move o (.thread t) (.schema s.schemas.length)) _ (.schema j) = part o s.mem (.schema j) from
          part_move s.mem (by simp) (by simp; omega)]
        exact h
      | @lent u th ht hc' hb' ho =>
        have hne : u ≠ t := by
          rintro rfl
          rw [running] at ht
          cases ht
          rw [hb] at hb'
          cases hb'
        exact .lent ((setThread_ne hne).trans ht) hc' hb' (by simp [move, ho, hne])
    · rename_i hge
      have e1 : b = a := List.mem_singleton.1 (List.mem_of_getElem? hj)
      have e2 : j = s.schemas.length := by
        have := (List.getElem?_eq_some_iff.1 hj).1
        simp only [List.length_singleton] at this
        omega
      subst e1 e2
      refine .rest (v := v) (by simp [move, ho]) (by rw [← inv.len]; simp) (HP.up _ (part_moved s.mem) hv)
  · intro u w x y j hu hw hx hxj hyj
    dsimp only at hu hw
    have h1 : u ≠ t := by rintro rfl; rw [setThread_at] at hu; cases hu
    have h2 : w ≠ t := by rintro rfl; rw [setThread_at] at hw; cases hw
    rw [setThread_ne h1] at hu
    rw [setThread_ne h2] at hw
    exact inv.excl u w x y j hu hw hx hxj hyj
  · intro u th hu
    dsimp only at hu
    have h1 : u ≠ t := by rintro rfl; rw [setThread_at] at hu; cases hu
    rw [setThread_ne h1] at hu
    refine (inv.run u th hu).keep (fun _ h => h.grow ?_) ?_ (part_move s.mem (by simp [h1]) (by simp)) (view_congr hg ?_)
    · intro j b hj
      have := (List.getElem?_eq_some_iff.1 hj).1
      exact (List.getElem?_append_left this).trans hj
    · intro w hw
      generalize th.call.base = base at hw
      cases hw with
      | nil => exact .nil
      | @«at» j w h =>
        have := (List.getElem?_eq_some_iff.1 h).1
        exact .at ((List.getElem?_append_left this).trans h)
    · intro j hj
      have := old hu hj
      refine part_move s.mem (by simp) ?_
      intro e
      cases e
      omega

/-- What a finished call comes to, if it were made now. -/
theorem Inv.doneNow {t : Nat} {c : Call} {x : Out Result} (inv : Inv pf s o vals) (running : s.threads t = some ⟨c, .done x⟩) :
    match (generalizing := false) x with
    | .ret r => ∃ vals', CallNow pf vals c (.ret (vals', (s.record r).2)) ∧ ∃ o',
        Inv pf { s with schemas := (s.record r).1, threads := setThread s.threads t none, log := s.log ++ [(c, (s.record r).2)] } o' vals'
    | .panic => CallNow pf vals c .panic
    | .oof => CallNow pf vals c .oof := by
  cases inv.run t _ running with
  | @reader _ _ p v hc hp hv ro wp =>
    cases c with
    | sdl => cases hc
    | look i =>
      obtain ⟨w, rfl, hx⟩ := wp
      replace hx : x = .ret (.contents w) := hx
      subst hx
      cases hv with
      | «at» h =>
        have now : CallNow pf vals (.look i) (.ret (vals, .contents w)) := .look h
        exact ⟨vals, now, o, inv.idle running (.inl rfl) now⟩
    | doc input base =>
      replace wp : x = (GQL.parseDoc pf input v).bind fun r => .ret (.doc r) := wp
      have now : CallNow pf vals (.doc input base) _ := .doc (pf := pf) (input := input) hv
      cases hd : GQL.parseDoc pf input v with
      | panic => rw [hd] at wp now; subst wp; exact now
      | oof => rw [hd] at wp now; subst wp; exact now
      | ret d =>
        rw [hd] at wp now
        subst wp
        exact ⟨vals, now, o, inv.idle running (.inl rfl) now⟩
  | @writer _ _ p v hc hp hv wp =>
    cases c with
    | look => cases hc
    | doc => cases hc
    | sdl input base fuel ord =>
      obtain ⟨ord', o', e, hx, hs⟩ := wp
      have hsame : Spec.SameCall ⟨input, base, fuel, ord⟩ ⟨input, base, fuel, ord'⟩ := ⟨rfl, rfl, rfl, e.1, e.2⟩
      have now : CallNow pf vals (.sdl input base fuel ord) _ := .sdl (pf := pf) (st := vals) hsame
      replace hp : s.Points base p := hp
      replace hv : Given vals base v := hv
      cases hp with
      | nil =>
        cases hv
        unfold Spec.call at now
        dsimp only at now
        generalize GQL.parseSDLDoc pf fuel ord' input none = y at hs now
        cases hs with
        | panic => subst hx; exact now
        | oof => subst hx; exact now
        | @ret a errors err w w' hs =>
          subst hx
          cases w with
          | none =>
            cases a with
            | some a => exact hs.elim
            | none => exact ⟨vals, now, o, inv.idle running (.inr rfl) now⟩
          | some w =>
            cases a with
            | none => exact hs.elim
            | some a =>
              have hrec : s.record (.sdl ⟨some a, errors, err⟩) = (s.schemas ++ [a], .sdl ⟨some s.schemas.length, errors, err⟩) := by
                unfold State.record
                dsimp only
                rw [find_none]
                intro i hi
                have ho : o a = .thread t := by
                  obtain ⟨cell, h⟩ := hs
                  have := ((pure_star _ _ _).1 h).2
                  exact part_owner (m := s.mem) (by rw [show part o s.mem (.thread t) a = some (.schema cell) from star_left _ _ _ this]; rfl)
                cases inv.own i a hi with
                | rest h1 => rw [ho] at h1; cases h1
                | lent ht _ hb' h1 =>
                  rw [ho] at h1
                  cases h1
                  rw [running] at ht
                  cases ht
                  cases hb'
              dsimp only [Out.bind]
              rw [hrec]
              have now' : CallNow pf vals (.sdl input none fuel ord) (.ret (vals ++ [w], .sdl ⟨some vals.length, errors, err⟩)) := now
              rw [inv.len] at now'
              exact ⟨vals ++ [w], now', _, inv.add running rfl hs now'⟩
      | @«at» i a hi =>
        cases hv with
        | @«at» i v hvi =>
          unfold Spec.call at now
          dsimp only at now
          rw [hvi] at now
          dsimp only at now
          generalize GQL.parseSDLDoc pf fuel ord' input (some v) = y at hs now
          cases hs with
          | panic => subst hx; exact now
          | oof => subst hx; exact now
          | @ret b errors err w w' hs =>
            subst hx
            obtain ⟨hb, hw⟩ := (pure_star _ _ _).1 hs
            replace hb : b = w.map fun _ => a := hb
            cases w' with
            | none => exact hw.elim
            | some w' =>
              have hrec : s.record (.sdl ⟨b, errors, err⟩) = (s.schemas, .sdl ⟨w.map fun _ => i, errors, err⟩) := by
                subst hb
                cases w with
                | none => rfl
                | some w =>
                  unfold State.record
                  dsimp only [Option.map]
                  rw [find_at hi fun j hj => inv.inj hj hi]
              dsimp only [Out.bind]
              rw [hrec]
              exact ⟨vals.set i w', now, _, inv.giveBack running rfl rfl hi hw now⟩

theorem reachable_inv (h : Reachable pf Careful s) : ∃ o vals, Inv pf s o vals := by
  induction h with
  | init => exact ⟨_, _, .init⟩
  | @step s s' _ hs ih =>
    obtain ⟨o, vals, inv⟩ := ih
    cases hs with
    | @start t c p idle hp allowed =>
      cases c with
      | look i => exact ⟨o, vals, inv.startReader idle hp rfl fun j hj => by cases hj; exact allowed⟩
      | doc input base =>
        refine ⟨o, vals, inv.startReader idle hp rfl fun j hj => ?_⟩
        replace hj : base = some j := hj
        subst hj
        exact allowed
      | sdl input base fuel ord =>
        cases base with
        | none => exact ⟨o, vals, inv.startNew idle hp rfl rfl⟩
        | some i => exact ⟨_, vals, inv.startSDL idle hp rfl rfl allowed⟩
    | step running access =>
      obtain ⟨o', h⟩ := inv.access running access
      exact ⟨o', vals, h⟩
    | finish running =>
      obtain ⟨vals', _, o', h⟩ := inv.doneNow running
      exact ⟨o', vals', h⟩

end

end GQL.Conc
