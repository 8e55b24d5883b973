/-
C77: calls from several goroutines.  If no schema is given to `ParseSDLDoc` while another call uses it, then there are no data races, and the results are as if
the calls had been made one after the other, in the order in which they return.
-/
import Verif.Proofs.ConcInv
import Verif.Proofs.ConcRun
import Verif.Props.C46

namespace GQL.Conc

section
variable {pf : Bytes → Option Nat} {s : State}

/-- The memory that an access needs is there, and belongs to the goroutine or is only read. -/
theorem ThreadOk.accesses {o : Nat → Owner} {vals : List Schema} {t : Nat} {th : Thread} {a : Nat} (h : ThreadOk pf s o vals t th)
    (hg : part o s.mem .glob = globals) :
    (NextWrites th.prog a → o a = .thread t) ∧ (NextReads th.prog a → ∀ u, o a = .thread u → u = t) := by
  have other : ∀ {x : Owner}, (∀ u, x ≠ .thread u) → (part o s.mem x a).isSome = true → ∀ u, o a = .thread u → u = t := by
    intro x hx h u hu
    rw [part_owner h] at hu
    exact absurd hu (hx u)
  cases h with
  | @reader c prog p v hc hp hv ro wp =>
    cases prog with
    | done => exact ⟨fun h => (by cases h), fun h => (by cases h)⟩
    | write => exact ro.elim
    | alloc => exact ro.elim
    | read b k =>
      refine ⟨fun h => (by cases h), fun h u hu => ?_⟩
      cases h
      obtain ⟨d, hd, _⟩ := wp
      rcases hd with hd | hd
      · cases hd
      · exact absurd hu (view_owner (by rw [hd]; rfl))
  | @writer c prog p v hc hp hv wp =>
    cases prog with
    | done => exact ⟨fun h => (by cases h), fun h => (by cases h)⟩
    | alloc => exact ⟨fun h => (by cases h), fun h => (by cases h)⟩
    | write b d k =>
      refine ⟨fun h => ?_, fun h => (by cases h)⟩
      cases h
      exact part_owner wp.1
    | read b k =>
      refine ⟨fun h => (by cases h), fun h u hu => ?_⟩
      cases h
      obtain ⟨d, hd, _⟩ := wp
      rcases hd with hd | hd
      · rw [part_owner (o := o) (m := s.mem) (by rw [hd]; rfl)] at hu
        cases hu
        rfl
      · rw [← hg] at hd
        exact other (x := .glob) (by simp) (by rw [hd]; rfl) u hu

/-- There are no data races. -/
theorem C77_no_race (h : Reachable pf Careful s) : ¬ Race s := by
  obtain ⟨o, vals, inv⟩ := reachable_inv h
  rintro ⟨t, u, x, y, a, hne, ht, hu, hw, hr⟩
  have h1 := ((inv.run t x ht).accesses (a := a) inv.glob).1 hw
  have h2 := (inv.run u y hu).accesses (a := a) inv.glob
  rcases hr with hr | hr
  · have := h2.1 hr
    rw [h1] at this
    cases this
    exact hne rfl
  · exact hne (h2.2 hr t h1)

/-- Reading a schema that is at rest. -/
theorem SchemaOk.reads {o : Nat → Owner} {vals : List Schema} {i a : Nat} (inv : Inv pf s o vals) (h : SchemaOk s o vals i a) (hn : ¬ Extended s i) :
    ∃ v, vals[i]? = some v ∧ Returns s.mem (readSchema a) v ∧ ∀ b, Reads s.mem (readSchema a) b → ∀ t, o b ≠ .thread t := by
  cases h with
  | @rest v ho hv h =>
    refine ⟨v, hv, ?_⟩
    have wp := readSchema_ok _ h
    have key : ∀ {α : Type} {p : Prog α} {v : α}, ReadOnly p →
        WP globals p (fun o h => (rets (fun w => ⌜w = v⌝ ⋆ RSchema globals a ‹Schema›) o).holds h) (part o s.mem (.schema i)) →
        Returns s.mem p v ∧ ∀ b, Reads s.mem p b → ∀ t, o b ≠ .thread t := by
      intro α p v
      induction p with
      | done x =>
        intro _ w
        cases x with
        | panic => exact w.elim
        | oof => exact w.elim
        | ret x =>
          rw [((pure_star _ _ _).1 w).1]
          exact ⟨.done, fun b hb => by cases hb⟩
      | write => intro ro; exact ro.elim
      | alloc => intro ro; exact ro.elim
      | read b k ih =>
        rintro ro ⟨c, hc, w⟩
        have hm : s.mem b = some c := by
          rcases hc with hc | hc
          · exact part_sub _ _ _ b c hc
          · rw [← inv.glob] at hc
            exact part_sub _ _ _ b c hc
        obtain ⟨h1, h2⟩ := ih c (ro c) w
        refine ⟨.read hm h1, fun d hd => ?_⟩
        cases hd with
        | here =>
          intro t e
          rcases hc with hc | hc
          · rw [part_owner (o := o) (m := s.mem) (x := .schema i) (a := b) (by rw [hc]; rfl)] at e
            cases e
          · rw [← inv.glob] at hc
            rw [part_owner (o := o) (m := s.mem) (x := .glob) (a := b) (by rw [hc]; rfl)] at e
            cases e
        | later h hr =>
          rw [hm] at h
          cases h
          exact h2 d hr
    exact key (readSchema_ro a) wp
  | lent ht hc hb _ => exact absurd (sdl_extended ht hc hb) hn

/-- The results so far are those that the calls have if they are made one after the other, in the order in which they returned.  Every schema that is
not just being extended contains what it contains then, and no running call is about to write anything that it consists of. -/
theorem C77_one_after_the_other (h : Reachable pf Careful s) : ∃ st, Sequential pf s.log st ∧ st.length = s.schemas.length ∧
    ∀ (i a : Nat), s.schemas[i]? = some a → ¬ Extended s i → ∃ v, st[i]? = some v ∧ Returns s.mem (readSchema a) v ∧
      ∀ (t : Nat) (x : Thread) (b : Nat), s.threads t = some x → Reads s.mem (readSchema a) b → ¬ NextWrites x.prog b := by
  obtain ⟨o, vals, inv⟩ := reachable_inv h
  refine ⟨vals, inv.seq, inv.len, fun i a hi hn => ?_⟩
  obtain ⟨v, h1, h2, h3⟩ := (inv.own i a hi).reads inv hn
  refine ⟨v, h1, h2, fun t x b hx hr hw => ?_⟩
  exact h3 b hr t (((inv.run t x hx).accesses inv.glob).1 hw)

/-- The next call to return has the result that it has if it is made then; and if a call panics (or does not end), then so it does if it is made after the calls that have returned so far. -/
theorem C77_outcome (h : Reachable pf Careful s) {t : Nat} {c : Call} {x : Out Result} (done : s.threads t = some ⟨c, .done x⟩) :
    ∃ st, Sequential pf s.log st ∧
      ((∃ r st', x = .ret r ∧ CallNow pf st c (.ret (st', (s.record r).2))) ∨ (x = .panic ∧ CallNow pf st c .panic) ∨ (x = .oof ∧ CallNow pf st c .oof)) := by
  obtain ⟨o, vals, inv⟩ := reachable_inv h
  refine ⟨vals, inv.seq, ?_⟩
  have := inv.doneNow done
  cases x with
  | panic => exact .inr (.inl ⟨rfl, this⟩)
  | oof => exact .inr (.inr ⟨rfl, this⟩)
  | ret r =>
    obtain ⟨st', now, _⟩ := this
    exact .inl ⟨r, st', rfl, now⟩

/-- No goroutine waits for another one, and none follows a pointer to nowhere: as long as its call is not done, it can make a step, and the step is not a crash. -/
theorem C77_no_blocking (h : Reachable pf Careful s) {t : Nat} {c : Call} {p : Prog Result} (running : s.threads t = some ⟨c, p⟩) :
    (∃ x, p = .done x) ∨ (∃ a k d, p = .read a k ∧ s.mem a = some d) ∨ (∃ a d k d', p = .write a d k ∧ s.mem a = some d') ∨
      (∃ d k a, p = .alloc d k ∧ s.mem a = none) := by
  obtain ⟨o, vals, inv⟩ := reachable_inv h
  have hg : Sub globals s.mem := by
    rw [← inv.glob]
    exact part_sub _ _ _
  cases inv.run t _ running with
  | @reader _ _ q v hc hp hv ro wp =>
    cases p with
    | done x => exact .inl ⟨x, rfl⟩
    | write => exact ro.elim
    | alloc => exact ro.elim
    | read a k =>
      obtain ⟨d, hd, _⟩ := wp
      exact .inr (.inl ⟨a, k, d, rfl, hd.elim (fun e => by cases e) (fun e => view_sub _ _ _ a d e)⟩)
  | @writer _ _ q v hc hp hv wp =>
    cases p with
    | done x => exact .inl ⟨x, rfl⟩
    | read a k =>
      obtain ⟨d, hd, _⟩ := wp
      exact .inr (.inl ⟨a, k, d, rfl, hd.elim (fun e => part_sub _ _ _ a d e) (hg a d)⟩)
    | write a d k =>
      obtain ⟨d', hd⟩ := Option.isSome_iff_exists.1 wp.1
      exact .inr (.inr (.inl ⟨a, d, k, d', rfl, part_sub _ _ _ a d' hd⟩))
    | alloc d k =>
      obtain ⟨N, hN⟩ := inv.fin
      exact .inr (.inr (.inr ⟨d, k, N, rfl, hN N (Nat.le_refl N)⟩))

/-- A call ends after finitely many of its own steps, whatever the other goroutines do to the memory in between. -/
theorem C77_calls_end (f : Nat → Prog Result) : ¬ ∀ n, ∃ m m', Access m (f n) m' (f (n + 1)) := by
  intro h
  have : ∀ (p : Prog Result) (n : Nat), f n ≠ p := by
    intro p
    induction p with
    | done x =>
      intro n e
      obtain ⟨m, m', hs⟩ := h n
      rw [e] at hs
      cases hs
    | read a k ih =>
      intro n e
      obtain ⟨m, m', hs⟩ := h n
      rw [e] at hs
      generalize hp : f (n + 1) = p at hs
      cases hs with
      | read => exact ih _ _ hp
      | readWild =>
        obtain ⟨m, m', hs⟩ := h (n + 1)
        rw [hp] at hs
        cases hs
    | write a c k ih =>
      intro n e
      obtain ⟨m, m', hs⟩ := h n
      rw [e] at hs
      generalize hp : f (n + 1) = p at hs
      cases hs with
      | write => exact ih _ hp
      | writeWild =>
        obtain ⟨m, m', hs⟩ := h (n + 1)
        rw [hp] at hs
        cases hs
    | alloc c k ih =>
      intro n e
      obtain ⟨m, m', hs⟩ := h n
      rw [e] at hs
      generalize hp : f (n + 1) = p at hs
      cases hs with
      | alloc => exact ih _ _ hp
  exact this _ 0 rfl

end

/-! ### Examples, and what happens if the caller is not careful -/

def asTheyAre : POrders := ⟨.id, .id, .id, plainOrders.run⟩

/-- Makes a schema. -/
def first : Call := .sdl b!"type Query{a:ID}" none 9 asTheyAre

/-- Extends it. -/
def second : Call := .sdl b!"scalar A" (some 0) 9 asTheyAre

theorem first_runs (pf : Bytes → Option Nat) : (runFor 45 2 globals (first.prog pf none)).2.2 = .done (.ret (.sdl ⟨some 4, none, none⟩)) ∧
    (runFor 45 2 globals (first.prog pf none)).1 = 9 := by
  unfold Call.prog parseSDLDoc
  dsimp only [first]
  rw [(parse_eq (ts := [⟨.name, b!"type", 1, 1⟩, ⟨.name, b!"Query", 1, 6⟩, ⟨.punctuator, b!"{", 1, 11⟩, ⟨.name, b!"a", 1, 12⟩, ⟨.punctuator, b!":", 1, 13⟩, ⟨.name, b!"ID", 1, 14⟩, ⟨.punctuator, b!"}", 1, 16⟩, ⟨.eof, [], 1, 17⟩]) (by decide) rfl)]
  exact ⟨rfl, rfl⟩

theorem second_runs (pf : Bytes → Option Nat) :
    NextWrites (runFor 21 9 (runFor 45 2 globals (first.prog pf none)).2.1 (second.prog pf (some 4))).2.2 4 := by
  unfold Call.prog parseSDLDoc
  dsimp only [first, second]
  rw [(parse_eq (ts := [⟨.name, b!"type", 1, 1⟩, ⟨.name, b!"Query", 1, 6⟩, ⟨.punctuator, b!"{", 1, 11⟩, ⟨.name, b!"a", 1, 12⟩, ⟨.punctuator, b!":", 1, 13⟩, ⟨.name, b!"ID", 1, 14⟩, ⟨.punctuator, b!"}", 1, 16⟩, ⟨.eof, [], 1, 17⟩]) (by decide) rfl), (parse_eq (ts := [⟨.name, b!"scalar", 1, 1⟩, ⟨.name, b!"A", 1, 8⟩, ⟨.eof, [], 1, 9⟩]) (by decide) rfl)]
  exact .write

/-- The first call has returned. -/
theorem first_reachable (pf : Bytes → Option Nat) (ok : State → Call → Prop) (h : ok .init first) :
    ∃ m, Reachable pf ok ⟨m, [4], fun _ => none, [(first, .sdl ⟨some 0, none, none⟩)]⟩ ∧ (∀ a, 9 ≤ a → m a = none) ∧
      NextWrites (runFor 21 9 m (second.prog pf (some 4))).2.2 4 := by
  obtain ⟨e1, e2⟩ := first_runs pf
  have e3 := second_runs pf
  have h0 : Reachable pf ok ⟨globals, [], setThread (fun _ => none) 0 (some ⟨first, first.prog pf none⟩), []⟩ :=
    .step .init (.start (s := .init) (t := 0) (c := first) (p := none) rfl .nil h)
  generalize first.prog pf none = P at e1 e2 e3 h0
  generalize second.prog pf (some 4) = P' at e3 ⊢
  obtain ⟨h1, h2⟩ := runFor_reachable 45 2 (t := 0) (c := first) (p := P) h0 (by dsimp only; exact setThread_at) (by
    intro a ha
    match a, ha with
    | a + 2, _ => rfl)
  dsimp only at h1 h2
  generalize runFor 45 2 globals P = R at e1 e2 e3 h1 h2
  obtain ⟨x, m, p⟩ := R
  dsimp only at e1 e2 e3 h1 h2
  subst e1 e2
  rw [setThread_setThread] at h1
  refine ⟨m, ?_, h2, e3⟩
  have h3 := Reachable.step h1 (.finish (t := 0) (c := first) (r := .sdl ⟨some 4, none, none⟩) (by dsimp only; exact setThread_at))
  dsimp only at h3
  rw [setThread_setThread] at h3
  rw [show (fun _ => none : Nat → Option Thread) = setThread (fun _ => none) 0 none from by funext u; simp [setThread]]
  exact h3

/-- Without care there are data races: when one goroutine extends a schema with `ParseSDLDoc` and another one uses the same schema in any way. -/
theorem C77_careless_race (pf : Bytes → Option Nat) (c : Call) (hc : c.base = some 0) : ∃ s, Reachable pf Anything s ∧ Race s ∧
    (∃ p, s.threads 0 = some ⟨second, p⟩) ∧ (∃ p, s.threads 1 = some ⟨c, p⟩) := by
  obtain ⟨m, h1, h2, e⟩ := first_reachable pf Anything trivial
  have hn : NextReads (c.prog pf (some 4)) 4 := by
    cases c <;> exact .read
  have h3 := Reachable.step h1 (.start (t := 0) (c := second) (p := some 4) rfl (.at rfl) trivial)
  obtain ⟨h4, -⟩ := runFor_reachable 21 9 (t := 0) (c := second) (p := second.prog pf (some 4)) h3 (by dsimp only; exact setThread_at) h2
  dsimp only at h4
  generalize runFor 21 9 m (second.prog pf (some 4)) = R at h4 e
  obtain ⟨x, m', p⟩ := R
  dsimp only at h4 e
  rw [setThread_setThread] at h4
  refine ⟨_, .step h4 (.start (t := 1) (c := c) (p := some 4) rfl (by rw [hc]; exact .at rfl) trivial), ?_, ⟨p, rfl⟩, ⟨_, rfl⟩⟩
  exact ⟨0, 1, _, _, 4, by decide, rfl, rfl, e, .inr hn⟩

/-- The hypotheses of the theorems are met, for example, when three calls run and two of them use the same schema. -/
example (pf : Bytes → Option Nat) : ∃ s, Reachable pf Careful s ∧ s.log = [(first, .sdl ⟨some 0, none, none⟩)] ∧
    (∃ p, s.threads 0 = some ⟨.doc b!"{a}" (some 0), p⟩) ∧ (∃ p, s.threads 1 = some ⟨.look 0, p⟩) ∧ (∃ p, s.threads 2 = some ⟨first, p⟩) := by
  obtain ⟨m, h1, -⟩ := first_reachable pf Careful trivial
  have h2 := Reachable.step h1 (.start (t := 0) (c := .doc b!"{a}" (some 0)) (p := some 4) rfl (.at rfl) (by
    rintro ⟨_, _, _, _, _, h⟩; cases h))
  have h3 := Reachable.step h2 (.start (t := 1) (c := .look 0) (p := some 4) rfl (.at rfl) (by
    rintro ⟨t, _, _, _, _, h⟩
    match t, h with
    | 0, h => cases h
    | t + 1, h => cases h))
  exact ⟨_, .step h3 (.start (t := 2) (c := first) (p := none) rfl .nil trivial), rfl, ⟨_, rfl⟩, ⟨_, rfl⟩, ⟨_, rfl⟩⟩

/-- A careful caller may extend the schema afterwards; then nobody else may use it. -/
example (pf : Bytes → Option Nat) : ∃ s, Reachable pf Careful s ∧ (∃ p, s.threads 0 = some ⟨second, p⟩ ∧ NextWrites p 4) ∧ ¬ Careful s (.look 0) := by
  obtain ⟨m, h1, h2, e⟩ := first_reachable pf Careful trivial
  have h3 := Reachable.step h1 (.start (t := 0) (c := second) (p := some 4) rfl (.at rfl) (by rintro ⟨_, _, h, _⟩; cases h))
  obtain ⟨h4, -⟩ := runFor_reachable 21 9 (t := 0) (c := second) (p := second.prog pf (some 4)) h3 (by dsimp only; exact setThread_at) h2
  dsimp only at h4
  generalize runFor 21 9 m (second.prog pf (some 4)) = R at h4 e
  obtain ⟨x, m', p⟩ := R
  dsimp only at h4 e
  rw [setThread_setThread] at h4
  exact ⟨_, h4, ⟨p, rfl, e⟩, fun h => h ⟨0, _, _, _, _, rfl⟩⟩

end GQL.Conc
