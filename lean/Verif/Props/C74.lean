/-
C74: schemas share no mutable state.
-/
import Verif.Proofs.HeapCalls
import Verif.Proofs.ParseTop
import Verif.Props.C46

namespace GQL
open Spec (SDLCall SameCall)

variable {pf : Bytes → Option Nat}

/-- A history of calls on the memory. -/
def PState.calls (pf : Bytes → Option Nat) : List (SDLCall POrders) → PState → Out (PState × List PResult)
  | [], st => .ret (st, [])
  | c :: cs, st => (st.parseSDLDoc pf c.fuel c.ord c.input c.base).bind fun r => (PState.calls pf cs r.1).bind fun q => .ret (q.1, r.2 :: q.2)

theorem readAll_is {m : PMem} {A : AMem} (h : Is m A) : ∀ {l : List PSchema}, (∀ p ∈ l, A.Has p) → m.readAll l = .ret (l.map A.schema)
  | [], _ => rfl
  | p :: l, hl => by
    unfold PMem.readAll
    rw [readSchema_is h (hl p (by simp)), Out.bind_ret, readAll_is h fun q hq => hl q (by simp [hq])]
    rfl

theorem Good.read {st : PState} {A : AMem} (h : Good st A) : st.read = .ret (A.store st) := readAll_is h.mem h.has

theorem calls_is : ∀ (cs : List (SDLCall POrders)) {st : PState} {A : AMem}, Good st A →
    ∃ ds, ds.length = cs.length ∧ (∀ x ∈ cs.zip ds, SameCall x.1 x.2) ∧
      ((∃ st' A' rs, st.calls pf cs = .ret (st', rs) ∧ Good st' A' ∧ Spec.calls pf ds (A.store st) = .ret (A'.store st', rs)) ∨
       (st.calls pf cs = .panic ∧ Spec.calls pf ds (A.store st) = .panic) ∨
       (st.calls pf cs = .oof ∧ Spec.calls pf ds (A.store st) = .oof))
  | [], st, A, hG => ⟨[], rfl, by simp, .inl ⟨st, A, [], rfl, hG, rfl⟩⟩
  | c :: cs, st, A, hG => by
    obtain ⟨d, h1, h2⟩ := call_is hG pf c
    unfold PState.calls
    rcases h2 with ⟨st1, A1, r, e1, g1, e2⟩ | ⟨e1, e2⟩ | ⟨e1, e2⟩
    · obtain ⟨ds, k1, k2, k3⟩ := calls_is cs g1
      refine ⟨d :: ds, by simp [k1], ?_, ?_⟩
      · intro x hx
        rcases List.mem_cons.1 hx with rfl | hx
        · exact h1
        · exact k2 x hx
      · unfold Spec.calls
        rw [e1, e2, Out.bind_ret, Out.bind_ret]
        rcases k3 with ⟨st', A', rs, e3, g3, e4⟩ | ⟨e3, e4⟩ | ⟨e3, e4⟩
        · dsimp only
          rw [e3, e4]
          exact .inl ⟨st', A', r :: rs, rfl, g3, rfl⟩
        · dsimp only
          rw [e3, e4]
          exact .inr (.inl ⟨rfl, rfl⟩)
        · dsimp only
          rw [e3, e4]
          exact .inr (.inr ⟨rfl, rfl⟩)
    all_goals
      obtain ⟨ds, k1, k2⟩ : ∃ ds, ds.length = cs.length ∧ ∀ x ∈ cs.zip ds, SameCall x.1 x.2 :=
        ⟨cs.map fun c => ⟨c.input, c.base, c.fuel, ⟨⟨.id, c.ord.dirs, .id⟩, c.ord.run⟩⟩, by simp, by
          intro x hx
          rw [List.zip_map_right, List.mem_map] at hx
          obtain ⟨y, hy, rfl⟩ := hx
          obtain ⟨a, b⟩ := y
          have hab : a = b := by
            have := List.of_mem_zip hy
            clear this
            obtain ⟨i, hi⟩ := List.getElem?_of_mem hy
            rw [List.getElem?_zip_eq_some] at hi
            exact Option.some.inj (hi.1.symm.trans hi.2)
          subst hab
          exact ⟨rfl, rfl, rfl, rfl, rfl⟩⟩
      refine ⟨d :: ds, by simp [k1], fun x hx => ?_, ?_⟩
      · rcases List.mem_cons.1 hx with rfl | hx
        · exact h1
        · exact k2 x hx
      · unfold Spec.calls
        rw [e1, e2]
        simp [Out.bind]

/-- **C74**: whatever calls of `ParseSDLDoc` a program makes, with new schemas and with those that earlier calls returned, with pointers, shared list nodes and
in-place `Join`, what it sees is what it would see if every schema were a separate value (Spec/Store.lean): same results, and at the end every schema has the
contents that the calls it was passed to gave it. -/
theorem C74_histories (cs : List (SDLCall POrders)) : ∃ ds : List (SDLCall Orders), ds.length = cs.length ∧ (∀ x ∈ cs.zip ds, SameCall x.1 x.2) ∧
    ((PState.init.calls pf cs).bind fun r => r.1.read.bind fun store => .ret (store, r.2)) = Spec.calls pf ds [] := by
  obtain ⟨A, hG⟩ := Good.init
  obtain ⟨ds, h1, h2, h3⟩ := calls_is (pf := pf) cs hG
  refine ⟨ds, h1, h2, ?_⟩
  rcases h3 with ⟨st', A', rs, e1, g1, e2⟩ | ⟨e1, e2⟩ | ⟨e1, e2⟩
  · replace e2 : Spec.calls pf ds [] = _ := e2
    rw [e1, e2, Out.bind_ret, g1.read]
    rfl
  · replace e2 : Spec.calls pf ds [] = _ := e2
    rw [e1, e2]
    rfl
  · replace e2 : Spec.calls pf ds [] = _ := e2
    rw [e1, e2]
    rfl

/-- The states that a program can reach. -/
def PState.Reachable (pf : Bytes → Option Nat) (st : PState) : Prop := ∃ cs rs, PState.init.calls pf cs = .ret (st, rs)

theorem PState.Reachable.good {st : PState} (h : st.Reachable pf) : ∃ A, Good st A := by
  obtain ⟨cs, rs, h⟩ := h
  obtain ⟨A, hG⟩ := Good.init
  obtain ⟨ds, -, -, h3⟩ := calls_is (pf := pf) cs hG
  rcases h3 with ⟨st', A', rs', e1, g1, -⟩ | ⟨e1, -⟩ | ⟨e1, -⟩
  · rw [h] at e1
    cases e1
    exact ⟨A', g1⟩
  · rw [h] at e1; cases e1
  · rw [h] at e1; cases e1

/-- **C74**: a call changes the contents of no schema other than the one that it is given. -/
theorem C74_others {st st' : PState} {r : PResult} (h : st.Reachable pf) {fuel : Nat} {ord : POrders} {input : Bytes} {base : Option Nat}
    (hc : st.parseSDLDoc pf fuel ord input base = .ret (st', r)) {i : Nat} (hi : i < st.schemas.length) (hb : base ≠ some i) :
    ∃ store store', st.read = .ret store ∧ st'.read = .ret store' ∧ i < store.length ∧ store'[i]? = store[i]? := by
  obtain ⟨A, hG⟩ := h.good
  obtain ⟨⟨dinput, dbase, dfuel, dord⟩, ⟨hd1, hd2, hd3, -, -⟩, hd⟩ := call_is hG pf ⟨input, base, fuel, ord⟩
  dsimp only at hd hd1 hd2 hd3
  subst hd1 hd2 hd3
  rw [hc] at hd
  rcases hd with ⟨st1, A1, r1, e1, g1, e2⟩ | ⟨e1, -⟩ | ⟨e1, -⟩
  · cases e1
    have hlen : (A.store st).length = st.schemas.length := List.length_map _
    refine ⟨_, _, hG.read, g1.read, by rw [hlen]; exact hi, ?_⟩
    unfold Spec.call at e2
    cases dbase with
    | none =>
      dsimp only at e2
      cases hx : parseSDLDoc pf dfuel dord dinput none with
      | panic => rw [hx] at e2; cases e2
      | oof => rw [hx] at e2; cases e2
      | ret x =>
        rw [hx, Out.bind_ret] at e2
        have e2 := congrArg Prod.fst (Out.ret.inj e2)
        dsimp only at e2
        rw [← e2]
        unfold Spec.callNew
        split
        · rfl
        · exact List.getElem?_append_left (by rw [hlen]; exact hi)
    | some j =>
      dsimp only at e2
      split at e2
      · cases e2
      · rename_i b hb'
        cases hx : parseSDLDoc pf dfuel dord dinput (some b) with
        | panic => rw [hx] at e2; cases e2
        | oof => rw [hx] at e2; cases e2
        | ret x =>
          rw [hx, Out.bind_ret] at e2
          have e2 := congrArg Prod.fst (Out.ret.inj e2)
          dsimp only at e2
          rw [← e2]
          unfold Spec.callOn
          exact List.getElem?_set_ne fun e => hb (by rw [e])
  · cases e1
  · cases e1

/-- **C74**: the global variables `IDType` and `StringType`, which all schemas share, never change. -/
theorem C74_globals {st : PState} (h : st.Reachable pf) : st.mem.readType 0 = .ret idType ∧ st.mem.readType 1 = .ret stringType := by
  obtain ⟨A, hG⟩ := h.good
  exact ⟨(readType_is hG.mem hG.globals.id.1).trans (by rw [hG.globals.id.2]), (readType_is hG.mem hG.globals.string.1).trans (by rw [hG.globals.string.2])⟩

/-- **C74**: in every state that a program can reach, everything its schemas point to can be read. -/
theorem C74_readable {st : PState} (h : st.Reachable pf) : ∃ store, st.read = .ret store ∧ store.length = st.schemas.length := by
  obtain ⟨A, hG⟩ := h.good
  exact ⟨_, hG.read, List.length_map _⟩


def plainPOrders : POrders := ⟨.id, .id, .id, plainRun⟩

/-- Two schemas are made, both of which point to `IDType`; then the first one is passed in with a document that extends its type and `ID`.  (That call fails,
because the default root type is not among the new types: C46; the first schema has changed nevertheless.) -/
example : ∃ st rs store, PState.init.calls pf [⟨b!"type Query{a:ID}extend type Query{b:ID}", none, 9, plainPOrders⟩, ⟨b!"type Query{c:ID}", none, 9, plainPOrders⟩,
      ⟨b!"directive@d on SCALAR type Z{q:Z}extend type Query{z:ID}extend scalar ID@d", some 0, 9, plainPOrders⟩] = .ret (st, rs) ∧
    st.Reachable pf ∧ rs.map (·.schema) = [some 0, some 1, none] ∧ st.read = .ret store ∧
    store.map (fun s => s.types.map fun p => (p.1, p.2.fields.map (·.name))) =
      [[(b!"Z", [b!"q"])], [(b!"Query", [b!"c"]), (b!"ID", []), (b!"String", [])]] := by
  have h : ∃ st rs, PState.init.calls pf [⟨b!"type Query{a:ID}extend type Query{b:ID}", none, 9, plainPOrders⟩, ⟨b!"type Query{c:ID}", none, 9, plainPOrders⟩,
      ⟨b!"directive@d on SCALAR type Z{q:Z}extend type Query{z:ID}extend scalar ID@d", some 0, 9, plainPOrders⟩] = .ret (st, rs) ∧
      rs.map (·.schema) = [some 0, some 1, none] ∧ ∃ store, st.read = .ret store ∧
    store.map (fun s => s.types.map fun p => (p.1, p.2.fields.map (·.name))) =
      [[(b!"Z", [b!"q"])], [(b!"Query", [b!"c"]), (b!"ID", []), (b!"String", [])]] := by
    simp only [PState.calls, PState.parseSDLDoc]
    rw [(parse_eq (ts := [⟨.name, b!"type", 1, 1⟩, ⟨.name, b!"Query", 1, 6⟩, ⟨.punctuator, b!"{", 1, 11⟩, ⟨.name, b!"a", 1, 12⟩, ⟨.punctuator, b!":", 1, 13⟩, ⟨.name, b!"ID", 1, 14⟩, ⟨.punctuator, b!"}", 1, 16⟩, ⟨.name, b!"extend", 1, 17⟩, ⟨.name, b!"type", 1, 24⟩, ⟨.name, b!"Query", 1, 29⟩, ⟨.punctuator, b!"{", 1, 34⟩, ⟨.name, b!"b", 1, 35⟩, ⟨.punctuator, b!":", 1, 36⟩, ⟨.name, b!"ID", 1, 37⟩, ⟨.punctuator, b!"}", 1, 39⟩, ⟨.eof, [], 1, 40⟩]) (by decide) rfl), (parse_eq (ts := [⟨.name, b!"type", 1, 1⟩, ⟨.name, b!"Query", 1, 6⟩, ⟨.punctuator, b!"{", 1, 11⟩, ⟨.name, b!"c", 1, 12⟩, ⟨.punctuator, b!":", 1, 13⟩, ⟨.name, b!"ID", 1, 14⟩, ⟨.punctuator, b!"}", 1, 16⟩, ⟨.eof, [], 1, 17⟩]) (by decide) rfl), (parse_eq (ts := [⟨.name, b!"directive", 1, 1⟩, ⟨.punctuator, b!"@", 1, 10⟩, ⟨.name, b!"d", 1, 11⟩, ⟨.name, b!"on", 1, 13⟩, ⟨.name, b!"SCALAR", 1, 16⟩, ⟨.name, b!"type", 1, 23⟩, ⟨.name, b!"Z", 1, 28⟩, ⟨.punctuator, b!"{", 1, 29⟩, ⟨.name, b!"q", 1, 30⟩, ⟨.punctuator, b!":", 1, 31⟩, ⟨.name, b!"Z", 1, 32⟩, ⟨.punctuator, b!"}", 1, 33⟩, ⟨.name, b!"extend", 1, 34⟩, ⟨.name, b!"type", 1, 41⟩, ⟨.name, b!"Query", 1, 46⟩, ⟨.punctuator, b!"{", 1, 51⟩, ⟨.name, b!"z", 1, 52⟩, ⟨.punctuator, b!":", 1, 53⟩, ⟨.name, b!"ID", 1, 54⟩, ⟨.punctuator, b!"}", 1, 56⟩, ⟨.name, b!"extend", 1, 57⟩, ⟨.name, b!"scalar", 1, 64⟩, ⟨.name, b!"ID", 1, 71⟩, ⟨.punctuator, b!"@", 1, 73⟩, ⟨.name, b!"d", 1, 74⟩, ⟨.eof, [], 1, 75⟩]) (by decide) rfl)]
    exact ⟨_, _, rfl, rfl, _, rfl, rfl⟩
  obtain ⟨st, rs, h1, h2, store, h3, h4⟩ := h
  exact ⟨st, rs, store, h1, ⟨_, _, h1⟩, h2, h3, h4⟩

end GQL
