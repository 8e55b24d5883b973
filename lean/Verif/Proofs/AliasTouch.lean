/-
Which strings are windows on the input buffer, and that every document has one (for C83).
-/
import Verif.Proofs.AliasParse
import Verif.Proofs.Named

namespace GQL

/-- Where the text of a token is, by its kind. -/
structure Placed (t : ATok) (l' : Lexer) : Prop where
  word : t.kind = .name ∨ t.kind = .intValue ∨ t.kind = .floatValue → ∃ off len, t.lit = .view off len ∧ off + len = l'.pos
  punct : t.kind = .punctuator → t.lit = .own b!"..." ∨ ∃ off len, t.lit = .view off len ∧ off + len = l'.pos
  none : t.kind = .illegal ∨ t.kind = .eof → ∃ x, t.lit = .own x

theorem btosSlice_view {b : Bytes} {i j : Nat} {s : Str} (h : btosSlice b i j = some s) : ∃ off len, s = .view off len ∧ off + len = j := by
  unfold btosSlice at h
  split at h
  · cases h; exact ⟨_, _, rfl, by omega⟩
  · cases h

theorem Placed.ofOwn {k : TokenKind} {x : Bytes} {ln : Nat} {col : Int} {l' : Lexer} (h : k = .illegal ∨ k = .eof ∨ k = .stringValue) : Placed ⟨k, .own x, ln, col⟩ l' := by
  refine ⟨?_, ?_, fun _ => ⟨_, rfl⟩⟩
  · rcases h with rfl | rfl | rfl <;> simp
  · rcases h with rfl | rfl | rfl <;> simp

theorem Placed.ofStr {s : Str} {ln : Nat} {col : Int} {l' : Lexer} : Placed ⟨.stringValue, s, ln, col⟩ l' := by
  refine ⟨?_, ?_, ?_⟩ <;> simp

theorem scanNameA_placed {l l' : Lexer} {t : ATok} (h : scanNameA l = .ret (t, l')) : Placed t l' := by
  unfold scanNameA at h
  split at h
  · cases h
  · cases h
  · rename_i m _
    split at h
    · cases h
    · rename_i s e
      cases h
      obtain ⟨o, n, h1, h2⟩ := btosSlice_view e
      exact ⟨fun _ => ⟨o, n, h1, h2⟩, by simp, by simp⟩

theorem scanPunctuatorA_placed {l l' : Lexer} {r w : Nat} {t : ATok} (h : scanPunctuatorA l r w = .ret (t, l')) : Placed t l' := by
  unfold scanPunctuatorA at h
  split at h
  · dsimp only at h
    split at h
    · cases h; exact .ofOwn (.inl rfl)
    · cases h; exact ⟨by simp, fun _ => .inl rfl, by simp⟩
  · split at h
    · cases h
    · rename_i s e
      cases h
      obtain ⟨o, n, h1, h2⟩ := btosSlice_view e
      exact ⟨by simp, fun _ => .inr ⟨o, n, h1, h2⟩, by simp⟩

theorem numberEndA_placed {l0 l l' : Lexer} {f : Bool} {r w : Nat} {t : ATok} (h : numberEndA l0 f r w l = .ret (t, l')) : Placed t l' := by
  unfold numberEndA at h
  dsimp only at h
  generalize (if r ≠ 0 then l.unread w else l) = m at h
  split at h
  · cases h
  · rename_i s e
    cases h
    obtain ⟨o, n, h1, h2⟩ := btosSlice_view e
    exact ⟨fun _ => ⟨o, n, h1, h2⟩, by cases f <;> simp, by cases f <;> simp⟩

theorem numberExpA_placed {l0 l l' : Lexer} {f : Bool} {r w : Nat} {t : ATok} (h : numberExpA l0 f r w l = .ret (t, l')) : Placed t l' := by
  unfold numberExpA at h
  split at h
  · dsimp only at h
    split at h
    · exact numberEndA_placed h
    · cases h; exact .ofOwn (.inl rfl)
    · cases h
    · cases h
  · exact numberEndA_placed h

theorem numberFracA_placed {l0 l l' : Lexer} {r w : Nat} {t : ATok} (h : numberFracA l0 r w l = .ret (t, l')) : Placed t l' := by
  unfold numberFracA at h
  split at h
  · dsimp only at h
    split at h
    · exact numberExpA_placed h
    · cases h; exact .ofOwn (.inl rfl)
    · cases h
    · cases h
  · exact numberExpA_placed h

theorem scanNumberA_placed {l l' : Lexer} {r : Nat} {t : ATok} (h : scanNumberA l r = .ret (t, l')) : Placed t l' := by
  unfold scanNumberA at h
  dsimp only at h
  split at h
  · split at h
    · cases h; exact .ofOwn (.inl rfl)
    · exact numberFracA_placed h
  · split at h
    · exact numberFracA_placed h
    · cases h; exact .ofOwn (.inl rfl)
    · cases h
    · cases h

theorem scanStringA_placed {l l' : Lexer} {t : ATok} (h : scanStringA l = .ret (t, l')) : Placed t l' := by
  unfold scanStringA at h
  split at h
  · cases h
  · cases h
  · cases h; exact .ofOwn (.inl rfl)
  · split at h
    · cases e : stringPass2 l.lpos l.line l.fuel [] l with
      | panic => rw [e] at h; cases h
      | oof => rw [e] at h; cases h
      | ret x =>
        obtain ⟨u, m⟩ := x
        rw [e] at h
        cases h
        have := stringPass2_kind e
        exact .ofOwn (by rcases this with h | h <;> simp [h])
    · split at h
      · cases h
      · cases h; exact .ofStr

theorem scanBlockStringA_placed {l l' : Lexer} {t : ATok} (h : scanBlockStringA l = .ret (t, l')) : Placed t l' := by
  unfold scanBlockStringA at h
  dsimp only at h
  split at h
  · cases h
  · cases h
  · cases h; exact .ofOwn (.inl rfl)
  · split at h
    · split at h
      · cases h
      · cases h; exact .ofStr
    · split at h
      · cases h
      · cases h
      · cases h; exact .ofOwn (.inl rfl)
      · cases h; exact .ofStr

theorem scanFA_placed : ∀ (n : Nat) (l : Lexer) (t : ATok) (l' : Lexer), scanFA n l = .ret (t, l') → Placed t l'
  | 0, _, _, _, h => by cases h
  | n + 1, l, t, l', h => by
    rw [scanFA] at h
    split at h
    · cases h
    · cases h
    · split at h
      · exact scanNameA_placed h
      · split at h
        · exact scanPunctuatorA_placed h
        · split at h
          · exact scanNumberA_placed h
          · split at h
            · split at h
              · cases h
              · cases h
              · exact scanFA_placed n _ t l' h
            · split at h
              · dsimp only at h
                split at h
                · exact scanBlockStringA_placed h
                · exact scanStringA_placed h
              · split at h
                · cases h; exact .ofOwn (.inr (.inl rfl))
                · cases h; exact .ofOwn (.inl rfl)

theorem scanA_placed {l l' : Lexer} {t : ATok} (h : scanA l = .ret (t, l')) : Placed t l' := scanFA_placed _ _ _ _ h

theorem tokensFA_name : ∀ (n : Nat) (l : Lexer) (ts : List ATok), tokensFA n l = .ret ts → ∀ t ∈ ts, t.kind = .name → ∃ off len, t.lit = .view off len
  | 0, _, _, h => by cases h
  | n + 1, l, ts, h => by
    rw [tokensFA] at h
    cases e : scanA l with
    | panic => rw [e] at h; cases h
    | oof => rw [e] at h; cases h
    | ret p =>
      obtain ⟨t, l'⟩ := p
      rw [e] at h
      dsimp only at h
      have ht : t.kind = .name → ∃ off len, t.lit = .view off len := fun hk =>
        let ⟨o, n, h1, _⟩ := (scanA_placed e).word (.inl hk)
        ⟨o, n, h1⟩
      split at h
      · cases h
        intro u hu
        rw [List.mem_singleton] at hu
        subst hu; exact ht
      · cases e2 : tokensFA n l' with
        | panic => rw [e2] at h; cases h
        | oof => rw [e2] at h; cases h
        | ret us =>
          rw [e2] at h
          cases h
          intro u hu
          rcases List.mem_cons.1 hu with rfl | hu
          · exact ht
          · exact tokensFA_name n l' us e2 u hu

/-- Every byte changed. -/
def flipAll (b : Bytes) : Bytes := b.map (fun x => if x = 0 then 1 else 0)

theorem flipAll_length (b : Bytes) : (flipAll b).length = b.length := List.length_map ..

theorem flipAll_view (b : Bytes) (off len : Nat) (h : (Str.view off len).value b ≠ []) : (Str.view off len).value (flipAll b) ≠ (Str.view off len).value b := by
  intro h2
  unfold Str.value flipAll at *
  dsimp only at *
  rw [← List.map_drop, ← List.map_take] at h2
  cases e : (b.drop off).take len with
  | nil => exact h e
  | cons x t =>
    rw [e, List.map_cons, List.cons.injEq] at h2
    have := h2.1
    split at this <;> omega

/-- A name that is not what it was. -/
def NameMoved (inp b' : Bytes) (t : ATok) : Prop := t.kind = .name → t.lit.value b' ≠ t.lit.value inp

theorem tokens_moved {inp : Bytes} {ts : List ATok} (h : tokensA inp = .ret ts) : ∀ t ∈ ts, NameMoved inp (flipAll inp) t := by
  intro t ht hk
  obtain ⟨off, len, e⟩ := tokensFA_name _ _ _ h t ht hk
  have h1 := tokensA_read inp
  rw [h] at h1
  have h2 := tokens_named h1.symm (t.read inp) (List.mem_map_of_mem ht) hk
  rw [e]
  apply flipAll_view
  have : (t.read inp).lit = t.lit.value inp := rfl
  rw [this, e] at h2
  exact h2

section
variable (inp b' : Bytes)

/-- All results have `Q`, and leave tokens the names of which have moved. -/
def ViaA {α : Type} (Q : α → Prop) (p : PA α) : Prop :=
  ∀ ts a r, (∀ t ∈ ts, NameMoved inp b' t) → p ts = .ok a r → Q a ∧ ∀ t ∈ r, NameMoved inp b' t

end

section
variable {inp b' : Bytes} {α β : Type} {Q : α → Prop} {Q' : β → Prop}

theorem goodMoved : GoodTok inp inp (NameMoved inp b') := ⟨fun _ _ => rfl, by intro h; cases h⟩

theorem via_com {α' : Type} {R : α → α' → Prop} {p : PA α} {q : P α'} (h : Com inp (NameMoved inp b') R p q) : ViaA inp b' (fun _ => True) p := by
  intro ts a r hts e
  have := h ts hts
  rw [e] at this
  generalize q _ = y at this
  cases this with
  | ok h1 h2 => exact ⟨trivial, h2⟩

theorem viaA_bind {p : PA α} {f : α → PA β} (h1 : ViaA inp b' Q p) (h2 : ∀ a, Q a → ViaA inp b' Q' (f a)) : ViaA inp b' Q' (p >>= f) := by
  intro ts a r hts e
  replace e : PA.bind p f ts = .ok a r := e
  unfold PA.bind at e
  split at e
  · rename_i x y ex
    obtain ⟨h3, h4⟩ := h1 _ _ _ hts ex
    exact h2 _ h3 _ _ _ h4 e
  · cases e
  · cases e
  · cases e

theorem viaA_pure {a : α} (h : Q a) : ViaA inp b' Q (pure a : PA α) := by
  intro ts x r hts e
  cases e
  exact ⟨h, hts⟩

theorem via_fail {e : PErr} : ViaA inp b' Q (failA e : PA α) := by intro _ _ _ _ e; cases e
theorem via_crash : ViaA inp b' Q (crashA : PA α) := by intro _ _ _ _ e; cases e
theorem via_oof : ViaA inp b' Q (outOfFuelA : PA α) := by intro _ _ _ _ e; cases e

theorem viaA_ite {c : Prop} [Decidable c] {p q : PA α} (h1 : c → ViaA inp b' Q p) (h2 : ¬ c → ViaA inp b' Q q) : ViaA inp b' Q (if c then p else q) := by
  by_cases h : c
  · rw [if_pos h]; exact h1 h
  · rw [if_neg h]; exact h2 h

theorem via_unexpected (ws : List Bytes) : ViaA inp b' Q (unexpectedCurA inp ws : PA α) := by
  intro ts a r hts e
  cases e

theorem via_name : ViaA inp b' (fun t => t.lit.value b' ≠ t.lit.value inp) (mustConsume0A inp .name) := by
  intro ts a r hts e
  have := com_mustConsume0 (goodMoved (inp := inp) (b' := b')) .name ts hts
  rw [e] at this
  generalize mustConsume0 _ _ = y at this
  cases this with
  | ok h1 h2 => exact ⟨h1.2.1 h1.2.2, h2⟩

theorem via_doWhileF {p : PA α} {c : PA Bool} (h1 : ViaA inp b' Q p) (h2 : ViaA inp b' (fun _ => True) c) (n : Nat) :
    ViaA inp b' (fun l => l ≠ [] ∧ ∀ a ∈ l, Q a) (doWhileFA p c n) := by
  induction n with
  | zero => exact via_oof
  | succ n ih =>
    refine viaA_bind h1 fun a ha => viaA_bind h2 fun x _ => viaA_ite (fun _ => viaA_pure ⟨by simp, by simpa using ha⟩) fun _ => viaA_bind ih fun as has => viaA_pure ⟨by simp, ?_⟩
    intro y hy
    rcases List.mem_cons.1 hy with rfl | hy
    · exact ha
    · exact has.2 y hy

theorem via_doWhile {p : PA α} {c : PA Bool} (h1 : ViaA inp b' Q p) (h2 : ViaA inp b' (fun _ => True) c) :
    ViaA inp b' (fun l => l ≠ [] ∧ ∀ a ∈ l, Q a) (doWhileA p c) := fun ts a r hts e => via_doWhileF h1 h2 _ ts a r hts e

theorem via_untilDoF {p : PA α} {c : PA Bool} (h2 : ViaA inp b' (fun _ => True) c) (h1 : ViaA inp b' Q p) (n : Nat) :
    ViaA inp b' (fun l => ∀ a ∈ l, Q a) (untilDoFA c p n) := by
  induction n with
  | zero => exact via_oof
  | succ n ih =>
    refine viaA_bind h2 fun x _ => viaA_ite (fun _ => viaA_pure (by simp)) fun _ => viaA_bind h1 fun a ha => viaA_bind ih fun as has => viaA_pure ?_
    intro y hy
    rcases List.mem_cons.1 hy with rfl | hy
    · exact ha
    · exact has y hy

theorem via_untilDo {p : PA α} {c : PA Bool} (h2 : ViaA inp b' (fun _ => True) c) (h1 : ViaA inp b' Q p) :
    ViaA inp b' (fun l => ∀ a ∈ l, Q a) (untilDoA c p) := fun ts a r hts e => via_untilDoF h2 h1 _ ts a r hts e

theorem map_moved {f g : α → β} {l : List α} (h0 : l ≠ []) (h : ∀ a ∈ l, f a ≠ g a) : l.map f ≠ l.map g := by
  cases l with
  | nil => exact absurd rfl h0
  | cons a l =>
    intro e
    rw [List.map_cons, List.map_cons, List.cons.injEq] at e
    exact h a (List.mem_cons_self ..) e.1

end

section
variable {inp b' : Bytes} (pf : Bytes → Option Nat)

theorem parseTypeA_via (n : Nat) : ViaA inp b' (fun t => ∀ x o, t = .named x o → x.value b' ≠ x.value inp) (parseTypeA inp n) := by
  have hg := goodMoved (inp := inp) (b' := b')
  intro ts a r hts e
  have hr := (via_com (parseTypeA_com hg n) ts a r hts e).2
  refine ⟨?_, hr⟩
  cases n with
  | zero => cases e
  | succ n =>
    have k : ∀ z : ATy, ViaA inp b' (fun t => ∀ x o, t = .named x o → x.value b' ≠ x.value inp) (do
            let _ ← mustConsume1A inp .punctuator b!"]"
            return ATy.list z (← skip1A inp .punctuator b!"!")) := by
      intro z
      refine viaA_bind (via_com (com_mustConsume1 hg _ _)) fun _ _ => viaA_bind (via_com (com_skip1 hg _ _)) fun _ _ => viaA_pure ?_
      intro x o h; cases h
    have : ViaA inp b' (fun t => ∀ x o, t = .named x o → x.value b' ≠ x.value inp) (parseTypeA inp (n + 1)) := by
      unfold parseTypeA
      refine viaA_bind (via_com (com_skip1 hg _ _)) fun _ _ => viaA_ite (fun _ => ?_) fun _ => ?_
      · intro ts a r hts e
        dsimp only at e
        have h3 := parseTypeA_com hg n ts hts
        generalize parseTypeA inp n ts = w at e h3
        generalize parseType n _ = y at h3
        cases h3 with
        | ok _ h4 => exact k _ _ _ _ h4 e
        | err h4 =>
          cases e
          exact ⟨(fun x o h => by cases h), h4⟩
        | panic => cases e
        | oof => cases e
      · refine viaA_bind via_name fun t ht => viaA_bind (via_com (com_skip1 hg _ _)) fun _ _ => viaA_pure ?_
        intro x o h
        cases h
        exact ht
    exact (this ts a r hts e).1

theorem mustBeNamedA_via {t : ATy} (h : ∀ x o, t = .named x o → x.value b' ≠ x.value inp) :
    ViaA inp b' (fun _ => t.read b' ≠ t.read inp) (mustBeNamedA inp t) := by
  cases t with
  | named x o =>
    refine viaA_pure ?_
    intro e
    rw [ATy.read, ATy.read, Ty.named.injEq] at e
    exact h x o rfl e.1
  | list => exact via_unexpected _
  | listNil => exact via_unexpected _

/-- Directives: the name of each has moved. -/
theorem parseDirectivesA_via (n : Nat) (loc : DirLoc) :
    ViaA inp b' (fun l => ∀ d ∈ l, ADirective.read b' d ≠ ADirective.read inp d) (parseDirectivesA inp pf n loc) := by
  have hg := goodMoved (inp := inp) (b' := b')
  unfold parseDirectivesA
  refine via_untilDo (via_com (com_not (com_peek1 hg _ _))) ?_
  refine viaA_bind (via_com (com_mustConsume1 hg _ _)) fun _ _ => viaA_bind via_name fun t ht => viaA_bind (via_com (parseArgumentsA_com hg pf n)) fun _ _ => viaA_pure ?_
  intro e
  exact ht (congrArg Directive.name e)

theorem parseFragmentSpreadA_via (n : Nat) : ViaA inp b' (fun s => ASelection.read b' s ≠ ASelection.read inp s) (parseFragmentSpreadA inp pf n) := by
  have hg := goodMoved (inp := inp) (b' := b')
  unfold parseFragmentSpreadA
  refine viaA_bind via_name fun t ht => viaA_bind (via_com (parseDirectivesA_com hg pf n _)) fun _ _ => viaA_pure ?_
  intro e
  rw [ASelection.read, ASelection.read, Selection.spread.injEq] at e
  exact ht e.1

/-- Selections: there is one, and each has moved. -/
def SelsMoved (inp b' : Bytes) (l : List ASelection) : Prop := l ≠ [] ∧ ∀ s ∈ l, ASelection.read b' s ≠ ASelection.read inp s

theorem parseInlineFragmentA_via (n : Nat) {sa : PA (List ASelection)} (hs : ViaA inp b' (SelsMoved inp b') sa) :
    ViaA inp b' (fun s => ASelection.read b' s ≠ ASelection.read inp s) (parseInlineFragmentA inp pf n sa) := by
  have hg := goodMoved (inp := inp) (b' := b')
  unfold parseInlineFragmentA
  refine viaA_bind (Q := fun _ => True) ?_ fun c _ => viaA_bind (via_com (parseDirectivesA_com hg pf n _)) fun ds _ => viaA_bind hs fun ss hss => viaA_pure ?_
  · refine viaA_bind (via_com (com_peek1 hg _ _)) fun _ _ => viaA_ite (fun _ => ?_) fun _ => viaA_pure trivial
    exact viaA_bind (via_com (parseTypeConditionA_com hg n)) fun _ _ => viaA_pure trivial
  · intro e
    rw [ASelection.read, ASelection.read, Selection.inline.injEq, ASelection.readL_map, ASelection.readL_map] at e
    exact map_moved hss.1 hss.2 e.2.2

theorem parseFieldA_via (n : Nat) {sa : PA (List ASelection)} {s} (hs : Com inp (NameMoved inp b') (RF (List.map (ASelection.read inp))) sa s) :
    ViaA inp b' (fun s => ASelection.read b' s ≠ ASelection.read inp s) (parseFieldA inp pf n sa) := by
  have hg := goodMoved (inp := inp) (b' := b')
  unfold parseFieldA
  refine viaA_bind via_name fun t ht => viaA_bind (Q := fun p : Str × Str => p.2.value b' ≠ p.2.value inp) ?_ ?_
  · refine viaA_bind (via_com (com_skip1 hg _ _)) fun _ _ => viaA_ite (fun _ => ?_) fun _ => viaA_pure ht
    exact viaA_bind via_name fun t2 ht2 => viaA_pure ht2
  · intro ⟨a, nm⟩ hn
    dsimp only at hn ⊢
    refine viaA_bind (via_com (parseArgumentsA_com hg pf n)) fun _ _ => viaA_bind (via_com (parseDirectivesA_com hg pf n _)) fun _ _ => viaA_bind (via_com hs) fun _ _ => viaA_pure ?_
    intro e
    rw [ASelection.read, ASelection.read, Selection.field.injEq] at e
    exact hn e.2.1

theorem parseSelectionSetA_via (n : Nat) : ViaA inp b' (SelsMoved inp b') (parseSelectionSetA inp pf n false) := by
  have hg := goodMoved (inp := inp) (b' := b')
  induction n with
  | zero => exact via_oof
  | succ n ih =>
    unfold parseSelectionSetA
    refine viaA_bind (via_com (com_skip1 hg _ _)) fun _ _ => viaA_ite (fun _ => ?_) fun _ => viaA_ite (fun h => by cases h) fun _ => via_unexpected _
    refine viaA_bind (via_doWhile (Q := fun s => ASelection.read b' s ≠ ASelection.read inp s) ?_ (via_com (com_or (com_peek1 hg _ _) (com_peek0 hg _)))) fun l hl =>
      viaA_bind (via_com (com_mustConsume1 hg _ _)) fun _ _ => viaA_pure hl
    refine viaA_bind (via_com (com_skip1 hg _ _)) fun _ _ => viaA_ite (fun _ => ?_) fun _ => parseFieldA_via pf n (parseSelectionSetA_com hg pf n true)
    exact viaA_bind (via_com (com_cur hg)) fun _ _ => viaA_ite (fun _ => parseFragmentSpreadA_via pf n) fun _ => parseInlineFragmentA_via pf n ih

theorem parseOperationDefinitionA_via (n : Nat) (sh : Bool) : ViaA inp b' (fun o => AOpDef.read b' o ≠ AOpDef.read inp o) (parseOperationDefinitionA inp pf n sh) := by
  have hg := goodMoved (inp := inp) (b' := b')
  unfold parseOperationDefinitionA
  refine viaA_ite (fun _ => ?_) fun _ => ?_
  · refine viaA_bind (parseSelectionSetA_via pf n) fun l hl => viaA_pure ?_
    intro e
    exact map_moved hl.1 hl.2 (congrArg OpDef.sels e)
  · refine viaA_bind (via_com (parseOperationTypeA_com hg)) fun _ _ => viaA_bind (via_com (com_consume0 hg _)) fun _ _ => viaA_bind (via_com (parseVariableDefinitionsA_com hg pf n)) fun _ _ =>
      viaA_bind (via_com (parseDirectivesA_com hg pf n _)) fun _ _ => viaA_bind (parseSelectionSetA_via pf n) fun l hl => viaA_pure ?_
    intro e
    exact map_moved hl.1 hl.2 (congrArg OpDef.sels e)

theorem parseFragmentDefinitionA_via (n : Nat) : ViaA inp b' (fun o => AFragDef.read b' o ≠ AFragDef.read inp o) (parseFragmentDefinitionA inp pf n) := by
  have hg := goodMoved (inp := inp) (b' := b')
  unfold parseFragmentDefinitionA
  refine viaA_bind (via_com (com_skip1 hg _ _)) fun _ _ => viaA_ite (fun _ => ?_) fun _ => via_crash
  refine viaA_bind (via_com (com_consume0 hg _)) fun o _ => ?_
  cases o with
  | none => exact via_crash
  | some t =>
    refine viaA_ite (fun _ => via_unexpected _) fun _ => viaA_bind (via_com (parseTypeConditionA_com hg n)) fun _ _ =>
      viaA_bind (via_com (parseDirectivesA_com hg pf n _)) fun _ _ => viaA_bind (parseSelectionSetA_via pf n) fun l hl => viaA_pure ?_
    intro e
    exact map_moved hl.1 hl.2 (congrArg FragDef.sels e)

theorem parseOperationTypeDefinitionA_via (n : Nat) : ViaA inp b' (fun o => AOpTypeDef.read b' o ≠ AOpTypeDef.read inp o) (parseOperationTypeDefinitionA inp n) := by
  have hg := goodMoved (inp := inp) (b' := b')
  unfold parseOperationTypeDefinitionA
  refine viaA_bind (via_com (parseOperationTypeA_com hg)) fun _ _ => viaA_bind (via_com (com_skip1 hg _ _)) fun _ _ => viaA_ite (fun _ => ?_) fun _ => via_unexpected _
  refine viaA_bind (parseTypeA_via n) fun t ht => viaA_bind (mustBeNamedA_via ht) fun _ h => viaA_pure ?_
  intro e
  exact h (congrArg OpTypeDef.type e)

theorem parseOperationTypeDefinitionsA_via (n : Nat) :
    ViaA inp b' (fun l => l ≠ [] ∧ ∀ o ∈ l, AOpTypeDef.read b' o ≠ AOpTypeDef.read inp o) (parseOperationTypeDefinitionsA inp n) := by
  have hg := goodMoved (inp := inp) (b' := b')
  unfold parseOperationTypeDefinitionsA
  refine viaA_bind (via_com (com_skip1 hg _ _)) fun _ _ => viaA_ite (fun _ => ?_) fun _ => via_unexpected _
  exact viaA_bind (via_doWhile (parseOperationTypeDefinitionA_via n) (via_com (com_or (com_peek1 hg _ _) (com_peek0 hg _)))) fun l hl =>
    viaA_bind (via_com (com_mustConsume1 hg _ _)) fun _ _ => viaA_pure hl

theorem parseSchemaDefinitionA_via (n : Nat) : ViaA inp b' (fun o => ASchemaDef.read b' o ≠ ASchemaDef.read inp o) (parseSchemaDefinitionA inp pf n) := by
  have hg := goodMoved (inp := inp) (b' := b')
  unfold parseSchemaDefinitionA
  refine viaA_bind (via_com (com_skip1 hg _ _)) fun _ _ => viaA_ite (fun _ => ?_) fun _ => via_unexpected _
  refine viaA_bind (via_com (parseDirectivesA_com hg pf n _)) fun _ _ => viaA_bind (parseOperationTypeDefinitionsA_via n) fun l hl => viaA_pure ?_
  intro e
  exact map_moved hl.1 hl.2 (congrArg SchemaDef.ops e)

theorem parseSchemaExtensionA_via (n : Nat) : ViaA inp b' (fun o => ASchemaDef.read b' o ≠ ASchemaDef.read inp o) (parseSchemaExtensionA inp pf n) := by
  have hg := goodMoved (inp := inp) (b' := b')
  unfold parseSchemaExtensionA
  refine viaA_bind (via_com (com_skip1 hg _ _)) fun _ _ => viaA_ite (fun _ => ?_) fun _ => via_unexpected _
  refine viaA_bind (parseDirectivesA_via pf n _) fun ds hds => viaA_bind (Q := fun l => ∀ o ∈ l, AOpTypeDef.read b' o ≠ AOpTypeDef.read inp o) ?_ fun l hl => ?_
  · refine viaA_bind (via_com (com_peek1 hg _ _)) fun _ _ => viaA_ite (fun _ => ?_) fun _ => viaA_pure (by simp)
    intro ts a r hts e
    obtain ⟨h1, h2⟩ := parseOperationTypeDefinitionsA_via n ts a r hts e
    exact ⟨h1.2, h2⟩
  · refine viaA_ite (fun _ => via_unexpected _) fun h => viaA_pure ?_
    intro e
    by_cases h1 : ds = []
    · refine map_moved ?_ hl (congrArg SchemaDef.ops e)
      rintro rfl
      exact h ⟨by rw [h1]; rfl, rfl⟩
    · exact map_moved h1 hds (congrArg SchemaDef.dirs e)

theorem parseDirectiveDefinitionA_via (n : Nat) (desc : Str) : ViaA inp b' (fun o => ADirDef.read b' o ≠ ADirDef.read inp o) (parseDirectiveDefinitionA inp pf n desc) := by
  have hg := goodMoved (inp := inp) (b' := b')
  unfold parseDirectiveDefinitionA
  refine viaA_bind (via_com (com_skip1 hg _ _)) fun _ _ => viaA_ite (fun _ => ?_) fun _ => via_crash
  refine viaA_bind (via_com (com_skip1 hg _ _)) fun _ _ => viaA_ite (fun _ => ?_) fun _ => via_unexpected _
  refine viaA_bind via_name fun t ht => viaA_bind (via_com (parseArgumentsDefinitionA_com hg pf n)) fun _ _ => viaA_bind (via_com (com_skip1 hg _ _)) fun _ _ => viaA_ite (fun _ => ?_) fun _ => via_unexpected _
  refine viaA_bind (via_com (parseDirectiveLocationsA_com hg)) fun _ _ => viaA_pure ?_
  intro e
  exact ht (congrArg DirDef.name e)

theorem parseTypeBodyA_via (n : Nat) (desc : Str) (k : TypeKind) : ViaA inp b' (fun o => ATypeDef.read b' o ≠ ATypeDef.read inp o) (parseTypeBodyA inp pf n desc k) := by
  have hg := goodMoved (inp := inp) (b' := b')
  unfold parseTypeBodyA
  refine viaA_bind via_name fun t ht => ?_
  have k0 : ∀ d : ATypeDef, d.name = t.lit → ATypeDef.read b' d ≠ ATypeDef.read inp d := by
    intro d hd e
    have := congrArg TypeDef.name e
    simp only [ATypeDef.read, hd] at this
    exact ht this
  cases k <;> dsimp only
  · exact viaA_bind (via_com (parseDirectivesA_com hg pf n _)) fun _ _ => viaA_pure (k0 _ rfl)
  · exact viaA_bind (via_com (parseImplementsInterfacesA_com hg n)) fun _ _ => viaA_bind (via_com (parseDirectivesA_com hg pf n _)) fun _ _ =>
      viaA_bind (via_com (parseFieldsDefinitionA_com hg pf n)) fun _ _ => viaA_pure (k0 _ rfl)
  · exact viaA_bind (via_com (parseDirectivesA_com hg pf n _)) fun _ _ => viaA_bind (via_com (parseFieldsDefinitionA_com hg pf n)) fun _ _ => viaA_pure (k0 _ rfl)
  · exact viaA_bind (via_com (parseDirectivesA_com hg pf n _)) fun _ _ => viaA_bind (via_com (parseUnionMemberTypesA_com hg n)) fun _ _ => viaA_pure (k0 _ rfl)
  · exact viaA_bind (via_com (parseDirectivesA_com hg pf n _)) fun _ _ => viaA_bind (via_com (parseEnumValuesDefinitionA_com hg pf n)) fun _ _ => viaA_pure (k0 _ rfl)
  · exact viaA_bind (via_com (parseDirectivesA_com hg pf n _)) fun _ _ => viaA_bind (via_com (parseInputFieldsDefinitionA_com hg pf n)) fun _ _ => viaA_pure (k0 _ rfl)

theorem parseTypeDefinitionA_via (n : Nat) (desc : Str) : ViaA inp b' (fun o => ATypeDef.read b' o ≠ ATypeDef.read inp o) (parseTypeDefinitionA inp pf n desc) := by
  unfold parseTypeDefinitionA
  refine viaA_bind via_name fun t ht => ?_
  cases kindOf (t.lit.value inp) with
  | none => exact via_crash
  | some k => exact parseTypeBodyA_via pf n desc k

theorem parseTypeExtensionA_via (n : Nat) : ViaA inp b' (fun o => ATypeDef.read b' o ≠ ATypeDef.read inp o) (parseTypeExtensionA inp pf n) := by
  have hg := goodMoved (inp := inp) (b' := b')
  unfold parseTypeExtensionA
  refine viaA_bind via_name fun kt _ => viaA_bind via_name fun t ht => ?_
  have k0 : ∀ d : ATypeDef, d.name = t.lit → ATypeDef.read b' d ≠ ATypeDef.read inp d := by
    intro d hd e
    have := congrArg TypeDef.name e
    simp only [ATypeDef.read, hd] at this
    exact ht this
  refine viaA_bind (Q := fun _ => True) ?_ fun ifs _ => ?_
  · refine viaA_ite (fun _ => viaA_bind (via_com (com_peek1 hg _ _)) fun _ _ => viaA_ite (fun _ => via_com (parseImplementsInterfacesA_com hg n)) fun _ => viaA_pure trivial) fun _ => viaA_pure trivial
  rcases kindOf (kt.lit.value inp) with _ | ⟨_ | _ | _ | _ | _ | _⟩
  · exact via_crash
  · exact viaA_bind (via_com (parseDirectivesA_com hg pf n _)) fun _ _ => viaA_pure (k0 _ rfl)
  · exact viaA_bind (via_com (parseDirectivesA_com hg pf n _)) fun _ _ => viaA_bind (via_com (parseFieldsDefinitionA_com hg pf n)) fun _ _ => viaA_pure (k0 _ rfl)
  · exact viaA_bind (via_com (parseDirectivesA_com hg pf n _)) fun _ _ => viaA_bind (via_com (parseFieldsDefinitionA_com hg pf n)) fun _ _ => viaA_pure (k0 _ rfl)
  · exact viaA_bind (via_com (parseDirectivesA_com hg pf n _)) fun _ _ => viaA_bind (via_com (parseUnionMemberTypesA_com hg n)) fun _ _ => viaA_pure (k0 _ rfl)
  · exact viaA_bind (via_com (parseDirectivesA_com hg pf n _)) fun _ _ => viaA_bind (via_com (parseEnumValuesDefinitionA_com hg pf n)) fun _ _ => viaA_pure (k0 _ rfl)
  · exact viaA_bind (via_com (parseDirectivesA_com hg pf n _)) fun _ _ => viaA_bind (via_com (parseInputFieldsDefinitionA_com hg pf n)) fun _ _ => viaA_pure (k0 _ rfl)

/-- A definition that has moved. -/
abbrev BodyMoved (inp b' : Bytes) (o : ABody) : Prop := ABody.read b' o ≠ ABody.read inp o

theorem parseTypeSystemDefinitionA_via (n : Nat) (desc : Str) : ViaA inp b' (BodyMoved inp b') (parseTypeSystemDefinitionA inp pf n desc) := by
  have hg := goodMoved (inp := inp) (b' := b')
  unfold parseTypeSystemDefinitionA
  refine viaA_bind (via_com (com_peek1 hg _ _)) fun _ _ => viaA_ite (fun _ => ?_) fun _ => ?_
  · exact viaA_bind (parseSchemaDefinitionA_via pf n) fun s hs => viaA_pure (fun e => hs (Body.schema.inj e))
  refine viaA_bind (via_com (com_peek1 hg _ _)) fun _ _ => viaA_ite (fun _ => ?_) fun _ => ?_
  · exact viaA_bind (parseDirectiveDefinitionA_via pf n desc) fun s hs => viaA_pure (fun e => hs (Body.directive.inj e))
  refine viaA_bind (via_com (com_peekn hg _ _)) fun _ _ => viaA_ite (fun _ => ?_) fun _ => via_crash
  exact viaA_bind (parseTypeDefinitionA_via pf n desc) fun s hs => viaA_pure (fun e => hs (Body.type.inj e))

theorem parseTypeSystemExtensionA_via (n : Nat) : ViaA inp b' (BodyMoved inp b') (parseTypeSystemExtensionA inp pf n) := by
  have hg := goodMoved (inp := inp) (b' := b')
  unfold parseTypeSystemExtensionA
  refine viaA_bind (via_com (com_skip1 hg _ _)) fun _ _ => viaA_ite (fun _ => ?_) fun _ => via_unexpected _
  refine viaA_bind (via_com (com_peek1 hg _ _)) fun _ _ => viaA_ite (fun _ => ?_) fun _ => ?_
  · exact viaA_bind (parseSchemaExtensionA_via pf n) fun s hs => viaA_pure (fun e => hs (Body.schemaExt.inj e))
  refine viaA_bind (via_com (com_peekn hg _ _)) fun _ _ => viaA_ite (fun _ => ?_) fun _ => via_unexpected _
  exact viaA_bind (parseTypeExtensionA_via pf n) fun s hs => viaA_pure (fun e => hs (Body.typeExt.inj e))

theorem parseDefinitionBodyA_via (n : Nat) : ViaA inp b' (BodyMoved inp b') (parseDefinitionBodyA inp pf n) := by
  have hg := goodMoved (inp := inp) (b' := b')
  unfold parseDefinitionBodyA
  refine viaA_bind (via_com (com_cur hg)) fun _ _ => viaA_bind (via_com (com_or (com_peekn hg _ _) (com_peek1 hg _ _))) fun _ _ => viaA_ite (fun _ => ?_) fun _ => ?_
  · exact viaA_bind (parseOperationDefinitionA_via pf n _) fun s hs => viaA_pure (fun e => hs (Body.op.inj e))
  refine viaA_bind (via_com (com_peek1 hg _ _)) fun _ _ => viaA_ite (fun _ => ?_) fun _ => ?_
  · exact viaA_bind (parseFragmentDefinitionA_via pf n) fun s hs => viaA_pure (fun e => hs (Body.frag.inj e))
  refine viaA_bind (via_com (com_peek1 hg _ _)) fun _ _ => viaA_ite (fun _ => parseTypeSystemExtensionA_via pf n) fun _ => ?_
  refine viaA_bind (via_com (com_consume0 hg _)) fun d _ => viaA_bind (via_com (com_peekn hg _ _)) fun _ _ => viaA_ite (fun _ => ?_) fun _ => via_unexpected _
  exact parseTypeSystemDefinitionA_via pf n _

theorem parseDefsA_via (n : Nat) : ViaA inp b' (fun l => l ≠ [] ∧ ∀ d ∈ l, ADefinition.read b' d ≠ ADefinition.read inp d) (parseDefsA inp pf n) := by
  have hg := goodMoved (inp := inp) (b' := b')
  unfold parseDefsA
  refine via_doWhile ?_ (via_com (com_peek0 hg _))
  refine viaA_bind (Q := fun d => ADefinition.read b' d ≠ ADefinition.read inp d) ?_ fun d hd =>
    viaA_bind (via_com (com_peek0 hg _)) fun _ _ => viaA_ite (fun _ => via_unexpected _) fun _ => viaA_pure hd
  unfold parseDefinitionA
  refine viaA_bind (via_com (com_cur hg)) fun _ _ => viaA_bind (parseDefinitionBodyA_via pf n) fun o ho => viaA_pure ?_
  intro e
  exact ho (congrArg Definition.body e)

end

end GQL
