/-
Completing what has been read: definitions.
-/
import Verif.Proofs.ParseViaSel

namespace GQL
open Spec Spec.Syntax

section
variable {D D1 : PErr → Toks → Prop} {F H H1 : Fol} {α : Type}

/-- The first token decides. -/
theorem via_first {k : TokenKind} {q : P α} {f : Token → P α} {R : Toks → α → Toks → Prop} (hk : k ≠ .eof)
    (h1 : ∀ t m, t.kind = k → q (t :: m) = f t m)
    (h2 : ∀ ts, (hd ts).kind ≠ k → q ts = .panic ∨ ∃ e, q ts = .err e ts ∧ late e = false)
    (hD : ∀ e t s, D1 e s → D e (t :: s))
    (h : ∀ t, t.kind = k → (∃ H', Via D1 F H' (fun ts a r => R (t :: ts) a r) (f t)) ∨ (∀ ts, f t ts = .panic) ∨
      (∀ ts, ∃ e, f t ts = .err e ts ∧ (late e = true ∨ (late e = false ∧ D e [t]))))
    (st : ∃ w a, Pl w ∧ ∀ r', In F r' → R (w ++ r') a r' ∧ In H (w ++ r')) : Via D F H R q := by
  constructor
  · intro ts a r hq
    by_cases hh : (hd ts).kind = k
    · cases ts with
      | nil => exact absurd hh.symm hk
      | cons t m =>
        rw [h1 t m hh] at hq
        rcases h t hh with ⟨H', hv⟩ | hp | he
        · obtain ⟨c, rfl, k1⟩ := hv.ok _ _ _ hq
          exact ⟨t :: c, rfl, fun r' hr => k1 r' hr⟩
        · rw [hp] at hq; cases hq
        · obtain ⟨e, he, -⟩ := he m; rw [he] at hq; cases hq
    · rcases h2 ts hh with h | ⟨e, h, -⟩ <;> rw [h] at hq <;> cases hq
  · intro ts e r hq
    by_cases hh : (hd ts).kind = k
    · cases ts with
      | nil => exact absurd hh.symm hk
      | cons t m =>
        rw [h1 t m hh] at hq
        rcases h t hh with ⟨H', hv⟩ | hp | he
        · obtain ⟨c, rfl, k1, k2⟩ := hv.err _ _ _ hq
          refine ⟨t :: c, rfl, by simp, ?_⟩
          have := beforeE_append (e := e) (c1 := [t]) k1
          rw [List.singleton_append] at this
          rw [this]
          rcases k2 with k2 | k2 | ⟨w, a, hw, k2⟩
          · obtain ⟨w, a, hw, k5⟩ := hv.start
            refine .inr (.inr ⟨w, a, hw, fun r' hr => ?_⟩)
            rw [k2]; exact (k5 r' hr).1
          · exact .inr (.inl (hD _ _ _ k2))
          · exact .inr (.inr ⟨w, a, hw, fun r' hr => k2 r' hr⟩)
        · rw [hp] at hq; cases hq
        · obtain ⟨e', he, hl⟩ := he m
          rw [he] at hq
          cases hq
          refine ⟨[t], rfl, by simp, ?_⟩
          rcases hl with hl | ⟨hl, hd⟩
          · left; unfold beforeE; rw [hl]; rfl
          · right; left; rw [beforeE_notLate hl]; exact hd
    · rcases h2 ts hh with h | ⟨e', h, hl⟩
      · rw [h] at hq; cases hq
      · rw [h] at hq; cases hq
        exact via_err0 rfl hl
  · exact st

/-- Without the token the code would crash. -/
theorem via_skipCrash {R1 : Toks → α → Toks → Prop} {k : TokenKind} {l : Bytes} {p : P α}
    (hD : ∀ e t s, t.kind = k → t.lit = l → D1 e s → D e (t :: s))
    (h1 : Via D1 F H1 R1 p) (hk : k ≠ .eof := by decide) (hp : plainTok (tkn k l) = true := by decide) :
    Via D F [(k, l)] (fun ts a r => ∃ m, Tok1 k l ts m ∧ R1 m a r)
      (skip1 k l >>= fun b => if b = true then p else crash) := by
  refine (via_ite (D1 := D1) (R2 := fun _ _ _ => False) hD hk h1 (fun ts a r _ h => (crash_ok.1 h).elim) ?_ ?_).imp ?_
  · intro ts e r h; cases h
  · obtain ⟨w, a, hw, k⟩ := h1.start
    exact ⟨tkn _ l :: w, a, (by plain), fun r' hr => ⟨.inl ⟨w ++ r', ⟨_, rfl, rfl, rfl⟩, (k r' hr).1⟩, List.mem_singleton.2 rfl⟩⟩
  · rintro ts a r (h | ⟨-, h⟩)
    · exact h
    · exact h.elim

end

/-- The end of the input. -/
def Ef : Fol := [(.eof, [])]
def EfB : Fol := [(.eof, []), (.punctuator, b!"{")]
def ParF : Fol := [(.punctuator, b!")")]

theorem optK_optTok {k : TokenKind} {ts r : Toks} {o : Option Token} (h : OptK k ts o r) : OptTok k ts ((o.map (·.lit)).getD []) r := by
  rcases h with ⟨t, rfl, rfl, h'⟩ | ⟨rfl, h', rfl⟩
  · exact .inl ⟨t, rfl, h', rfl⟩
  · exact .inr ⟨rfl, h', rfl⟩

section
variable {pf : Bytes → Option Nat} {D : PErr → Toks → Prop} (hD : Closed D)
include hD

theorem via_variables {F : Fol} (n : Nat) (hF : (.punctuator, b!"(") ∉ F := by decide) : Via D F F (VarDefns pf true) (parseVariableDefinitions pf n) := by
  rw [parseVariableDefinitions]
  refine (via_may hD (via_doPeek (Fb := ParF) (Rb := VarDefn pf true) ((via_bind hD (F1 := [(.name, b!"a"), (.punctuator, b!")")]) via_tok1 (fun _ =>
    via_bind hD (F1 := [(.punctuator, b!":"), (.punctuator, b!")")]) (via_tok0 b!"a") (fun t =>
    via_bind hD (F1 := [(.name, b!"a"), (.punctuator, b!")")]) via_tok1 (fun _ =>
    via_bind hD (F1 := ParF) (via_type n) (fun ty =>
    via_bind hD (F1 := ParF) (via_default hD n) (fun dv => via_pure (F := ParF) _)))))).imp ?_) hD) hF).imp ?_
  · rintro ts a r ⟨_, m1, h1, t, m2, ⟨rfl, hk⟩, _, m3, h3, ty, m4, h4, dv, m5, h5, rfl, rfl⟩
    exact .mk h1 ⟨t, rfl, hk, rfl⟩ h3 h4 h5
  · rintro ts a r (⟨m, h1, m2, h2, h3, h4⟩ | ⟨h1, rfl, rfl⟩)
    · exact .some h1 h2 h3 h4
    · exact .none h1

omit hD in
theorem via_opType {F : Fol} : Via D F [(.name, b!"query")] OpType parseOperationType := by
  constructor
  · intro ts k r h
    have hs := parseOperationType_sound _ _ _ h
    rw [parseOperationType, bind_ok] at h
    obtain ⟨t, m, h1, h⟩ := h
    obtain ⟨h2, rfl⟩ := pure_ok.1 h
    obtain ⟨rfl, hk, hl⟩ := (mustConsumen_ok (by decide) (by simp)).1 h1
    refine ⟨[t], rfl, fun r' _ => ?_⟩
    cases hs with
    | query h => obtain ⟨u, e, h3, h4⟩ := h; cases e; exact .query ⟨t, rfl, h3, h4⟩
    | mutation h => obtain ⟨u, e, h3, h4⟩ := h; cases e; exact .mutation ⟨t, rfl, h3, h4⟩
    | subscription h => obtain ⟨u, e, h3, h4⟩ := h; cases e; exact .subscription ⟨t, rfl, h3, h4⟩
  · intro ts e r h
    rw [parseOperationType] at h
    rcases bind_err.1 h with h | ⟨_, _, -, h⟩
    · obtain ⟨h1, h2⟩ := mustConsumen_err (by decide) (by simp) h
      exact via_err0 h1 (show late e = false by rw [h2]; exact late_unexpected (by decide))
    · cases h
  · exact ⟨[tkn .name b!"query"], .query, (by plain), fun r' _ => ⟨.query ⟨_, rfl, rfl, rfl⟩, List.mem_singleton.2 rfl⟩⟩

variable (hon : ∀ e t y, AsksType e → t.kind = .name → t.lit = b!"on" → Brackets y → D e (t :: y))
include hon

theorem via_shorthand {F : Fol} (n : Nat) : Via D F [(.punctuator, b!"{")] (OpDefn pf true) (parseOperationDefinition pf n true) := by
  rw [parseOperationDefinition]
  refine (via_bind hD (F1 := F) ((via_selectionSet hD hon n).1 _) (fun sels => via_pure (F := F) _) (List.Subset.refl F) (List.Subset.refl F)).imp ?_
  rintro ts a r ⟨sels, m, h1, rfl, rfl⟩
  exact .shorthand h1

theorem via_operation (n : Nat) : Via D Ef [(.name, b!"query")] (OpDefn pf true) (parseOperationDefinition pf n false) := by
  rw [parseOperationDefinition]
  simp only [Bool.false_eq_true, if_false]
  refine (via_bind hD (F1 := EfB) via_opType (fun k => via_bind hD (F1 := EfB) via_opt (fun nm => via_bind hD (F1 := EfB) (via_variables hD n) (fun vs =>
    via_bind hD (F1 := EfB) (via_directives hD n false _) (fun ds => via_bind hD (F1 := Ef) ((via_selectionSet hD hon n).1 _) (fun sels => via_pure (F := Ef) _)))))).imp ?_
  rintro ts a r ⟨k, m1, h1, nm, m2, h2, vs, m3, h3, ds, m4, h4, sels, m5, h5, rfl, rfl⟩
  rw [opLoc_eq] at h4
  exact .full h1 (optK_optTok h2) h3 h4 h5

/-- The text asks for something else than `on`. -/
def AsksNotOn : PErr → Prop
  | .unexpected _ w => w = [expected .name [b!"!on"]]
  | _ => False

theorem via_fragment (n : Nat) (hfr : ∀ e t u, AsksNotOn e → t.kind = .name → t.lit = b!"fragment" → u.kind = .name → u.lit = b!"on" → D e [t, u]) :
    Via D Ef [(.name, b!"fragment")] (FragDefn pf true) (parseFragmentDefinition pf n) := by
  have hg : ∀ t : Token, Via D Ef [(.name, b!"on")] (SeqD (TypeCond true) (fun c => SeqD (Dirs pf true false .fragmentDefinition) (fun ds => SeqD (SelSet pf true) (fun sels => Ret (⟨t.lit, c, ds, sels⟩ : FragDef)))))
      (parseTypeCondition n >>= fun cond => parseDirectives pf n .fragmentDefinition >>= fun dirs =>
      parseSelectionSet pf n false >>= fun sels => pure (⟨t.lit, cond, dirs, sels⟩ : FragDef)) := fun t =>
    via_bind hD (F1 := EfB) (via_typeCondition hon n) (fun c => via_bind hD (F1 := EfB) (via_directives hD n false _) (fun ds =>
      via_bind hD (F1 := Ef) ((via_selectionSet hD hon n).1 _) (fun sels => via_pure (F := Ef) _)))
  rw [parseFragmentDefinition]
  refine (via_skipCrash (D1 := fun e s => D e s ∨ (AsksNotOn e ∧ ∃ u, s = [u] ∧ u.kind = .name ∧ u.lit = b!"on")) (H1 := [(.name, b!"a")])
    (R1 := fun ts a r => ∃ t m, ts = t :: m ∧ t.kind = .name ∧ t.lit ≠ b!"on" ∧
      SeqD (TypeCond true) (fun c => SeqD (Dirs pf true false .fragmentDefinition) (fun ds => SeqD (SelSet pf true) (fun sels => Ret (⟨t.lit, c, ds, sels⟩ : FragDef)))) m a r) ?_
    (via_first (k := .name) (D1 := D) (f := fun t => if t.lit = b!"on" then unexpectedCur [expected .name [b!"!on"]] else
      parseTypeCondition n >>= fun cond => parseDirectives pf n .fragmentDefinition >>= fun dirs =>
      parseSelectionSet pf n false >>= fun sels => pure (⟨t.lit, cond, dirs, sels⟩ : FragDef)) (by decide) (fun t m hk => ?_) (fun ts hk => ?_) (fun e t s h => .inl (hD e [t] s h)) (fun t hk => ?_) ?_)).imp ?_
  · rintro e t s h1 h2 (h | ⟨h, u, rfl, h3, h4⟩)
    · exact hD e [t] s h
    · exact hfr e t u h h1 h2 h3 h4
  · exact bind_eq ((consume0_ok (by decide)).2 (.inl ⟨t, rfl, rfl, hk⟩))
  · left
    rw [bind_eq ((consume0_ok (by decide)).2 (.inr ⟨rfl, (notKind_iff (by decide)).2 hk, rfl⟩))]
    rfl
  · by_cases ho : t.lit = b!"on"
    · refine .inr (.inr fun ts => ⟨.unexpected (hd ts) [expected .name [b!"!on"]], ?_, .inr ⟨late_unexpected (by decide), .inr ⟨rfl, t, rfl, hk, ho⟩⟩⟩)
      simp only [ho, if_true]
      rfl
    · refine .inl ⟨[(.name, b!"on")], ?_⟩
      simp only [ho, if_false]
      exact (hg t).imp (fun ts a r h => ⟨t, ts, rfl, hk, ho, h⟩)
  · obtain ⟨w, a, hw, k⟩ := (hg (tkn .name b!"a")).start
    exact ⟨tkn .name b!"a" :: w, a, (by plain), fun r' hr => ⟨⟨_, _, rfl, rfl, show b!"a" ≠ b!"on" by decide, (k r' hr).1⟩, List.mem_singleton.2 rfl⟩⟩
  · rintro ts a r ⟨m, h1, t, m2, rfl, hk, ho, c, m3, h3, ds, m4, h4, sels, m5, h5, rfl, rfl⟩
    exact .mk h1 ⟨t, rfl, hk, rfl⟩ ho h3 h4 h5

end

end GQL
