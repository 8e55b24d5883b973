/-
Completing what has been read: selection sets and executable definitions.
-/
import Verif.Proofs.ParseViaType

namespace GQL
open Spec Spec.Syntax

section
variable {D : PErr → Toks → Prop} {F H HA HB : Fol} {α : Type}

/-- A choice by the current token. -/
theorem via_curIte {φ : Token → Prop} [DecidablePred φ] {RA RB : Toks → α → Toks → Prop} {A B : P α} (hA : Via D F HA RA A) (hB : Via D F HB RB B)
    (hne : ∀ ts a, ¬ RA ts a ts) (st : ∃ w a, Pl w ∧ ∀ r', In F r' → ((φ (hd (w ++ r')) ∧ RA (w ++ r') a r') ∨ RB (w ++ r') a r') ∧ In H (w ++ r')) :
    Via D F H (fun ts a r => (φ (hd ts) ∧ RA ts a r) ∨ RB ts a r) (cur >>= fun t => if φ t then A else B) := by
  constructor
  · intro ts a r h
    rw [bind_eq (cur_eq ts)] at h
    by_cases hp : φ (hd ts)
    · rw [if_pos hp] at h
      obtain ⟨c, rfl, k⟩ := hA.ok _ _ _ h
      refine ⟨c, rfl, fun r' hr => .inl ⟨?_, k r' hr⟩⟩
      have hc : c ≠ [] := by
        rintro rfl
        exact hne _ _ (k r (.inl rfl))
      rw [hd_append (r := r) hc]; exact hp
    · rw [if_neg hp] at h
      obtain ⟨c, rfl, k⟩ := hB.ok _ _ _ h
      exact ⟨c, rfl, fun r' hr => .inr (k r' hr)⟩
  · intro ts e r h
    rw [bind_eq (cur_eq ts)] at h
    by_cases hp : φ (hd ts)
    · rw [if_pos hp] at h
      obtain ⟨c, rfl, k1, k2⟩ := hA.err _ _ _ h
      refine ⟨c, rfl, k1, ?_⟩
      by_cases hs : beforeE e c = []
      · exact .inl hs
      rcases k2 with k2 | k2 | ⟨w, a, hw, k2⟩
      · exact .inl k2
      · exact .inr (.inl k2)
      · refine .inr (.inr ⟨w, a, hw, fun r' hr => .inl ⟨?_, k2 r' hr⟩⟩)
        rw [hd_before (r := r) hs]; exact hp
    · rw [if_neg hp] at h
      obtain ⟨c, rfl, k1, k2⟩ := hB.err _ _ _ h
      refine ⟨c, rfl, k1, k2.imp id (fun k2 => k2.imp id ?_)⟩
      rintro ⟨w, a, hw, k2⟩
      exact ⟨w, a, hw, fun r' hr => .inr (k2 r' hr)⟩
  · exact st

/-- If the token comes. -/
theorem via_peekMay {R1 : Toks → α → Toks → Prop} {k : TokenKind} {l : Bytes} {p : P α} {a0 : α} (h1 : Via D F H R1 p)
    (hF : (k, l) ∉ F := by decide) (hk : k ≠ .eof := by decide) :
    Via D F F (fun ts a r => R1 ts a r ∨ (NotNext1 k l ts ∧ Ret a0 ts a r)) (peek1 k l >>= fun b => if b = true then p else pure a0) := by
  constructor
  · intro ts a r h
    obtain ⟨b, m, e1, h⟩ := bind_ok.1 h
    obtain ⟨rfl, h2⟩ := (peek1_ok hk).1 e1
    rcases h2 with ⟨rfl, -⟩ | ⟨rfl, h2⟩
    · obtain ⟨c, h3, k⟩ := h1.ok _ _ _ (by simpa using h)
      exact ⟨c, h3, fun r' hr => .inl (k r' hr)⟩
    · simp only [Bool.false_eq_true, if_false] at h
      obtain ⟨rfl, rfl⟩ := pure_ok.1 h
      refine ⟨[], rfl, fun r' hr => .inr ⟨?_, rfl, rfl⟩⟩
      exact hr.elim (fun h => notNext_congr hk h h2) (fun h => h.notNext hk hF)
  · intro ts e r h
    rcases bind_err.1 h with h | ⟨b, m, e1, h⟩
    · exact absurd h peek1_not_err
    obtain ⟨rfl, h2⟩ := (peek1_ok hk).1 e1
    rcases h2 with ⟨rfl, -⟩ | ⟨rfl, h2⟩
    · obtain ⟨c, h3, k1, k2⟩ := h1.err _ _ _ (by simpa using h)
      refine ⟨c, h3, k1, k2.imp id (fun k2 => k2.imp id ?_)⟩
      rintro ⟨w, a, hw, k2⟩
      exact ⟨w, a, hw, fun r' hr => .inl (k2 r' hr)⟩
    · cases h
  · exact ⟨[], a0, (by plain), fun r' hr => ⟨.inr ⟨hr.notNext hk hF, rfl, rfl⟩, hr⟩⟩

end

section
variable {pf : Bytes → Option Nat} {D : PErr → Toks → Prop} (hD : Closed D)
  (hon : ∀ e t y, AsksType e → t.kind = .name → t.lit = b!"on" → Brackets y → D e (t :: y))
include hD hon

omit hD in
theorem via_typeCondition {F : Fol} (n : Nat) (hF : F ⊆ TyF := by decide) : Via D F [(.name, b!"on")] (TypeCond true) (parseTypeCondition n) := by
  rw [parseTypeCondition]
  refine (via_bindD (D2 := fun e s => AsksType e ∧ Brackets s) (F1 := F ++ [(.name, b!"a")]) ?_ via_tok1 (fun _ => via_named (fun e s h1 h2 => ⟨h1, h2⟩) n hF) ?_ ?_).imp ?_
  · rintro e c s a r hp ⟨h1, h2⟩
    obtain ⟨h3, h4, h5⟩ := (mustConsume1_ok (by decide)).1 hp
    cases c with
    | nil =>
      have := congrArg List.length h3
      simp at this
    | cons t c =>
      obtain ⟨h6, h7⟩ := List.cons.inj h3
      subst h6
      rw [List.append_left_eq_self.1 h7]
      exact hon e t s h1 h4 h5 h2
  · simp
  · simp
  · rintro ts t r ⟨_, m, h1, h2⟩
    exact .mk h1 h2

def SpreadR (pf : Bytes → Option Nat) (ts : Toks) (s : Selection) (r : Toks) : Prop :=
  ∃ t m ds, ts = t :: m ∧ t.kind = .name ∧ Dirs pf true false .fragmentSpread m ds r ∧ s = .spread t.lit ds

def InlineR (pf : Bytes → Option Nat) (ts : Toks) (s : Selection) (r : Toks) : Prop :=
  ∃ c m ds m2 sels, OptCond true ts c m ∧ Dirs pf true false .inlineFragment m ds m2 ∧ SelSet pf true m2 sels r ∧ s = .inline c ds sels

/-- The set of what follows a selection. -/
def SelF : Fol := [(.punctuator, b!"}")]
def SelG : Fol := [(.punctuator, b!"}"), (.punctuator, b!"{")]

omit hon in
theorem via_spread (n : Nat) : Via D SelF [(.name, b!"a")] (SpreadR pf) (parseFragmentSpread pf n) := by
  rw [parseFragmentSpread]
  refine (via_bind hD (F1 := SelF) (via_tok0 b!"a") (fun t => via_bind hD (F1 := SelF) (via_directives hD n false .fragmentSpread)
    (fun ds => via_pure (F := SelF) _))).imp ?_
  rintro ts a r ⟨t, m, ⟨rfl, hk⟩, ds, m2, h2, rfl, rfl⟩
  exact ⟨t, m, ds, rfl, hk, h2, rfl⟩

theorem via_inline (n : Nat) {sel : P (List Selection)} (hs : Via D SelF [(.punctuator, b!"{")] (SelSet pf true) sel) :
    Via D SelF SelG (InlineR pf) (parseInlineFragment pf n sel) := by
  rw [parseInlineFragment]
  refine (via_bind hD (F1 := SelG) (via_peekMay (via_bind hD (F1 := SelG) (via_typeCondition hon n) (fun c => via_pure (F := SelG) (some c)))) (fun c =>
    via_bind hD (F1 := SelG) (via_directives hD n false .inlineFragment) (fun ds =>
    via_bind hD (F1 := SelF) hs (fun sels => via_pure (F := SelF) _)))).imp ?_
  rintro ts a r ⟨c, m, h1, ds, m2, h2, sels, m3, h3, rfl, rfl⟩
  refine ⟨c, m, ds, m2, sels, ?_, h2, h3, rfl⟩
  rcases h1 with ⟨c, m, h1, rfl, rfl⟩ | ⟨h1, rfl, rfl⟩
  · exact .some h1
  · exact .none h1

omit hon in
theorem via_field (n : Nat) {sel : P (List Selection)} (hs : Via D SelF SelF (OptSelSet pf true) sel) :
    Via D SelF [(.name, b!"a")] (Sel pf true) (parseField pf n sel) := by
  rw [parseField]
  refine (via_bind hD (F1 := SelF) (via_tok0 b!"a") (fun t => via_bind hD (F1 := SelF) (H2 := SelF)
    (R2 := fun x => SeqD (Args pf true false) (fun args => SeqD (Dirs pf true false .field) (fun ds => SeqD (OptSelSet pf true) (fun sels => Ret (.field x.1 x.2 args ds sels)))))
    (via_may hD (F := SelF) (via_bind hD (F1 := SelF) (via_tok0 b!"a") (fun t2 => via_pure (F := SelF) (t.lit, t2.lit)))) ?_)).imp ?_
  · rintro ⟨al, name⟩
    exact via_bind hD (F1 := SelF) (via_arguments hD n false) (fun args => via_bind hD (F1 := SelF) (via_directives hD n false .field) (fun ds =>
      via_bind hD (F1 := SelF) hs (fun sels => via_pure (F := SelF) _)))
  · rintro ts a r ⟨t, m, ⟨rfl, hk⟩, ⟨al, name⟩, m2, h2, args, m3, h3, ds, m4, h4, sels, m5, h5, rfl, rfl⟩
    have hf : FieldName (t :: m) (al, name) m2 := by
      rcases h2 with ⟨m6, h6, t2, m7, ⟨rfl, hk2⟩, h7, rfl⟩ | ⟨h6, h7, rfl⟩
      · cases h7; exact .alias ⟨t, rfl, hk, rfl⟩ h6 ⟨t2, rfl, hk2, rfl⟩
      · cases h7; exact .plain ⟨t, rfl, hk, rfl⟩ h6
    rcases h5 with h5 | ⟨rfl, h5, rfl⟩
    · exact .node hf h3 h4 h5
    · exact .leaf hf h3 h4 h5

theorem via_selection (n : Nat) {sel osel : P (List Selection)} (hs : Via D SelF [(.punctuator, b!"{")] (SelSet pf true) sel)
    (ho : Via D SelF SelF (OptSelSet pf true) osel) :
    Via D SelF [(.name, b!"a")] (Sel pf true) (do
        if ← skip1 .punctuator b!"..." then
          let t ← cur
          if t.kind = .name ∧ t.lit ≠ b!"on" then parseFragmentSpread pf n
          else parseInlineFragment pf n sel
        else parseField pf n osel) := by
  have hf := via_field hD n ho
  have st := hf.start
  refine (via_ite (F := SelF) (D1 := D) (R2 := Sel pf true) (fun e t s _ _ h => hD e [t] s h) (by decide)
    (via_curIte (H := [(.name, b!"a")]) (φ := fun t : Token => t.kind = .name ∧ t.lit ≠ b!"on") (via_spread hD n) (via_inline hD hon n hs) ?_ ?_)
    ?_ hf.err ?_).imp ?_
  · rintro ts a ⟨t, m, ds, h1, hk, h2, rfl⟩
    have h3 := (dirs_eats h2).length
    rw [h1] at h3
    simp at h3
    omega
  · refine ⟨[tkn .name b!"a"], .spread b!"a" [], (by plain), fun r' hr => ⟨.inl ⟨⟨rfl, show b!"a" ≠ b!"on" by decide⟩, tkn .name b!"a", r', [], rfl, rfl, ⟨.nil _, ?_⟩, rfl⟩, List.mem_singleton.2 rfl⟩⟩
    exact hr.notNext (by decide) (by decide)
  · intro ts a r hn h
    obtain ⟨c, rfl, k⟩ := hf.ok _ _ _ h
    exact ⟨c, rfl, fun _ => by decide, k⟩
  · obtain ⟨w, a, hw, k⟩ := st
    refine ⟨w, a, hw, fun r' hr => ⟨.inr ⟨?_, (k r' hr).1⟩, (k r' hr).2⟩⟩
    exact (k r' hr).2.notNext (by decide) (by decide)
  · rintro ts a r (⟨m, h1, ⟨h2, t, m2, ds, rfl, hk, h3, rfl⟩ | ⟨c, m2, ds, m3, sels, h2, h3, h4, rfl⟩⟩ | ⟨-, h⟩)
    · exact .spread h1 ⟨t, rfl, hk, rfl⟩ h2.2 h3
    · exact .inline h1 h2 h3 h4
    · exact h

theorem via_selectionSet (n : Nat) : (∀ F, Via D F [(.punctuator, b!"{")] (SelSet pf true) (parseSelectionSet pf n false)) ∧
    (∀ F, (.punctuator, b!"{") ∉ F → Via D F F (OptSelSet pf true) (parseSelectionSet pf n true)) := by
  have leaf : ∀ r', Sel pf true (tkn .name b!"a" :: tkn .punctuator b!"}" :: r') (.field [] b!"a" [] [] []) (tkn .punctuator b!"}" :: r') := fun r' =>
    .leaf (.plain ⟨_, rfl, rfl, rfl⟩ (tok1_ne ⟨_, rfl, rfl, rfl⟩ (.inr (by decide)))) (.none (tok1_ne ⟨_, rfl, rfl, rfl⟩ (.inr (by decide))))
      ⟨.nil _, tok1_ne ⟨_, rfl, rfl, rfl⟩ (.inr (by decide))⟩ (tok1_ne ⟨_, rfl, rfl, rfl⟩ (.inr (by decide)))
  have st : ∀ F, ∃ w a, Pl w ∧ ∀ r', In F r' → SelSet pf true (w ++ r') a r' ∧ In [(.punctuator, b!"{")] (w ++ r') := fun F =>
    ⟨[tkn .punctuator b!"{", tkn .name b!"a", tkn .punctuator b!"}"], _, (by plain), fun r' _ => ⟨.mk ⟨_, rfl, rfl, rfl⟩ (.one (leaf r')) ⟨_, rfl, rfl, rfl⟩, List.mem_singleton.2 rfl⟩⟩
  have sto : ∀ F, (.punctuator, b!"{") ∉ F → ∃ w a, Pl w ∧ ∀ r', In F r' → OptSelSet pf true (w ++ r') a r' ∧ In F (w ++ r') := fun F hF =>
    ⟨[], [], (by plain), fun r' hr => ⟨.inr ⟨rfl, hr.notNext (by decide) hF, rfl⟩, hr⟩⟩
  induction n with
  | zero => exact ⟨fun F => ⟨fun ts a r h => (oof_ok.1 h).elim, (fun ts e r h => by cases h), st F⟩,
      fun F hF => ⟨fun ts a r h => (oof_ok.1 h).elim, (fun ts e r h => by cases h), sto F hF⟩⟩
  | succ n ih =>
    have inner : ∀ F, Via D F [(.name, b!"a")] (fun ts as r => ∃ m, Many (Sel pf true) ts as m ∧ as ≠ [] ∧ Pu b!"}" m r) _ := fun F =>
      via_doPeekEof (l := b!"}") (via_selection hD hon n (ih.1 SelF) (ih.2 SelF (by decide))) hD
    have mk : ∀ {ts as r}, (∃ m, Tok1 .punctuator b!"{" ts m ∧ ∃ m2, Many (Sel pf true) m as m2 ∧ as ≠ [] ∧ Pu b!"}" m2 r) → SelSet pf true ts as r := by
      rintro ts as r ⟨m, h1, m2, h2, h3, h4⟩
      exact .mk h1 (sels_of_many h2 h3) h4
    constructor
    · intro F
      rw [parseSelectionSet]
      exact (via_must hD (inner F)).imp (fun ts a r h => mk h)
    · intro F hF
      rw [parseSelectionSet]
      refine (via_may hD (inner F) hF).imp ?_
      rintro ts a r (h | ⟨h1, rfl, rfl⟩)
      · exact .inl (mk h)
      · exact .inr ⟨rfl, h1, rfl⟩

end

end GQL
