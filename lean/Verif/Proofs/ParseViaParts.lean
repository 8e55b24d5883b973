/-
Completing what has been read: values, arguments, directives.
-/
import Verif.Proofs.ParseViaLoop

namespace GQL
open Spec Spec.Syntax

/-- `Via`, for what always consumes something, without an example. -/
structure Via0 {α : Type} (D : PErr → Toks → Prop) (F : Fol) (R : Toks → α → Toks → Prop) (p : P α) : Prop where
  ok : ∀ ts a r, p ts = .ok a r → ∃ c, c ≠ [] ∧ ts = c ++ r ∧ ∀ r', (hd r' = hd r ∨ In F r') → R (c ++ r') a r'
  err : ∀ ts e r, p ts = .err e r → ∃ c, ts = c ++ r ∧ (late e = true → c ≠ []) ∧
    (beforeE e c = [] ∨ D e (beforeE e c) ∨ ∃ w a, Pl w ∧ ∀ r', In F r' → R (beforeE e c ++ (w ++ r')) a r')

section
variable {D : PErr → Toks → Prop} {F H1 H : Fol} {α : Type}

theorem Via0.via {R : Toks → α → Toks → Prop} {p : P α} (h : Via0 D F R p) (st : ∃ w a, Pl w ∧ ∀ r', In F r' → R (w ++ r') a r' ∧ In H (w ++ r')) :
    Via D F H R p := by
  refine ⟨fun ts a r hp => ?_, h.err, st⟩
  obtain ⟨c, -, h1, h2⟩ := h.ok ts a r hp
  exact ⟨c, h1, h2⟩

theorem via0_ite {R1 R : Toks → α → Toks → Prop} {k : TokenKind} {l : Bytes} {p q : P α} (hD : Closed D)
    (h1 : Via D F H1 R1 p) (hR : ∀ ts m a r, Tok1 k l ts m → R1 m a r → R ts a r)
    (h2 : Via0 D F (fun ts a r => NotNext1 k l ts → R ts a r) q) (hk : k ≠ .eof := by decide) :
    Via0 D F R (skip1 k l >>= fun b => if b = true then p else q) := by
  constructor
  · intro ts a r h
    rcases (skip1_bind hk).1 h with ⟨m, ⟨t, rfl, k1, k2⟩, e2⟩ | ⟨e1, e2⟩
    · obtain ⟨c, rfl, k3⟩ := h1.ok _ _ _ (by simpa using e2)
      exact ⟨t :: c, by simp, rfl, fun r' hr => hR _ _ _ _ ⟨t, rfl, k1, k2⟩ (k3 r' hr)⟩
    · obtain ⟨c, hc, rfl, k2⟩ := h2.ok _ _ _ (by simpa using e2)
      exact ⟨c, hc, rfl, fun r' hr => k2 r' hr (notNext_congr hk (hd_append hc _) e1)⟩
  · intro ts e r h
    rcases bind_err.1 h with h | ⟨b, m, e1, e2⟩
    · exact absurd h skip1_not_err
    rcases (skip1_ok hk).1 e1 with ⟨rfl, t, rfl, k1, k2⟩ | ⟨rfl, k1, rfl⟩
    · obtain ⟨c, rfl, k3, k4⟩ := h1.err _ _ _ (by simpa using e2)
      refine ⟨t :: c, rfl, by simp, ?_⟩
      have := beforeE_append (e := e) (c1 := [t]) k3
      rw [List.singleton_append] at this
      rw [this]
      rcases k4 with k4 | k4 | ⟨w, a, hw, k4⟩
      · obtain ⟨w, a, hw, k5⟩ := h1.start
        refine .inr (.inr ⟨w, a, hw, fun r' hr => hR _ (w ++ r') _ _ ⟨t, ?_, k1, k2⟩ (k5 r' hr).1⟩)
        rw [k4]; rfl
      · exact .inr (.inl (hD _ _ _ k4))
      · exact .inr (.inr ⟨w, a, hw, fun r' hr => hR _ _ _ _ ⟨t, rfl, k1, k2⟩ (k4 r' hr)⟩)
    · obtain ⟨c, rfl, k2, k3⟩ := h2.err _ _ _ (by simpa using e2)
      refine ⟨c, rfl, k2, ?_⟩
      by_cases hs : beforeE e c = []
      · exact .inl hs
      rcases k3 with k3 | k3 | ⟨w, a, hw, k3⟩
      · exact .inl k3
      · exact .inr (.inl k3)
      · exact .inr (.inr ⟨w, a, hw, fun r' hr => k3 r' hr (notNext_congr hk (hd_before hs _) k1)⟩)

/-- A token of the kind, which may turn out to be wrong. -/
theorem via0_opt {R : Toks → α → Toks → Prop} {k : TokenKind} {f : Option Token → P α}
    (h1 : ∀ t r a r2, t.kind = k → f (some t) r = .ok a r2 → r2 = r ∧ ∀ r', R (t :: r') a r')
    (h2 : ∀ t r e r2, t.kind = k → f (some t) r = .err e r2 → r2 = r ∧ late e = true)
    (h3 : Via0 D F (fun ts a r => NotKind k ts → R ts a r) (f none)) (hk : k ≠ .eof := by decide) :
    Via0 D F R (consume0 k >>= f) := by
  constructor
  · intro ts a r h
    obtain ⟨o, m, e1, e2⟩ := bind_ok.1 h
    rcases (consume0_ok hk).1 e1 with ⟨t, rfl, rfl, k1⟩ | ⟨rfl, k1, rfl⟩
    · obtain ⟨rfl, k2⟩ := h1 _ _ _ _ k1 e2
      exact ⟨[t], by simp, rfl, fun r' _ => k2 r'⟩
    · obtain ⟨c, hc, rfl, k2⟩ := h3.ok _ _ _ e2
      exact ⟨c, hc, rfl, fun r' hr => k2 r' hr (notKind_congr hk (hd_append hc _) k1)⟩
  · intro ts e r h
    rcases bind_err.1 h with h | ⟨o, m, e1, e2⟩
    · exact absurd h consume0_not_err
    rcases (consume0_ok hk).1 e1 with ⟨t, rfl, rfl, k1⟩ | ⟨rfl, k1, rfl⟩
    · obtain ⟨rfl, k2⟩ := h2 _ _ _ _ k1 e2
      exact ⟨[t], rfl, by simp, .inl (by unfold beforeE; rw [k2]; rfl)⟩
    · obtain ⟨c, rfl, k2, k3⟩ := h3.err _ _ _ e2
      refine ⟨c, rfl, k2, ?_⟩
      by_cases hs : beforeE e c = []
      · exact .inl hs
      rcases k3 with k3 | k3 | ⟨w, a, hw, k3⟩
      · exact .inl k3
      · exact .inr (.inl k3)
      · exact .inr (.inr ⟨w, a, hw, fun r' hr => k3 r' hr (notKind_congr hk (hd_before hs _) k1)⟩)

theorem consumen_not_err {k : TokenKind} {ls : List Bytes} {ts r : Toks} {e : PErr} : consumen k ls ts ≠ .err e r := by
  unfold consumen
  rw [bind_eq (cur_eq ts)]
  intro h
  split at h
  · cases h
  · split at h
    · cases h
    · split at h <;> cases h

/-- A token of the kind with one of the literals. -/
theorem via0_optn {R : Toks → α → Toks → Prop} {k : TokenKind} {ls : List Bytes} {f : Option Token → P α}
    (h1 : ∀ t r a r2, t.kind = k → t.lit ∈ ls → f (some t) r = .ok a r2 → r2 = r ∧ ∀ r', R (t :: r') a r')
    (h2 : ∀ t r e r2, f (some t) r ≠ .err e r2)
    (h3 : Via0 D F (fun ts a r => (∀ l ∈ ls, NotNext1 k l ts) → R ts a r) (f none)) (hk : k ≠ .eof := by decide) (hl : ls ≠ [] := by decide) :
    Via0 D F R (consumen k ls >>= f) := by
  constructor
  · intro ts a r h
    obtain ⟨o, m, e1, e2⟩ := bind_ok.1 h
    rcases (consumen_ok hk hl).1 e1 with ⟨t, rfl, rfl, k1, k2⟩ | ⟨rfl, k1, rfl⟩
    · obtain ⟨rfl, k2⟩ := h1 _ _ _ _ k1 k2 e2
      exact ⟨[t], by simp, rfl, fun r' _ => k2 r'⟩
    · obtain ⟨c, hc, rfl, k2⟩ := h3.ok _ _ _ e2
      exact ⟨c, hc, rfl, fun r' hr => k2 r' hr (fun l hl => notNext_congr hk (hd_append hc _) (k1 l hl))⟩
  · intro ts e r h
    rcases bind_err.1 h with h | ⟨o, m, e1, e2⟩
    · exact absurd h consumen_not_err
    rcases (consumen_ok hk hl).1 e1 with ⟨t, rfl, rfl, k1, k2⟩ | ⟨rfl, k1, rfl⟩
    · exact absurd e2 (h2 _ _ _ _)
    · obtain ⟨c, rfl, k2, k3⟩ := h3.err _ _ _ e2
      refine ⟨c, rfl, k2, ?_⟩
      by_cases hs : beforeE e c = []
      · exact .inl hs
      rcases k3 with k3 | k3 | ⟨w, a, hw, k3⟩
      · exact .inl k3
      · exact .inr (.inl k3)
      · exact .inr (.inr ⟨w, a, hw, fun r' hr => k3 r' hr (fun l hl => notNext_congr hk (hd_before hs _) (k1 l hl))⟩)

theorem via0_fail {R : Toks → α → Toks → Prop} {e : PErr} (he : late e = false) : Via0 D F R (fail e) := by
  constructor
  · intro ts a r h; cases h
  · intro ts e' r h; cases h; exact via_err0 rfl he

end

section
variable {pf : Bytes → Option Nat} {D : PErr → Toks → Prop} (hD : Closed D) {F : Fol}
include hD

/-- The fields of an object and arguments. -/
theorem via_member {p : P Value} {c : Bool} {β : Type} (g : Bytes → Value → β) (h : Via D F [(.name, b!"a")] (Val pf true c) p) :
    Via D F [(.name, b!"a")] (fun ts b r => ∃ n v r1 r2, b = g n v ∧ Nm n ts r1 ∧ Pu b!":" r1 r2 ∧ Val pf true c r2 v r)
      (do
        let t ← mustConsume0 .name
        let _ ← mustConsume1 .punctuator b!":"
        let v ← p
        return g t.lit v) := by
  refine (via_bind hD (F1 := F ++ [(.punctuator, b!":")]) (via_tok0 b!"a") (fun t => via_bind hD (F1 := F ++ [(.name, b!"a")]) via_tok1 (fun _ =>
    via_bind hD h (fun v => via_pure (F := F) _) (List.Subset.refl F) (List.Subset.refl F)) ?_ ?_) ?_ ?_).imp ?_
  · simp
  · simp
  · simp
  · simp
  · rintro ts b r ⟨t, m, ⟨rfl, hk⟩, _, m2, h2, v, m3, h3, rfl, rfl⟩
    exact ⟨t.lit, v, _, _, rfl, ⟨t, rfl, hk, rfl⟩, h2, h3⟩

theorem via_value (n : Nat) (c : Bool) : ∀ F, Via D F [(.name, b!"a")] (Val pf true c) (parseValue pf n) := by
  have st : ∀ F, ∃ w a, Pl w ∧ ∀ r', In F r' → Val pf true c (w ++ r') a r' ∧ In [(.name, b!"a")] (w ++ r') := fun F =>
    ⟨[tkn .name b!"a"], .enum b!"a", (by plain), fun r' _ => ⟨.enum ⟨_, rfl, rfl, rfl⟩ (by decide) (by decide) (by decide), List.mem_singleton.2 rfl⟩⟩
  induction n with
  | zero => exact fun F => ⟨fun ts a r h => (oof_ok.1 h).elim, (fun ts e r h => by cases h), st F⟩
  | succ n ih =>
    intro F
    refine Via0.via ?_ (st F)
    rw [parseValue]
    refine via0_ite hD (via_bind hD (F1 := F) (via_tok0 b!"a") (fun t => via_pure (F := F) (Value.var t.lit)) (List.Subset.refl F) (List.Subset.refl F)) ?_ ?_
    · rintro ts m a r h1 ⟨t, m2, ⟨rfl, hk⟩, rfl, rfl⟩
      exact .var (.inr rfl) h1 ⟨t, rfl, hk, rfl⟩
    refine via0_opt ?_ ?_ ?_
    · intro t r a r2 hk h
      simp only at h
      cases e : atoi t.lit with
      | none => rw [e] at h; cases h
      | some i =>
        rw [e] at h; cases h
        obtain ⟨h1, h2⟩ := atoi_iff.1 e
        exact ⟨rfl, fun r' _ => .int ⟨t, rfl, hk, rfl⟩ h1 h2⟩
    · intro t r er r2 hk h
      simp only at h
      cases e : atoi t.lit with
      | none => rw [e] at h; cases h; exact ⟨rfl, rfl⟩
      | some i => rw [e] at h; cases h
    refine via0_opt ?_ ?_ ?_
    · intro t r a r2 hk h
      simp only at h
      cases e : pf t.lit with
      | none => rw [e] at h; cases h
      | some i =>
        rw [e] at h; cases h
        exact ⟨rfl, fun r' _ _ => .float ⟨t, rfl, hk, rfl⟩ e⟩
    · intro t r er r2 hk h
      simp only at h
      cases e : pf t.lit with
      | none => rw [e] at h; cases h; exact ⟨rfl, rfl⟩
      | some i => rw [e] at h; cases h
    refine via0_opt ?_ (fun t r e r2 _ h => by cases h) ?_
    · intro t r a r2 hk h
      cases h
      exact ⟨rfl, fun r' _ _ _ => .str ⟨t, rfl, hk, rfl⟩⟩
    refine via0_optn ?_ (fun t r e r2 h => by cases h) ?_
    · intro t r a r2 hk hm h
      cases h
      refine ⟨rfl, fun r' _ _ _ _ => ?_⟩
      rcases List.mem_cons.1 hm with hm | hm
      · rw [hm]; exact .tru ⟨t, rfl, hk, hm⟩
      · rw [List.mem_singleton.1 hm]; exact .fls ⟨t, rfl, hk, List.mem_singleton.1 hm⟩
    refine via0_ite hD (via_pure (F := F) Value.null) ?_ ?_
    · rintro ts m a r h1 ⟨rfl, rfl⟩ _ _ _ _ _
      exact .null h1
    refine via0_opt ?_ (fun t r e r2 _ h => by cases h) ?_
    · intro t r a r2 hk h
      cases h
      refine ⟨rfl, fun r' h1 h2 _ _ _ _ => .enum ⟨t, rfl, hk, rfl⟩ ?_ ?_ ?_⟩
      · intro he; exact h2 _ (by decide) r' ⟨t, rfl, hk, he⟩
      · intro he; exact h2 _ (by decide) r' ⟨t, rfl, hk, he⟩
      · intro he; exact h1 r' ⟨t, rfl, hk, he⟩
    refine via0_ite hD (via_bind hD (F1 := F) (via_until (Fb := [(.punctuator, b!"]")]) (ih _) hD) (fun vs => via_pure (F := F) (Value.list vs)) (List.Subset.refl F) (List.Subset.refl F)) ?_ ?_
    · rintro ts m a r h1 ⟨vs, m2, ⟨m3, h2, h3⟩, rfl, rfl⟩ _ _ _ _ _ _ _
      exact .list h1 (many_vals.1 h2) h3
    refine via0_ite hD (via_bind hD (F1 := F) (via_until (Fb := [(.punctuator, b!"}")]) (Rb := Fld pf true c) ((via_member hD (fun n v => (n, v)) (ih _)).imp (fun ts b r h => by
        obtain ⟨n, v, r1, r2, rfl, h1, h2, h3⟩ := h
        exact ⟨r1, r2, h1, h2, h3⟩)) hD)
      (fun fs => via_pure (F := F) (Value.obj fs)) (List.Subset.refl F) (List.Subset.refl F)) ?_ ?_
    · rintro ts m a r h1 ⟨fs, m2, ⟨m3, h2, h3⟩, rfl, rfl⟩ _ _ _ _ _ _ _ _
      exact .obj h1 (many_flds.1 h2) h3
    exact via0_fail rfl

theorem via_default (n : Nat) (hF : (.punctuator, b!"=") ∉ F := by decide) : Via D F F (Default pf true) (parseDefaultValue pf n) := by
  rw [parseDefaultValue]
  refine (via_may hD (via_bind hD (F1 := F) (via_value hD n true F) (fun v => via_pure (F := F) (some v)) (List.Subset.refl F) (List.Subset.refl F)) hF).imp ?_
  rintro ts a r (⟨m, h1, v, m2, h2, rfl, rfl⟩ | ⟨h1, rfl, rfl⟩)
  · exact .some h1 h2
  · exact .none h1

theorem via_arguments (n : Nat) (c : Bool) (hF : (.punctuator, b!"(") ∉ F := by decide) : Via D F F (Args pf true c) (parseArguments pf n) := by
  rw [parseArguments]
  refine (via_may hD (via_until (Fb := [(.punctuator, b!")")]) (Rb := Arg pf true c)
    ((via_member hD (fun n v => (⟨n, v⟩ : Argument)) (via_value hD n c _)).imp (fun ts b r h => by
        obtain ⟨n, v, r1, r2, rfl, h1, h2, h3⟩ := h
        exact .mk h1 h2 h3)) hD) hF).imp ?_
  rintro ts a r (⟨m, h1, m2, h2, h3⟩ | ⟨h1, rfl, rfl⟩)
  · exact .some h1 h2 h3 (.inr rfl)
  · exact .none h1

theorem via_directives (n : Nat) (c : Bool) (loc : DirLoc) (hF : (.punctuator, b!"(") ∉ F := by decide) (hF2 : (.punctuator, b!"@") ∉ F := by decide) :
    Via D F F (Dirs pf true c loc) (parseDirectives pf n loc) := by
  rw [parseDirectives]
  refine via_while (Fb := F) (Hb := [(.punctuator, b!"@")]) ?_ hD (List.Subset.refl F) hF2
  refine (via_bind hD (F1 := F ++ [(.name, b!"a")]) via_tok1 (fun _ => via_bind hD (F1 := F) (via_tok0 b!"a") (fun t =>
    via_bind hD (F1 := F) (via_arguments hD n c hF) (fun as => via_pure (F := F) _) (List.Subset.refl F) (List.Subset.refl F)) (List.Subset.refl F) (List.Subset.refl F)) ?_ ?_).imp ?_
  · simp
  · simp
  · rintro ts a r ⟨_, m, h1, t, m2, ⟨rfl, hk⟩, as, m3, h3, rfl, rfl⟩
    exact .mk h1 ⟨t, rfl, hk, rfl⟩ h3

end

end GQL
