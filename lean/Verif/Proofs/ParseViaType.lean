/-
Completing what has been read: types.
-/
import Verif.Proofs.ParseViaParts

namespace GQL
open Spec Spec.Syntax

theorem late_unexpected {t : Token} {w : List Bytes} (h : w ≠ enumWant) : late (.unexpected t w) = false := by simpa [late] using h

/-- What may follow a type. -/
def TyF : Fol := [(.eof, []), (.punctuator, b!")"), (.punctuator, b!"}"), (.punctuator, b!"{"), (.punctuator, b!"|"), (.punctuator, b!"&")]
/-- What may follow a type in a type. -/
def TyB : Fol := (.punctuator, b!"]") :: TyF

/-- The tokens of types. -/
def TypeTok (t : Token) : Prop :=
  t.kind = .name ∨ (t.kind = .punctuator ∧ (t.lit = b!"[" ∨ t.lit = b!"]" ∨ t.lit = b!"!"))

def OpenTok (t : Token) : Prop := t.kind = .punctuator ∧ t.lit = b!"["

/-- `[` and more tokens of types. -/
def Brackets (c : Toks) : Prop := ∃ t y, c = t :: y ∧ OpenTok t ∧ ∀ u ∈ y, TypeTok u

/-- It asks for `]` or for a named type. -/
def AsksType : PErr → Prop
  | .unexpected _ w => w = [expected .punctuator [b!"]"]] ∨ w = [b!"NamedType"]
  | _ => False

structure TyOk (ts : Toks) (t : Ty) (r : Toks) (c : Toks) : Prop where
  eq : ts = c ++ r
  ne : c ≠ []
  toks : ∀ u ∈ c, TypeTok u
  swap : ∀ r', (hd r' = hd r ∨ In TyF r') → TypeRef true (c ++ r') t r'
  compl : ∃ w t', Pl w ∧ ∀ r', In TyB r' → TypeRef true (c ++ (w ++ r')) t' r'
  shape : (∃ n b, t = .named n b) ∨ Brackets c

structure TyErr (ts : Toks) (e : PErr) (r : Toks) (c : Toks) : Prop where
  eq : ts = c ++ r
  late : late e = false
  toks : ∀ u ∈ c, TypeTok u
  swap : ∀ r', (hd r' = hd r ∨ In TyF r') → TypeStuck true (c ++ r') r'
  compl : ∃ w t', Pl w ∧ ∀ r', In TyB r' → TypeRef true (c ++ (w ++ r')) t' r'
  shape : c = [] ∨ (Brackets c ∧ AsksType e)

theorem bang_run {m r : Toks} {b : Bool} (h : skip1 .punctuator b!"!" m = .ok b r) : ∃ c, m = c ++ r ∧ (∀ u ∈ c, TypeTok u) ∧
    ∀ r', (hd r' = hd r ∨ In TyB r') → Bang (c ++ r') b r' := by
  rcases (skip1_ok (by decide)).1 h with ⟨rfl, t, rfl, h1, h2⟩ | ⟨rfl, h1, rfl⟩
  · refine ⟨[t], rfl, fun u hu => ?_, fun r' _ => .inl ⟨rfl, t, rfl, h1, h2⟩⟩
    rw [List.mem_singleton.1 hu]
    exact .inr ⟨h1, .inr (.inr h2)⟩
  · refine ⟨[], rfl, (fun u hu => by cases hu), fun r' hr => .inr ⟨rfl, ?_, rfl⟩⟩
    exact hr.elim (fun h => notNext_congr (by decide) h h1) (fun h => h.notNext (by decide) (by decide))

theorem type_run (n : Nat) : (∀ ts t r, parseType n ts = .ok t r → ∃ c, TyOk ts t r c) ∧ ∀ ts e r, parseType n ts = .err e r → ∃ c, TyErr ts e r c := by
  have hsub : TyF ⊆ TyB := by decide
  induction n with
  | zero => exact ⟨fun ts a r h => (oof_ok.1 h).elim, fun ts e r h => by cases h⟩
  | succ n ih =>
    have closeIn : ∀ r', In TyB (tkn .punctuator b!"]" :: r') := fun r' => (by decide : (TokenKind.punctuator, b!"]") ∈ TyB)
    have nobang : ∀ r', In TyB r' → Bang r' false r' := fun r' hr => .inr ⟨rfl, hr.notNext (by decide) (by decide), rfl⟩
    have close : ∀ {t0 : Token} {c1 : Toks}, OpenTok t0 → (∃ w t', Pl w ∧ ∀ r', In TyB r' → TypeRef true (c1 ++ (w ++ r')) t' r') →
        ∃ w t', Pl w ∧ ∀ r', In TyB r' → TypeRef true (t0 :: c1 ++ (w ++ r')) t' r' := by
      rintro t0 c1 h0 ⟨w, t', hw, k⟩
      refine ⟨w ++ [tkn .punctuator b!"]"], .list t' false, (by plain), fun r' hr => ?_⟩
      refine .list (r1 := c1 ++ (w ++ (tkn .punctuator b!"]" :: r'))) ⟨t0, ?_, h0.1, h0.2⟩ (k _ (closeIn r')) ⟨_, rfl, rfl, rfl⟩ (nobang r' hr)
      simp
    have nameBranch : ∀ ts, NotNext1 .punctuator b!"[" ts →
        (∀ t r, (do
          let t ← mustConsume0 .name
          return Ty.named t.lit (← skip1 .punctuator b!"!") : P Ty) ts = .ok t r → ∃ c, TyOk ts t r c) ∧
        (∀ e r, (do
          let t ← mustConsume0 .name
          return Ty.named t.lit (← skip1 .punctuator b!"!") : P Ty) ts = .err e r → ∃ c, TyErr ts e r c) := by
      intro ts hn
      constructor
      · intro t r h
        obtain ⟨t1, m, e1, h⟩ := bind_ok.1 h
        obtain ⟨b, m2, e2, h⟩ := bind_ok.1 h
        obtain ⟨rfl, rfl⟩ := pure_ok.1 h
        obtain ⟨rfl, hk⟩ := (mustConsume0_ok (by decide)).1 e1
        obtain ⟨c, rfl, k1, k2⟩ := bang_run e2
        have key : ∀ r', (hd r' = hd m2 ∨ In TyB r') → TypeRef true (t1 :: c ++ r') (.named t1.lit b) r' :=
          fun r' hr => .named ⟨t1, rfl, hk, rfl⟩ (k2 r' hr)
        refine ⟨t1 :: c, rfl, by simp, ?_, fun r' hr => key r' (hr.imp id (fun h => h.mono hsub)), ⟨[], _, (by plain), fun r' hr => key r' (.inr hr)⟩, .inl ⟨_, _, rfl⟩⟩
        intro u hu
        rcases List.mem_cons.1 hu with rfl | hu
        · exact .inl hk
        · exact k1 u hu
      · intro e r h
        rcases bind_err.1 h with h | ⟨_, m, -, h⟩
        · obtain ⟨rfl, rfl⟩ := mustConsume0_err h
          obtain ⟨h1, -⟩ := notKind_of_mustConsume0 (by decide) h
          refine ⟨[], rfl, late_unexpected (by decide), (fun u hu => by cases hu), fun r' hr => ?_, ⟨[tkn .name b!"a"], .named b!"a" false, (by plain), fun r' hr => ?_⟩, .inl rfl⟩
          · refine .start ?_ ?_
            · exact hr.elim (fun h => notKind_congr (by decide) h h1) (fun h => h.notKind (by decide) (by decide))
            · exact hr.elim (fun h => notNext_congr (by decide) h hn) (fun h => h.notNext (by decide) (by decide))
          · exact .named ⟨_, rfl, rfl, rfl⟩ (nobang r' hr)
        · rcases bind_err.1 h with h | ⟨_, r2, -, h⟩
          · exact absurd h skip1_not_err
          · cases h
    constructor
    · intro ts v r h
      rw [parseType, skip1_bind (by decide)] at h
      rcases h with ⟨m, ⟨t0, rfl, h01, h02⟩, h⟩ | ⟨hn1, h⟩
      · change (match parseType n m with | .err _ r => _ | .panic => _ | .oof => _ | .ok t r => _) = _ at h
        cases e : parseType n m with
        | panic => rw [e] at h; cases h
        | oof => rw [e] at h; cases h
        | err er r' =>
          rw [e] at h; cases h
          obtain ⟨c1, k⟩ := ih.2 _ _ _ e
          cases k.eq
          have hb : ∀ u ∈ t0 :: c1, TypeTok u := by
            intro u hu
            rcases List.mem_cons.1 hu with rfl | hu
            · exact .inr ⟨h01, .inl h02⟩
            · exact k.toks u hu
          exact ⟨t0 :: c1, rfl, by simp, hb, fun r' hr => .broken rfl ⟨t0, rfl, h01, h02⟩ (k.swap r' hr), close ⟨h01, h02⟩ k.compl,
            .inr ⟨t0, c1, rfl, ⟨h01, h02⟩, k.toks⟩⟩
        | ok t r1 =>
          rw [e] at h; simp only at h
          rw [mustConsume1_bind (by decide)] at h
          obtain ⟨r2, ⟨t1, rfl, h11, h12⟩, h⟩ := h
          obtain ⟨b, r3, h3, h⟩ := bind_ok.1 h
          obtain ⟨rfl, rfl⟩ := pure_ok.1 h
          obtain ⟨c1, k⟩ := ih.1 _ _ _ e
          cases k.eq
          obtain ⟨c2, rfl, k1, k2⟩ := bang_run h3
          have key : ∀ r', (hd r' = hd r3 ∨ In TyB r') → TypeRef true (t0 :: (c1 ++ t1 :: c2) ++ r') (.list t b) r' := fun r' hr => by
            refine .list (r1 := c1 ++ (t1 :: (c2 ++ r'))) ⟨t0, by simp, h01, h02⟩ (k.swap _ (.inl rfl)) ⟨t1, rfl, h11, h12⟩ (k2 r' hr)
          have hb : ∀ u ∈ c1 ++ t1 :: c2, TypeTok u := by
            intro u hu
            rcases List.mem_append.1 hu with hu | hu
            · exact k.toks u hu
            rcases List.mem_cons.1 hu with rfl | hu
            · exact .inr ⟨h11, .inr (.inl h12)⟩
            · exact k1 u hu
          refine ⟨t0 :: (c1 ++ t1 :: c2), by simp, by simp, ?_, fun r' hr => key r' (hr.imp id (fun h => h.mono hsub)),
            ⟨[], _, (by plain), fun r' hr => key r' (.inr hr)⟩, .inr ⟨t0, _, rfl, ⟨h01, h02⟩, hb⟩⟩
          intro u hu
          rcases List.mem_cons.1 hu with rfl | hu
          · exact .inr ⟨h01, .inl h02⟩
          · exact hb u hu
      · exact (nameBranch ts hn1).1 _ _ h
    · intro ts e r h
      rw [parseType, bind_err] at h
      rcases h with h | ⟨b, m, h0, h⟩
      · exact absurd h skip1_not_err
      rcases (skip1_ok (by decide)).1 h0 with ⟨rfl, t0, rfl, h01, h02⟩ | ⟨rfl, h1, rfl⟩
      · change (match parseType n m with | .err _ r => _ | .panic => _ | .oof => _ | .ok t r => _) = _ at h
        cases e : parseType n m with
        | panic => rw [e] at h; cases h
        | oof => rw [e] at h; cases h
        | err er r' => rw [e] at h; cases h
        | ok t r' =>
          rw [e] at h; simp only at h
          rw [bind_err] at h
          rcases h with h | ⟨_, r2, -, h⟩
          · obtain ⟨h2, rfl⟩ := mustConsume1_err (by decide) h
            obtain ⟨-, rfl⟩ := mustConsume1_err' h
            obtain ⟨c1, k⟩ := ih.1 _ _ _ e
            cases k.eq
            refine ⟨t0 :: c1, rfl, late_unexpected (by decide), ?_, fun r' hr => .unclosed ⟨t0, rfl, h01, h02⟩ (k.swap r' hr) ?_, close ⟨h01, h02⟩ k.compl,
              .inr ⟨⟨t0, c1, rfl, ⟨h01, h02⟩, k.toks⟩, .inl rfl⟩⟩
            · intro u hu
              rcases List.mem_cons.1 hu with rfl | hu
              · exact .inr ⟨h01, .inl h02⟩
              · exact k.toks u hu
            · exact hr.elim (fun h => notNext_congr (by decide) h h2) (fun h => h.notNext (by decide) (by decide))
          · rw [bind_err] at h
            rcases h with h | ⟨_, r2, -, h⟩
            · exact absurd h skip1_not_err
            · cases h
      · exact (nameBranch _ h1).2 _ _ h

section
variable {D : PErr → Toks → Prop} {F : Fol}

theorem beforeE_notLate {e : PErr} {c : Toks} (h : late e = false) : beforeE e c = c := by
  unfold beforeE; rw [h]; rfl

theorem via_type (n : Nat) (hF : F ⊆ TyF := by decide) : Via D F [(.name, b!"a")] (TypeRef true) (parseType n) := by
  have hB : TyF ⊆ TyB := by decide
  constructor
  · intro ts t r h
    obtain ⟨c, k⟩ := (type_run n).1 _ _ _ h
    exact ⟨c, k.eq, fun r' hr => k.swap r' (hr.imp id (fun h => h.mono hF))⟩
  · intro ts e r h
    obtain ⟨c, k⟩ := (type_run n).2 _ _ _ h
    obtain ⟨w, t, hw, k2⟩ := k.compl
    refine ⟨c, k.eq, fun hl => by (rw [k.late] at hl; cases hl), .inr (.inr ⟨w, t, hw, fun r' hr => ?_⟩)⟩
    rw [beforeE_notLate k.late]
    exact k2 r' ((hr.mono hF).mono hB)
  · exact ⟨[tkn .name b!"a"], .named b!"a" false, (by plain), fun r' hr => ⟨.named ⟨_, rfl, rfl, rfl⟩
      (.inr ⟨rfl, (hr.mono hF).notNext (by decide) (by decide), rfl⟩), List.mem_singleton.2 rfl⟩⟩

/-- A type that must be a name. -/
theorem via_named (hDB : ∀ e s, AsksType e → Brackets s → D e s) (n : Nat) (hF : F ⊆ TyF := by decide) :
    Via D F [(.name, b!"a")] (NamedType true) (parseType n >>= fun t => mustBeNamed t >>= fun _ => pure t) := by
  constructor
  · intro ts t r h
    obtain ⟨t', m, e1, h⟩ := bind_ok.1 h
    obtain ⟨_, m2, e2, h⟩ := bind_ok.1 h
    obtain ⟨rfl, rfl⟩ := pure_ok.1 h
    obtain ⟨rfl, hn⟩ := mustBeNamed_ok.1 e2
    obtain ⟨c, k⟩ := (type_run n).1 _ _ _ e1
    exact ⟨c, k.eq, fun r' hr => namedType_of (k.swap r' (hr.imp id (fun h => h.mono hF))) hn⟩
  · intro ts e r h
    rcases bind_err.1 h with h | ⟨t, m, e1, h⟩
    · obtain ⟨c, k⟩ := (type_run n).2 _ _ _ h
      refine ⟨c, k.eq, fun hl => by (rw [k.late] at hl; cases hl), ?_⟩
      rw [beforeE_notLate k.late]
      exact k.shape.imp id (fun h => .inl (hDB _ _ h.2 h.1))
    · rcases bind_err.1 h with h | ⟨_, m2, -, h⟩
      · obtain ⟨c, k⟩ := (type_run n).1 _ _ _ e1
        rcases k.shape with ⟨x, b, rfl⟩ | hb
        · cases h
        · have : r = m ∧ e = .unexpected (hd m) [b!"NamedType"] := by
            unfold mustBeNamed at h
            cases t with
            | named => cases h
            | list => exact unexpectedCur_err h
            | listNil => exact unexpectedCur_err h
          obtain ⟨rfl, rfl⟩ := this
          refine ⟨c, k.eq, (fun hl => by (rw [late_unexpected (by decide)] at hl; cases hl)), .inr (.inl (hDB _ _ (.inr rfl) ?_))⟩
          rw [beforeE_notLate (late_unexpected (by decide))]
          exact hb
      · cases h
  · exact ⟨[tkn .name b!"a"], .named b!"a" false, (by plain), fun r' hr => ⟨.mk ⟨_, rfl, rfl, rfl⟩
      (.inr ⟨rfl, (hr.mono hF).notNext (by decide) (by decide), rfl⟩) (.inl rfl), List.mem_singleton.2 rfl⟩⟩

end

end GQL
