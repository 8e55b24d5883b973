/-
Completing what has been read: definitions and documents.
-/
import Verif.Proofs.ParseViaSDL

namespace GQL
open Spec Spec.Syntax

section
variable {D : PErr → Toks → Prop} {F H : Fol} {α : Type}

/-- What the code does may depend on what comes. -/
theorem via_cases {R : Toks → α → Toks → Prop} {q : P α}
    (h : ∀ ts, (∃ p H', Via D F H' R p ∧ q ts = p ts) ∨ (∃ e, q ts = .err e ts ∧ late e = false) ∨ q ts = .panic)
    (st : ∃ w a, Pl w ∧ ∀ r', In F r' → R (w ++ r') a r' ∧ In H (w ++ r')) : Via D F H R q := by
  constructor
  · intro ts a r hq
    rcases h ts with ⟨p, H', hp, e⟩ | ⟨e, he, -⟩ | hp
    · rw [e] at hq; exact hp.ok _ _ _ hq
    · rw [he] at hq; cases hq
    · rw [hp] at hq; cases hq
  · intro ts e r hq
    rcases h ts with ⟨p, H', hp, e⟩ | ⟨e, he, hl⟩ | hp
    · rw [e] at hq; exact hp.err _ _ _ hq
    · rw [he] at hq; cases hq; exact via_err0 rfl hl
    · rw [hp] at hq; cases hq
  · exact st

end

section
variable {pf : Bytes → Option Nat} {D : PErr → Toks → Prop} (hD : Closed D)
include hD

theorem via_typeDefn (n : Nat) (desc : Bytes) (k : TypeKind) : Via D Ef [(.name, k.keyword)] (TypeDefn pf true desc) (mustConsume1 .name k.keyword >>= fun _ => parseTypeBody pf n desc k) := by
  have h0 : ∀ {R2 : Token → Toks → TypeDef → Toks → Prop}, (∀ _t : Token, Via D Ef [(.name, b!"a")] (R2 _t) (parseTypeBody pf n desc k)) →
      Via D Ef [(.name, k.keyword)] (SeqD (fun ts (_ : Token) r => Tok1 .name k.keyword ts r) R2) (mustConsume1 .name k.keyword >>= fun _ => parseTypeBody pf n desc k) := fun h =>
    via_bind hD (F1 := [(.eof, []), (.name, b!"a")]) (via_tok1 (by decide) (by cases k <;> decide) (by cases k <;> decide)) h
  cases k with
  | scalar =>
    refine (h0 (fun _ => via_bind hD (F1 := Ef) (via_tok0 b!"a") (fun t => via_bind hD (F1 := Ef) (via_directives hD n true .scalar) (fun ds => via_pure (F := Ef) _)))).imp ?_
    rintro ts a r ⟨_, m1, h1, t, m2, ⟨rfl, hk⟩, ds, m3, h3, rfl, rfl⟩
    exact .scalar h1 ⟨t, rfl, hk, rfl⟩ h3
  | object =>
    refine (h0 (fun _ => via_bind hD (F1 := Ef) (via_tok0 b!"a") (fun t => via_bind hD (F1 := Ef) (via_implements hD n) (fun is => via_bind hD (F1 := Ef) (via_directives hD n true .object) (fun ds =>
      via_bind hD (F1 := Ef) (via_fields hD n) (fun fs => via_pure (F := Ef) _)))))).imp ?_
    rintro ts a r ⟨_, m1, h1, t, m2, ⟨rfl, hk⟩, is, m3, h3, ds, m4, h4, fs, m5, h5, rfl, rfl⟩
    exact .object h1 ⟨t, rfl, hk, rfl⟩ h3 h4 h5
  | interface =>
    refine (h0 (fun _ => via_bind hD (F1 := Ef) (via_tok0 b!"a") (fun t => via_bind hD (F1 := Ef) (via_directives hD n true .interface) (fun ds =>
      via_bind hD (F1 := Ef) (via_fields hD n) (fun fs => via_pure (F := Ef) _))))).imp ?_
    rintro ts a r ⟨_, m1, h1, t, m2, ⟨rfl, hk⟩, ds, m4, h4, fs, m5, h5, rfl, rfl⟩
    exact .interface h1 ⟨t, rfl, hk, rfl⟩ h4 h5
  | union =>
    refine (h0 (fun _ => via_bind hD (F1 := Ef) (via_tok0 b!"a") (fun t => via_bind hD (F1 := Ef) (via_directives hD n true .union) (fun ds =>
      via_bind hD (F1 := Ef) (via_unionMembers hD n) (fun fs => via_pure (F := Ef) _))))).imp ?_
    rintro ts a r ⟨_, m1, h1, t, m2, ⟨rfl, hk⟩, ds, m4, h4, fs, m5, h5, rfl, rfl⟩
    exact .union h1 ⟨t, rfl, hk, rfl⟩ h4 h5
  | enum =>
    refine (h0 (fun _ => via_bind hD (F1 := Ef) (via_tok0 b!"a") (fun t => via_bind hD (F1 := Ef) (via_directives hD n true .enum) (fun ds =>
      via_bind hD (F1 := Ef) (via_enumValues hD n) (fun fs => via_pure (F := Ef) _))))).imp ?_
    rintro ts a r ⟨_, m1, h1, t, m2, ⟨rfl, hk⟩, ds, m4, h4, fs, m5, h5, rfl, rfl⟩
    exact .enum h1 ⟨t, rfl, hk, rfl⟩ h4 h5
  | inputObject =>
    refine (h0 (fun _ => via_bind hD (F1 := Ef) (via_tok0 b!"a") (fun t => via_bind hD (F1 := Ef) (via_directives hD n true .inputObject) (fun ds =>
      via_bind hD (F1 := Ef) (via_inputFields hD n) (fun fs => via_pure (F := Ef) _))))).imp ?_
    rintro ts a r ⟨_, m1, h1, t, m2, ⟨rfl, hk⟩, ds, m4, h4, fs, m5, h5, rfl, rfl⟩
    exact .input h1 ⟨t, rfl, hk, rfl⟩ h4 h5

omit hD in
/-- The rest of an extension. -/
def viaExtRest (pf : Bytes → Option Nat) (n : Nat) : TypeKind → P TypeDef
  | .object => mustConsume0 .name >>= fun t => (peek1 .name b!"implements" >>= fun b => if b = true then parseImplementsInterfaces n else pure []) >>= fun ifaces =>
      parseDirectives pf n .object >>= fun dirs => parseFieldsDefinition pf n >>= fun fields => pure { name := t.lit, kind := .object, ifaces, dirs, fields }
  | k => parseTypeBody pf n [] k

omit hD in
theorem ext_eq {n : Nat} {k : TypeKind} {t : Token} (hk : t.kind = .name) (hl : t.lit = k.keyword) (m : Toks) :
    parseTypeExtension pf n (t :: m) = (mustConsume1 .name k.keyword >>= fun _ => viaExtRest pf n k) (t :: m) := by
  rw [bind_eq ((mustConsume1_ok (by decide)).2 ⟨rfl, hk, hl⟩)]
  unfold parseTypeExtension
  rw [bind_eq ((mustConsume0_ok (by decide)).2 ⟨rfl, hk⟩), hl]
  cases k <;> rfl

theorem via_typeExt (n : Nat) (k : TypeKind) : Via D Ef [(.name, k.keyword)] (TypeDefn pf true []) (mustConsume1 .name k.keyword >>= fun _ => viaExtRest pf n k) := by
  cases k with
  | scalar => exact via_typeDefn hD n [] .scalar
  | interface => exact via_typeDefn hD n [] .interface
  | union => exact via_typeDefn hD n [] .union
  | enum => exact via_typeDefn hD n [] .enum
  | inputObject => exact via_typeDefn hD n [] .inputObject
  | object =>
    refine (via_bind hD (F1 := [(.eof, []), (.name, b!"a")]) via_tok1 (fun _ => via_bind hD (F1 := Ef) (via_tok0 b!"a") (fun t => via_bind hD (F1 := Ef) (via_peekMay (via_implements hD n)) (fun is =>
      via_bind hD (F1 := Ef) (via_directives hD n true .object) (fun ds => via_bind hD (F1 := Ef) (via_fields hD n) (fun fs => via_pure (F := Ef) _)))))).imp ?_
    rintro ts a r ⟨_, m1, h1, t, m2, ⟨rfl, hk⟩, is, m3, h3, ds, m4, h4, fs, m5, h5, rfl, rfl⟩
    refine .object h1 ⟨t, rfl, hk, rfl⟩ ?_ h4 h5
    rcases h3 with h3 | ⟨h3, rfl, rfl⟩
    · exact h3
    · exact .none h3

end

section
variable {D : PErr → Toks → Prop} {F H : Fol} {α β : Type}

theorem via_map {R : Toks → α → Toks → Prop} {p : P α} (hD : Closed D) (g : α → β) (h : Via D F H R p) :
    Via D F H (fun ts b r => ∃ a, b = g a ∧ R ts a r) (p >>= fun a => pure (g a)) := by
  refine (via_bind hD h (fun a => via_pure (F := F) (g a)) (List.Subset.refl F) (List.Subset.refl F)).imp ?_
  rintro ts b r ⟨a, m, h1, rfl, rfl⟩
  exact ⟨a, rfl, h1⟩

end

/-- The errors after which nothing helps. -/
inductive DDef (e : PErr) (s : Toks) : Prop
  /-- `on [` -/
  | on (x : Toks) (t : Token) (y : Toks) (h : s = x ++ t :: y) (hk : t.kind = .name) (hl : t.lit = b!"on") (hb : Brackets y) (he : AsksType e)
  /-- `fragment on` -/
  | frag (x : Toks) (t u : Token) (h : s = x ++ [t, u]) (hk : t.kind = .name) (hl : t.lit = b!"fragment") (hk2 : u.kind = .name) (hl2 : u.lit = b!"on") (he : AsksNotOn e)
  /-- `schema … query : [` -/
  | op (x : Toks) (t : Token) (y : Toks) (h : s = x ++ t :: y) (hk : t.kind = .name) (hl : t.lit = b!"schema") (hb : DOp e y)

theorem closed_DDef : Closed DDef := by
  intro e c s h
  cases h with
  | on x t y h hk hl hb he => exact .on (c ++ x) t y (by rw [h]; simp) hk hl hb he
  | frag x t u h hk hl hk2 hl2 he => exact .frag (c ++ x) t u (by rw [h]; simp) hk hl hk2 hl2 he
  | op x t y h hk hl hb => exact .op (c ++ x) t y (by rw [h]; simp) hk hl hb

section
variable {pf : Bytes → Option Nat}

theorem unexpected_at {α : Type} {w : List Bytes} (hw : w ≠ enumWant) (ts : Toks) : ∃ e, (unexpectedCur w : P α) ts = .err e ts ∧ late e = false :=
  ⟨.unexpected (hd ts) w, rfl, late_unexpected hw⟩

theorem schema_op (e : PErr) (t : Token) (s : Toks) (hk : t.kind = .name) (hl : t.lit = b!"schema") (h : DOp e s) : DDef e (t :: s) := .op [] t s rfl hk hl h

/-- What comes after `extend`. -/
theorem via_extension (n : Nat) : Via DDef Ef [(.name, b!"extend")] (Defn pf true) (parseTypeSystemExtension pf n) := by
  have hext := via_typeExt (pf := pf) closed_DDef n .scalar
  rw [parseTypeSystemExtension]
  refine (via_must closed_DDef (F := Ef) (H1 := [(.name, b!"scalar")])
    (R1 := fun ts b r => (∃ s, b = .schemaExt s ∧ SchemaExtn pf true ts s r) ∨ (∃ t, b = .typeExt t ∧ TypeDefn pf true [] ts t r)) (via_cases (fun ts => ?_) ?_)).imp ?_
  · by_cases hs : (hd ts).kind = .name ∧ (hd ts).lit = b!"schema"
    · refine .inl ⟨_, _, (via_map closed_DDef Body.schemaExt (via_schemaExtn schema_op n)).imp (fun ts a r h => .inl h), ?_⟩
      rw [bind_eq (peek1_true (l := b!"schema") (r := ts.tail) ((tok1_iff (by decide)).2 ⟨hs.1, hs.2, rfl⟩)), if_pos rfl]
    · rw [bind_eq (peek1_false (l := b!"schema") ((notNext1_iff (by decide)).2 hs)), if_neg (by decide)]
      by_cases hm : (hd ts).kind = .name ∧ (hd ts).lit ∈ typeKeywords
      · obtain ⟨k, hk⟩ := kindOf_of_mem hm.2
        have hl := kindOf_keyword hk
        refine .inl ⟨_, _, (via_map closed_DDef Body.typeExt (via_typeExt closed_DDef n k)).imp (fun ts a r h => .inr h), ?_⟩
        rw [bind_eq (peekn_true (r := ts.tail) ((tok1_iff (by decide)).2 ⟨hm.1, rfl, rfl⟩) hm.2), if_pos rfl]
        cases ts with
        | nil => exact absurd hm.1 (by decide)
        | cons t m =>
          show P.bind _ _ _ = P.bind _ _ _
          unfold P.bind
          rw [ext_eq (t := t) hm.1 hl m]
      · rw [bind_eq (peekn_false (fun l hl => (notNext1_iff (by decide)).2 (fun h => hm ⟨h.1, h.2 ▸ hl⟩)) (by decide)), if_neg (by decide)]
        exact .inr (.inl (unexpected_at (by decide) ts))
  · obtain ⟨w, a, hw, k⟩ := hext.start
    exact ⟨w, .typeExt a, hw, fun r' hr => ⟨.inr ⟨a, rfl, (k r' hr).1⟩, (k r' hr).2⟩⟩
  · rintro ts a r ⟨m, h1, ⟨s, rfl, h2⟩ | ⟨t, rfl, h2⟩⟩
    · exact .schemaExt h1 h2
    · exact .typeExt h1 h2 (.inr rfl)

theorem typeDefn_prog {n : Nat} {desc : Bytes} {k : TypeKind} {t : Token} (hk : t.kind = .name) (hl : t.lit = k.keyword) (m : Toks) :
    parseTypeDefinition pf n desc (t :: m) = (mustConsume1 .name k.keyword >>= fun _ => parseTypeBody pf n desc k) (t :: m) := by
  rw [bind_eq ((mustConsume1_ok (by decide)).2 ⟨rfl, hk, hl⟩)]
  unfold parseTypeDefinition
  rw [bind_eq ((mustConsume0_ok (by decide)).2 ⟨rfl, hk⟩), hl, kindOf_kw]

def DescR (pf : Bytes → Option Nat) (d : Bytes) (ts : Toks) (b : Body) (r : Toks) : Prop :=
  (d = [] ∧ ∃ s, b = .schema s ∧ SchemaDefn pf true ts s r) ∨ (∃ x, b = .directive x ∧ DirDefn pf true d ts x r) ∨ (∃ t, b = .type t ∧ TypeDefn pf true d ts t r)

theorem via_described (n : Nat) (d : Bytes) : Via DDef Ef [(.name, b!"scalar")] (DescR pf d)
    (peekn .name (typeKeywords ++ [b!"directive"] ++ (if d = [] then [b!"schema"] else [])) >>= fun b => if b = true then parseTypeSystemDefinition pf n d
      else unexpectedCur [expected .name [b!"query", b!"mutation", b!"fragment"], expected .punctuator [b!"{"]]) := by
  refine via_cases (fun ts => ?_) ?_
  · rw [bind_eq (peekn_eq (by simp) ts)]
    by_cases hm : (hd ts).kind = .name ∧ (hd ts).lit ∈ typeKeywords ++ [b!"directive"] ++ (if d = [] then [b!"schema"] else [])
    · rw [if_pos (by simp only [Bool.and_eq_true, decide_eq_true_eq, List.contains_iff_mem]; exact hm), parseTypeSystemDefinition]
      by_cases hs : (hd ts).lit = b!"schema"
      · have hd0 : d = [] := by
          apply Classical.byContradiction
          intro hne
          rw [if_neg hne, hs] at hm
          exact absurd hm.2 (by decide)
        rw [bind_eq (peek1_true (l := b!"schema") (r := ts.tail) ((tok1_iff (by decide)).2 ⟨hm.1, hs, rfl⟩)), if_pos rfl]
        exact .inl ⟨_, _, (via_map closed_DDef Body.schema (via_schemaDefn schema_op n)).imp (fun ts a r h => .inl ⟨hd0, h⟩), rfl⟩
      rw [bind_eq (peek1_false (l := b!"schema") ((notNext1_iff (by decide)).2 (fun h => hs h.2))), if_neg (by decide)]
      by_cases hdir : (hd ts).lit = b!"directive"
      · rw [bind_eq (peek1_true (l := b!"directive") (r := ts.tail) ((tok1_iff (by decide)).2 ⟨hm.1, hdir, rfl⟩)), if_pos rfl]
        exact .inl ⟨_, _, (via_map closed_DDef Body.directive (via_dirDefn closed_DDef n d)).imp (fun ts a r h => .inr (.inl h)), rfl⟩
      rw [bind_eq (peek1_false (l := b!"directive") ((notNext1_iff (by decide)).2 (fun h => hdir h.2))), if_neg (by decide)]
      have hk : (hd ts).lit ∈ typeKeywords := by
        rcases List.mem_append.1 hm.2 with h | h
        · rcases List.mem_append.1 h with h | h
          · exact h
          · exact absurd (List.mem_singleton.1 h) hdir
        · by_cases hd0 : d = []
          · rw [if_pos hd0] at h; exact absurd (List.mem_singleton.1 h) hs
          · rw [if_neg hd0] at h; cases h
      obtain ⟨k, hk2⟩ := kindOf_of_mem hk
      have hl := kindOf_keyword hk2
      rw [bind_eq (peekn_true (r := ts.tail) ((tok1_iff (by decide)).2 ⟨hm.1, rfl, rfl⟩) hk), if_pos rfl]
      refine .inl ⟨_, _, (via_map closed_DDef Body.type (via_typeDefn closed_DDef n d k)).imp (fun ts a r h => .inr (.inr h)), ?_⟩
      cases ts with
      | nil => exact absurd hm.1 (by decide)
      | cons t m =>
        show P.bind _ _ _ = P.bind _ _ _
        unfold P.bind
        rw [typeDefn_prog (t := t) hm.1 hl m]
    · rw [if_neg (by simp only [Bool.and_eq_true, decide_eq_true_eq, List.contains_iff_mem]; exact hm)]
      exact .inr (.inl (unexpected_at (by decide) ts))
  · obtain ⟨w, a, hw, k⟩ := (via_typeDefn (pf := pf) closed_DDef n d .scalar).start
    exact ⟨w, .type a, hw, fun r' hr => ⟨.inr (.inr ⟨a, rfl, (k r' hr).1⟩), (k r' hr).2⟩⟩

theorem via_descOpt (n : Nat) : Via DDef Ef [(.eof, []), (.name, b!"scalar")] (Defn pf true)
    (consume0 .stringValue >>= fun desc => peekn .name (typeKeywords ++ [b!"directive"] ++ (if (desc.map (·.lit)).getD [] = [] then [b!"schema"] else [])) >>= fun b =>
      if b = true then parseTypeSystemDefinition pf n ((desc.map (·.lit)).getD [])
      else unexpectedCur [expected .name [b!"query", b!"mutation", b!"fragment"], expected .punctuator [b!"{"]]) := by
  refine (via_bind closed_DDef (F1 := [(.eof, []), (.name, b!"scalar")]) via_opt (fun o => via_described n _)).imp ?_
  rintro ts a r ⟨o, m, h1, h2⟩
  have h1 := optK_optTok h1
  rcases h2 with ⟨h0, s, rfl, h2⟩ | ⟨x, rfl, h2⟩ | ⟨t, rfl, h2⟩
  · rw [h0] at h1
    rcases h1 with h1 | ⟨-, -, rfl⟩
    · exact .schemaDesc rfl h1 h2
    · exact .schema h2
  · exact .directive h1 h2
  · exact .type h1 h2

theorem via_definitionBody (n : Nat) : Via DDef Ef [(.punctuator, b!"{")] (Defn pf true) (parseDefinitionBody pf n) := by
  have hon : ∀ e t y, AsksType e → t.kind = .name → t.lit = b!"on" → Brackets y → DDef e (t :: y) := fun e t y he hk hl hb => .on [] t y rfl hk hl hb he
  refine via_cases (fun ts => .inl ?_) ?_
  · rw [parseDefinitionBody, bind_eq (cur_eq ts)]
    by_cases h1 : (hd ts).kind = .name ∧ (hd ts).lit ∈ [b!"query", b!"mutation", b!"subscription"]
    · rw [bind_eq (orP_ok.2 (.inl ⟨rfl, peekn_true (r := ts.tail) ((tok1_iff (by decide)).2 ⟨h1.1, rfl, rfl⟩) h1.2⟩)), if_pos rfl]
      have : ((hd ts).lit == b!"{") = false := by
        have := h1.2
        simp only [List.mem_cons, List.not_mem_nil, or_false] at this
        rcases this with h | h | h <;> rw [h] <;> rfl
      rw [this]
      refine ⟨_, _, (via_map closed_DDef Body.op (via_operation closed_DDef hon n)).imp ?_, rfl⟩
      rintro ts a r ⟨o, rfl, h⟩
      exact .op h
    have hp1 : peekn .name [b!"query", b!"mutation", b!"subscription"] ts = .ok false ts :=
      peekn_false (fun l hl => (notNext1_iff (by decide)).2 (fun h => h1 ⟨h.1, h.2 ▸ hl⟩)) (by decide)
    by_cases h2 : (hd ts).kind = .punctuator ∧ (hd ts).lit = b!"{"
    · rw [bind_eq (orP_ok.2 (.inr ⟨ts, hp1, peek1_true (r := ts.tail) ((tok1_iff (by decide)).2 ⟨h2.1, h2.2, rfl⟩)⟩)), if_pos rfl, h2.2]
      refine ⟨_, _, (via_map closed_DDef Body.op (via_shorthand (F := Ef) closed_DDef hon n)).imp ?_, rfl⟩
      rintro ts a r ⟨o, rfl, h⟩
      exact .op h
    rw [bind_eq (orP_ok.2 (.inr ⟨ts, hp1, peek1_false ((notNext1_iff (by decide)).2 h2)⟩)), if_neg (by decide)]
    by_cases h3 : (hd ts).kind = .name ∧ (hd ts).lit = b!"fragment"
    · rw [bind_eq (peek1_true (l := b!"fragment") (r := ts.tail) ((tok1_iff (by decide)).2 ⟨h3.1, h3.2, rfl⟩)), if_pos rfl]
      refine ⟨_, _, (via_map closed_DDef Body.frag (via_fragment closed_DDef hon n (fun e t u he h1 h2 h3 h4 => .frag [] t u rfl h1 h2 h3 h4 he))).imp ?_, rfl⟩
      rintro ts a r ⟨o, rfl, h⟩
      exact .frag h
    rw [bind_eq (peek1_false (l := b!"fragment") ((notNext1_iff (by decide)).2 h3)), if_neg (by decide)]
    by_cases h4 : (hd ts).kind = .name ∧ (hd ts).lit = b!"extend"
    · rw [bind_eq (peek1_true (l := b!"extend") (r := ts.tail) ((tok1_iff (by decide)).2 ⟨h4.1, h4.2, rfl⟩)), if_pos rfl]
      exact ⟨_, _, via_extension n, rfl⟩
    rw [bind_eq (peek1_false (l := b!"extend") ((notNext1_iff (by decide)).2 h4)), if_neg (by decide)]
    exact ⟨_, _, via_descOpt n, rfl⟩
  · obtain ⟨w, a, hw, k⟩ := (via_shorthand (pf := pf) (F := Ef) closed_DDef hon n).start
    exact ⟨w, .op a, hw, fun r' hr => ⟨.op (k r' hr).1, (k r' hr).2⟩⟩

theorem via_definition (n : Nat) : Via DDef Ef [(.punctuator, b!"{")] (LocDefn pf true) (parseDefinition pf n) := by
  have hb := via_definitionBody (pf := pf) n
  have ne : ∀ {ts b r}, Defn pf true ts b r → ∃ t m, ts = t :: m := by
    intro ts b r h
    cases ts with
    | nil => have := (defn_eats h).2; simp at this
    | cons t m => exact ⟨t, m, rfl⟩
  have loc : ∀ {ts b r}, Defn pf true ts b r → LocDefn pf true ts ⟨⟨(hd ts).line, (hd ts).col⟩, b⟩ r := by
    intro ts b r h
    obtain ⟨t, m, rfl⟩ := ne h
    exact .mk h
  constructor
  · intro ts d r h
    rw [parseDefinition, bind_eq (cur_eq _), bind_ok] at h
    obtain ⟨b, m, h1, h⟩ := h
    obtain ⟨rfl, rfl⟩ := pure_ok.1 h
    obtain ⟨c, rfl, k⟩ := hb.ok _ _ _ h1
    refine ⟨c, rfl, fun r' hr => ?_⟩
    have hc : c ≠ [] := by
      rintro rfl
      have := (defn_eats (k m (.inl rfl))).2
      simp at this
    rw [← hd_append hc r']
    exact loc (k r' hr)
  · intro ts e r h
    rw [parseDefinition, bind_eq (cur_eq _)] at h
    rcases bind_err.1 h with h | ⟨_, _, -, h⟩
    · obtain ⟨c, rfl, k1, k2⟩ := hb.err _ _ _ h
      refine ⟨c, rfl, k1, ?_⟩
      by_cases hs : beforeE e c = []
      · exact .inl hs
      rcases k2 with k2 | k2 | ⟨w, b, hw, k2⟩
      · exact .inl k2
      · exact .inr (.inl k2)
      · refine .inr (.inr ⟨w, ⟨⟨(hd (c ++ r)).line, (hd (c ++ r)).col⟩, b⟩, hw, fun r' hr => ?_⟩)
        rw [← hd_before hs (w ++ r')]
        exact loc (k2 r' hr)
    · cases h
  · obtain ⟨w, b, hw, k⟩ := hb.start
    refine ⟨w, ⟨⟨(hd (w ++ [tkn .eof []])).line, (hd (w ++ [tkn .eof []])).col⟩, b⟩, hw, fun r' hr => ⟨?_, (k r' hr).2⟩⟩
    have hw : w ≠ [] := by
      rintro rfl
      have := (defn_eats (k r' hr).1).2
      simp at this
    rw [← hd_append hw r']
    exact loc (k r' hr).1

/-- Where `Parse` fails, what it has read before the token the error is about can be completed to a document. -/
theorem defs_complete (n : Nat) {ts r : Toks} {e : PErr} (h : parseDefs pf n ts = .err e r) :
    ∃ c, ts = c ++ r ∧ (late e = true → c ≠ []) ∧ (DDef e (beforeE e c) ∨
      ∃ w ds, Pl w ∧ ds ≠ [] ∧ Many (LocDefn pf true) (beforeE e c ++ (w ++ [tkn .eof []])) ds [tkn .eof []]) := by
  have hv := via_definition (pf := pf) n
  have hin : In Ef [tkn .eof []] := List.mem_singleton.2 rfl
  obtain ⟨as, m, h1, h2⟩ := doWhile_err (brk := peek0 .eof) (fun ts e r h => by cases h) (fun ts r h => (peek0_ok.1 h).1) h
  have h3 : Many (Run (parseDefinition pf n)) ts as m := by
    clear h h2
    induction h1 with
    | nil => exact .nil _
    | cons g1 _ ih =>
      obtain ⟨d, m2, g2, g3⟩ := bind_ok.1 g1
      obtain ⟨b, m3, g4, g5⟩ := bind_ok.1 g3
      obtain ⟨rfl, -⟩ := peek0_ok.1 g4
      cases b with
      | true => exact (unexpectedCur_ok.1 g5).elim
      | false =>
        obtain ⟨rfl, rfl⟩ := pure_ok.1 g5
        exact .cons g2 ih
  rcases bind_err.1 h2 with h2 | ⟨d, m2, h2', h4⟩
  · obtain ⟨c, rfl, k1, k2⟩ := many_err hv closed_DDef h3 h2
    refine ⟨c, rfl, k1, k2.imp id ?_⟩
    rintro ⟨w, bs, hw, k3, k4⟩
    by_cases hbs : bs = []
    · obtain ⟨w, d, hw, k5⟩ := hv.start
      refine ⟨w, [d], hw, by simp, ?_⟩
      rw [k3 hbs]
      exact .cons (k5 _ hin).1 (.nil _)
    · exact ⟨w, bs, hw, hbs, k4 _ hin⟩
  · rcases bind_err.1 h4 with h4 | ⟨b, m3, h4, h5⟩
    · cases h4
    obtain ⟨rfl, -⟩ := peek0_ok.1 h4
    cases b with
    | false => cases h5
    | true =>
      obtain ⟨rfl, rfl⟩ := unexpectedCur_err h5
      obtain ⟨c, rfl, k⟩ := many_swap hv (many_append h3 (.cons (show Run (parseDefinition pf n) m d r from h2') (.nil _)))
      refine ⟨c, rfl, (fun hl => by (rw [late_unexpected (by decide)] at hl; cases hl)), .inr ⟨[], as ++ [d], .nil, by simp, ?_⟩⟩
      rw [beforeE_notLate (late_unexpected (by decide))]
      exact k _ (.inr hin)

end

end GQL
