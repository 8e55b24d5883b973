/-
Printed definitions and documents are derived by the grammar.
-/
import Verif.Proofs.DumpType

namespace GQL
open Spec

section
variable {pf : Bytes → Option Nat} {fmtG : Nat → Bytes}

/-! ### Schema definitions -/

theorem namedType_dump {ts : Toks} {t : Ty} {rest : Toks} (h : NamedType true ts t rest) (hn : Names ts) :
    ∃ x, J false true (dumpType t) x ∧ ∀ rest', NotNext1 .punctuator b!"!" rest' → NamedType true (x ++ rest') t rest' := by
  cases h with
  | @mk n _ b _ h1 h2 h3 =>
    obtain ⟨x, j, -, g⟩ := bang_dump b
    exact ⟨[nt n] ++ x, (J.name (hn.nm h1)).seq j, fun rest' hr => .mk tok1_tk (g _ hr) h3⟩

theorem opTypeDefn_dump {ts : Toks} {o : OpTypeDef} {rest : Toks} (h : OpTypeDefn true ts o rest) (hn : Names ts) :
    ∃ x, J false true (dumpOperationTypeDefinition o) x ∧ (∀ r, Fresh (x ++ r)) ∧ ∀ rest', Fresh rest' → OpTypeDefn true (x ++ rest') o rest' := by
  cases h with
  | @mk k _ _ t _ h1 h2 h3 =>
    obtain ⟨jk, -, gk⟩ := opType_dump k
    obtain ⟨x, j, g⟩ := namedType_dump h3 ((hn.go1 (opType_eats h1)).tok h2)
    refine ⟨[nt k.str] ++ ([pt b!":"] ++ x), ?_, fun r => fresh_kind (by decide), fun rest' hr => .mk (gk _) tok1_tk (g _ (hr _ (by decide)))⟩
    exact ((J.indent 1).seq (jk.seq (J.colon.seq j))).eqs rfl (by simp)

theorem opTypeDefns_dump {ts : Toks} {os : List OpTypeDef} {rest : Toks} (h : OpTypeDefns true ts os rest) (hn : Names ts) :
    ∃ x, J true true (dumpOpTypes os) x ∧ (∃ r, x = pt b!"{" :: r) ∧ os ≠ [] ∧ ∀ rest', OpTypeDefns true (x ++ rest') os rest' := by
  cases h with
  | mk h1 h2 h3 h4 =>
    have mem := many_mem (fun _ _ _ h => (opTypeDefn_eats h).1) h2 (hn.tok h1)
    obtain ⟨x, j, -, m⟩ := many_lines (R := OpTypeDefn true) (Q := Fresh) (f := dumpOperationTypeDefinition) os 0 fun a ha => by
      obtain ⟨ts', r, hn', ha'⟩ := mem a ha
      exact opTypeDefn_dump ha' hn'
    have jb : J true false (write b!" {\n") [pt b!"{"] := (J.space.seq J.brace).eqs rfl rfl
    refine ⟨[pt b!"{"] ++ (x ++ [pt b!"}"]), (jb.seq (j.seq (J.punct '}').hard)).weak, ⟨_, rfl⟩, h3, fun rest' => ?_⟩
    refine .mk (r1 := (x ++ [pt b!"}"]) ++ rest') (r2 := pt b!"}" :: rest') tok1_tk ?_ h3 tok1_tk
    rw [List.append_assoc]; exact m _ fresh_pt

theorem schemaDefn_dump {ts : Toks} {s : SchemaDef} {rest : Toks} (h : SchemaDefn pf true ts s rest) (hn : Names ts) (ho : DirsOk fmtG pf s.dirs) :
    ∃ x, J false true (dumpSchemaDefinition fmtG s) x ∧ (∀ r, NewDefn (x ++ r)) ∧ ∀ rest', SchemaDefn pf true (x ++ rest') s rest' := by
  cases h with
  | @mk _ ds _ ops _ h1 h2 h3 =>
    obtain ⟨x, j, o, g⟩ := dirs_dump 0 h2 (hn.tok h1) ho
    obtain ⟨y, j2, ⟨r, rfl⟩, -, g2⟩ := opTypeDefns_dump h3 ((hn.tok h1).go (dirs_eats h2))
    refine ⟨[nt b!"schema"] ++ (x ++ pt b!"{" :: r), ?_, fun r => ⟨fresh_kind (by decide), notNext_tk (.inr (by decide))⟩, fun rest' => ?_⟩
    · exact (J.name (nameText_of (n := b!"schema") 's' c!"chema")).seq (j.seq j2)
    · refine .mk (r1 := x ++ (pt b!"{" :: r ++ rest')) (r2 := pt b!"{" :: r ++ rest') ⟨nt b!"schema", by simp, rfl, rfl⟩ (g _ ?_ ?_) (g2 _)
      · exact notNext_tk (.inr (by decide))
      · exact notNext_tk (.inr (by decide))

theorem schemaExtn_dump {ts : Toks} {s : SchemaDef} {rest : Toks} (h : SchemaExtn pf true ts s rest) (hn : Names ts) (ho : DirsOk fmtG pf s.dirs) :
    ∃ x, J false true (dumpSchemaExtension fmtG s) (nt b!"extend" :: x) ∧ ∀ rest', Fresh rest' → SchemaExtn pf true (x ++ rest') s rest' := by
  have je : J false true (write b!"extend schema") [nt b!"extend", nt b!"schema"] :=
    ((J.name (nameText_of (n := b!"extend") 'e' c!"xtend")).seq (J.space.seq (J.name (nameText_of (n := b!"schema") 's' c!"chema")))).eqs rfl rfl
  cases h with
  | @ops _ ds _ ops _ h1 h2 h3 =>
    obtain ⟨x, j, o, g⟩ := dirs_dump 0 h2 (hn.tok h1) ho
    obtain ⟨y, j2, ⟨r, rfl⟩, he, g2⟩ := opTypeDefns_dump h3 ((hn.tok h1).go (dirs_eats h2))
    refine ⟨nt b!"schema" :: (x ++ pt b!"{" :: r), ?_, fun rest' _ => ?_⟩
    · unfold dumpSchemaExtension
      rw [if_pos he]
      exact (je.seq (j.seq j2)).eqs rfl rfl
    · refine .ops (r1 := x ++ (pt b!"{" :: r ++ rest')) (r2 := pt b!"{" :: r ++ rest') ⟨nt b!"schema", by simp, rfl, rfl⟩ (g _ ?_ ?_) (g2 _)
      · exact notNext_tk (.inr (by decide))
      · exact notNext_tk (.inr (by decide))
  | @dirs _ ds _ h1 h2 h3 h4 =>
    obtain ⟨x, j, o, g⟩ := dirs_dump 0 h2 (hn.tok h1) ho
    refine ⟨nt b!"schema" :: x, ?_, fun rest' hr => ?_⟩
    · exact (je.seq (j.seq J.skip)).eqs rfl (by simp)
    · exact .dirs tok1_tk (g _ (hr _ (by decide)) (hr _ (by decide))) h3 (hr _ (by decide))

/-! ### Type definitions -/

theorem dumpInputFields_eq (vs : List InputVal) : dumpInputFieldsDefinition fmtG vs =
    write b!"{\n" +++ forEach (fun a _ => (write indentation +++ dumpInputValueDefinition fmtG a) +++ write b!"\n") vs +++ write b!"}" := by
  unfold dumpInputFieldsDefinition
  simp only [seqOut_assoc]

theorem typeDefn_dump {desc : Bytes} {ts : Toks} {t : TypeDef} {rest : Toks} (h : TypeDefn pf true desc ts t rest) (hn : Names ts) (ho : TypeOk fmtG pf t) :
    ∃ k x, J false true (dumpTypeBody fmtG t) (nt k :: x) ∧ k ≠ b!"implements" ∧ k ≠ b!"schema" ∧ ∀ rest', NewDefn rest' → TypeDefn pf true desc (nt k :: x ++ rest') t rest' := by
  obtain ⟨o1, o2, o3, o4, o5, o6, o7⟩ := ho
  have kw : ∀ {k : Bytes}, NameText k → J false false (write (k ++ b!" ")) [nt k] := fun h => ((J.name h).seq J.space).eqs rfl rfl
  cases h with
  | @scalar _ n _ ds _ h1 h2 h3 =>
    obtain ⟨x, j, o, g⟩ := dirs_dump 0 h3 ((hn.tok h1).tok h2) o3
    refine ⟨b!"scalar", [nt n] ++ x, ?_, by decide, by decide, fun rest' hr => ?_⟩
    · exact (kw (nameText_of (n := b!"scalar") 's' c!"calar")).seq ((J.name ((hn.tok h1).nm h2)).seq j)
    · exact .scalar tok1_tk tok1_tk (g _ (hr.1 _ (by decide)) (hr.1 _ (by decide)))
  | @object _ n _ is _ ds _ fs _ h1 h2 h3 h4 h5 =>
    have hn2 := (hn.tok h1).tok h2
    have hn3 := hn2.go (implements_eats h3)
    obtain ⟨u, ju, su, gu⟩ := implements_dump (!fs.isEmpty) h3 hn2 o2
    obtain ⟨x, j, o, g⟩ := dirs_dump 0 h4 hn3 o3
    obtain ⟨y, jy, oy, gy⟩ := block_dump (fun _ _ _ h => fieldDefn_eats h) h5 (hn3.go (dirs_eats h4)) fun a ha _ _ hn' ha' => fieldDefn_dump ha' hn' (o4 a ha)
    refine ⟨b!"type", [nt n] ++ (u ++ (x ++ y)), ?_, by decide, by decide, fun rest' hr => ?_⟩
    · exact (kw (nameText_of (n := b!"type") 't' c!"ype")).seq ((J.name ((hn.tok h1).nm h2)).seq (ju.seq (j.seq jy)))
    · have nn : ∀ k l, (k ≠ .punctuator ∨ (l ≠ b!"{" ∧ l ≠ b!"@")) → NotNext1 k l rest' → NotNext1 k l (x ++ (y ++ rest')) := fun k l h hr =>
        o.notNext (h.imp id fun h => h.2.symm) (oy.notNext (h.imp id fun h => h.1.symm) hr)
      refine .object (r2 := u ++ (x ++ (y ++ rest'))) tok1_tk ⟨nt n, by simp, rfl, rfl⟩ (gu _ ?_ ?_ ?_) (g _ ?_ ?_) (gy _ (hr.1 _ (by decide)))
      · exact nn _ _ (.inl (by decide)) hr.2
      · exact nn _ _ (.inr (by decide)) (hr.1 _ (by decide))
      · exact nn _ _ (.inr (by decide)) (hr.1 _ (by decide))
      · exact oy.notNext (.inr (by decide)) (hr.1 _ (by decide))
      · exact oy.notNext (.inr (by decide)) (hr.1 _ (by decide))
  | @interface _ n _ ds _ fs _ h1 h2 h3 h4 =>
    have hn2 := (hn.tok h1).tok h2
    obtain ⟨x, j, o, g⟩ := dirs_dump 0 h3 hn2 o3
    obtain ⟨y, jy, oy, gy⟩ := block_dump (fun _ _ _ h => fieldDefn_eats h) h4 (hn2.go (dirs_eats h3)) fun a ha _ _ hn' ha' => fieldDefn_dump ha' hn' (o4 a ha)
    refine ⟨b!"interface", [nt n] ++ (x ++ y), ?_, by decide, by decide, fun rest' hr => ?_⟩
    · exact (kw (nameText_of (n := b!"interface") 'i' c!"nterface")).seq ((J.name ((hn.tok h1).nm h2)).seq (j.seq jy))
    · refine .interface (r2 := x ++ (y ++ rest')) tok1_tk ⟨nt n, by simp, rfl, rfl⟩ (g _ ?_ ?_) (gy _ (hr.1 _ (by decide)))
      · exact oy.notNext (.inr (by decide)) (hr.1 _ (by decide))
      · exact oy.notNext (.inr (by decide)) (hr.1 _ (by decide))
  | @union _ n _ ds _ ms _ h1 h2 h3 h4 =>
    have hn2 := (hn.tok h1).tok h2
    obtain ⟨x, j, o, g⟩ := dirs_dump 0 h3 hn2 o3
    obtain ⟨y, jy, oy, gy⟩ := unionMembers_dump h4 (hn2.go (dirs_eats h3)) o5
    refine ⟨b!"union", [nt n] ++ (x ++ y), ?_, by decide, by decide, fun rest' hr => ?_⟩
    · exact (kw (nameText_of (n := b!"union") 'u' c!"nion")).seq ((J.name ((hn.tok h1).nm h2)).seq (j.seq jy))
    · refine .union (r2 := x ++ (y ++ rest')) tok1_tk ⟨nt n, by simp, rfl, rfl⟩ (g _ ?_ ?_) (gy _ (hr.1 _ (by decide)) (hr.1 _ (by decide)) (hr.1 _ (by decide)))
      · exact oy.notNext (.inr (by decide)) (hr.1 _ (by decide))
      · exact oy.notNext (.inr (by decide)) (hr.1 _ (by decide))
  | @enum _ n _ ds _ vs _ h1 h2 h3 h4 =>
    have hn2 := (hn.tok h1).tok h2
    obtain ⟨x, j, o, g⟩ := dirs_dump 0 h3 hn2 o3
    obtain ⟨y, jy, oy, gy⟩ := block_dump (fun _ _ _ h => enumValDefn_eats h) h4 (hn2.go (dirs_eats h3)) fun a ha _ _ hn' ha' => enumValDefn_dump ha' hn' (o6 a ha)
    refine ⟨b!"enum", [nt n] ++ (x ++ y), ?_, by decide, by decide, fun rest' hr => ?_⟩
    · exact (kw (nameText_of (n := b!"enum") 'e' c!"num")).seq ((J.name ((hn.tok h1).nm h2)).seq (j.seq jy))
    · refine .enum (r2 := x ++ (y ++ rest')) tok1_tk ⟨nt n, by simp, rfl, rfl⟩ (g _ ?_ ?_) (gy _ (hr.1 _ (by decide)))
      · exact oy.notNext (.inr (by decide)) (hr.1 _ (by decide))
      · exact oy.notNext (.inr (by decide)) (hr.1 _ (by decide))
  | @input _ n _ ds _ is _ h1 h2 h3 h4 =>
    have hn2 := (hn.tok h1).tok h2
    obtain ⟨x, j, o, g⟩ := dirs_dump 0 h3 hn2 o3
    obtain ⟨y, jy, oy, gy⟩ := block_dump (f := fun a => write indentation +++ dumpInputValueDefinition fmtG a) (fun _ _ _ h => inputValue_eats h) h4 (hn2.go (dirs_eats h3)) fun a ha _ _ hn' ha' => by
      obtain ⟨x, j, q, g⟩ := inputValue_dump ha' hn' (o7 a ha)
      exact ⟨x, J.indentation.seq j, q, g⟩
    refine ⟨b!"input", [nt n] ++ (x ++ y), ?_, by decide, by decide, fun rest' hr => ?_⟩
    · have := (kw (nameText_of (n := b!"input") 'i' c!"nput")).seq ((J.name ((hn.tok h1).nm h2)).seq (j.seq jy))
      refine this.eqs ?_ rfl
      unfold dumpTypeBody
      dsimp only
      have e : dumpInputFieldsDefinition fmtG = fun vs => write b!"{\n" +++ forEach (fun a _ => (write indentation +++ dumpInputValueDefinition fmtG a) +++ write b!"\n") vs +++ write b!"}" :=
        funext dumpInputFields_eq
      rw [e]
      rfl
    · refine .input (r2 := x ++ (y ++ rest')) tok1_tk ⟨nt n, by simp, rfl, rfl⟩ (g _ ?_ ?_) (gy _ (hr.1 _ (by decide)))
      · exact oy.notNext (.inr (by decide)) (hr.1 _ (by decide))
      · exact oy.notNext (.inr (by decide)) (hr.1 _ (by decide))

theorem typeDefn_desc {desc : Bytes} {ts : Toks} {t : TypeDef} {rest : Toks} (h : TypeDefn pf true desc ts t rest) : t.desc = desc := by cases h <;> rfl
theorem dirDefn_desc {desc : Bytes} {ts : Toks} {t : DirDef} {rest : Toks} (h : DirDefn pf true desc ts t rest) : t.desc = desc := by cases h; rfl

/-! ### Definitions -/

theorem newDefn_nil : NewDefn [] := by
  have no : ∀ {k l}, NotNext1 k l [] := by rintro k l r ⟨t, e, -⟩; cases e
  exact ⟨fun l _ => no, no⟩

/-- This is one anonymous query with variables or directives. -/
def BareOp (b : Body) : Prop := ∃ vs dirs sels, b = .op ⟨.query, [], vs, dirs, sels⟩ ∧ (vs ≠ [] ∨ dirs ≠ [])

theorem defn_dump (n : Nat) {ts : Toks} {b : Body} {rest : Toks} (h : Defn pf true ts b rest) (hn : Names ts) (ho : BodyOk fmtG pf b) (hb : n = 1 → ¬ BareOp b) :
    ∃ x, J false true (dumpDefinition fmtG n b) x ∧ (n ≠ 1 → ∀ r, NewDefn (x ++ r)) ∧ x ≠ [] ∧ ∀ rest', NewDefn rest' → Defn pf true (x ++ rest') b rest' := by
  have ne : ∀ {x : Toks} {b}, Defn pf true (x ++ []) b [] → x ≠ [] := by
    intro x b h e
    subst e
    have := (defn_eats h).2
    simp at this
  suffices ∃ x, J false true (dumpDefinition fmtG n b) x ∧ (n ≠ 1 → ∀ r, NewDefn (x ++ r)) ∧ ∀ rest', NewDefn rest' → Defn pf true (x ++ rest') b rest' by
    obtain ⟨x, h1, h2, h3⟩ := this
    exact ⟨x, h1, h2, ne (h3 [] newDefn_nil), h3⟩
  cases h with
  | @op o _ h1 =>
    obtain ⟨x, j, q, g⟩ := opDefn_dump n h1 hn ho fun k1 h2 h3 => by
      obtain ⟨k, name, vs, dirs, sels⟩ := o
      dsimp only at h2 h3 ⊢
      subst h2 h3
      by_cases hv : vs = []
      · by_cases hd : dirs = []
        · exact ⟨hv, hd⟩
        · exact absurd ⟨_, _, _, rfl, .inr hd⟩ (hb k1)
      · exact absurd ⟨_, _, _, rfl, .inl hv⟩ (hb k1)
    exact ⟨x, j.weak, q, fun rest' _ => .op (g _)⟩
  | frag h1 =>
    obtain ⟨x, j, q, g⟩ := fragDefn_dump h1 hn ho
    exact ⟨x, j.weak, fun _ => q, fun rest' _ => .frag (g _)⟩
  | schema h1 =>
    obtain ⟨x, j, q, g⟩ := schemaDefn_dump h1 hn ho
    exact ⟨x, j, fun _ => q, fun rest' _ => .schema (g _)⟩
  | schemaDesc h0 h1 h2 =>
    obtain ⟨x, j, q, g⟩ := schemaDefn_dump h2 (hn.tok h1) ho
    exact ⟨x, j, fun _ => q, fun rest' _ => .schema (g _)⟩
  | @type desc _ t _ h1 h2 =>
    obtain ⟨x, j, q, -, g⟩ := desc_dump ho.1
    obtain ⟨k, y, j2, hk, hk', g2⟩ := typeDefn_dump h2 (hn.go (optTok_eats h1 (by decide) (by decide))) ho
    rw [typeDefn_desc h2] at g
    refine ⟨x ++ (nt k :: y), j.seq j2, fun _ r => ?_, fun rest' hr => ?_⟩
    · rw [List.append_assoc]
      exact q _ ⟨fresh_kind (by decide), notNext_tk (.inr hk)⟩
    · rw [List.append_assoc]
      exact .type (g _ (notKind_tk (by decide))) (g2 _ hr)
  | @directive desc _ d _ h1 h2 =>
    obtain ⟨x, j, q, -, g⟩ := desc_dump ho.1
    obtain ⟨y, j2, g2⟩ := dirDefn_dump h2 (hn.go (optTok_eats h1 (by decide) (by decide))) ho.2
    rw [dirDefn_desc h2] at g
    refine ⟨x ++ (nt b!"directive" :: y), j.seq j2, fun _ r => ?_, fun rest' hr => ?_⟩
    · rw [List.append_assoc]
      exact q _ ⟨fresh_kind (by decide), notNext_tk (.inr (by decide))⟩
    · rw [List.append_assoc]
      exact .directive (g _ (notKind_tk (by decide))) (g2 _ hr.1)
  | schemaExt h1 h2 =>
    obtain ⟨x, j, g⟩ := schemaExtn_dump h2 (hn.tok h1) ho
    exact ⟨_, j, fun _ r => ⟨fresh_kind (by decide), notNext_tk (.inr (by decide))⟩, fun rest' hr => .schemaExt tok1_tk (g _ hr.1)⟩
  | typeExt h1 h2 h3 =>
    obtain ⟨k, y, j2, hk, hk', g2⟩ := typeDefn_dump h2 (hn.tok h1) ho
    have je : J false false (write b!"extend ") [nt b!"extend"] := ((J.name (nameText_of (n := b!"extend") 'e' c!"xtend")).seq J.space).eqs rfl rfl
    exact ⟨[nt b!"extend"] ++ (nt k :: y), je.seq j2, fun _ r => ⟨fresh_kind (by decide), notNext_tk (.inr (by decide))⟩, fun rest' hr => .typeExt tok1_tk (g2 _ hr) h3⟩

/-- The list of definitions. -/
theorem defs_dump (n : Nat) : ∀ (ds : List Definition) (i : Nat), i + ds.length = n →
    (∀ d ∈ ds, ∃ ts r, Names ts ∧ Defn pf true ts d.body r ∧ BodyOk fmtG pf d.body ∧ (n = 1 → ¬ BareOp d.body)) →
    ∃ x, J false true (forEachFrom (fun d i => (if i ≠ 0 then write b!"\n" else skipOut) +++ dumpDefinition fmtG n d.body +++ (if i < n - 1 then write b!"\n" else skipOut)) i ds) x ∧
      (n ≠ 1 → ∀ r, NewDefn r → NewDefn (x ++ r)) ∧ ∀ rest, NewDefn rest → ∃ ds', ds'.map (·.body) = ds.map (·.body) ∧ Many (LocDefn pf true) (x ++ rest) ds' rest
  | [], i, _, _ => ⟨[], J.skip'.weak, fun _ _ h => h, fun rest _ => ⟨[], rfl, .nil _⟩⟩
  | d :: ds, i, hi, h => by
    obtain ⟨ts, r, hn, hd, ho, hb⟩ := h d (by simp)
    obtain ⟨x, j, q, xne, g⟩ := defn_dump n hd hn ho hb
    obtain ⟨y, j2, q2, g2⟩ := defs_dump n ds (i + 1) (by simp at hi; omega) fun d hd => h d (by simp [hd])
    have jb : J false false (if i ≠ 0 then write b!"\n" else skipOut) [] := by
      split
      · exact J.newline.hard
      · exact J.skip'
    refine ⟨x ++ y, ?_, fun h1 r _ => by rw [List.append_assoc]; exact q h1 _, fun rest hr => ?_⟩
    · rw [forEachFrom]
      cases ds with
      | nil =>
        rw [if_neg (c := i < n - 1) (by simp at hi; omega)]
        have hy : y = [] := by
          obtain ⟨ds', e, m⟩ := g2 [] newDefn_nil
          have := List.map_eq_nil_iff.1 e
          subst this
          generalize hz : y ++ [] = z at m
          cases m
          simpa using hz
        subst hy
        exact ((jb.seq (j.seq J.skip)).seq J.skip).eqs rfl (by simp)
      | cons d2 ds =>
        rw [if_pos (c := i < n - 1) (by simp at hi; omega)]
        exact ((jb.seq (j.seq J.newline)).seq j2).eqs rfl (by simp)
    · obtain ⟨ds', e, m⟩ := g2 rest hr
      have hy : NewDefn (y ++ rest) := by
        cases ds with
        | nil =>
          have hd : ds' = [] := by simpa using e
          subst hd
          generalize hz : y ++ rest = z at m
          cases m
          exact hr
        | cons d2 ds => exact q2 (by simp at hi; omega) _ hr
      cases x with
      | nil => exact absurd rfl xne
      | cons t x =>
        have := g (y ++ rest) hy
        exact ⟨⟨_, d.body⟩ :: ds', by simp [e], .cons (by rw [List.append_assoc]; exact .mk this) m⟩

end

end GQL
