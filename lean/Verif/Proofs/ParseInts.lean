/-
The integers of a derivation are those of its tokens.
-/
import Verif.Spec.Ints
import Verif.Proofs.ParseEats

namespace GQL
open Spec

/-- The tokens before `rest` have the integers `is`, all in range. -/
def Ints (ts : Toks) (is : List Int) (rest : Toks) : Prop := tokInts ts = is ++ tokInts rest ∧ ∀ i ∈ is, Spec.Int64 i

theorem Ints.refl (ts : Toks) : Ints ts [] ts := ⟨rfl, by simp⟩

theorem Ints.trans {a b c : Toks} {x y : List Int} (h : Ints a x b) (h2 : Ints b y c) : Ints a (x ++ y) c := by
  refine ⟨by rw [h.1, h2.1, List.append_assoc], ?_⟩
  intro i hi
  rcases List.mem_append.1 hi with h' | h'
  · exact h.2 i h'
  · exact h2.2 i h'

theorem Ints.skip {a b c : Toks} {y : List Int} (h : Ints a [] b) (h2 : Ints b y c) : Ints a y c := h.trans h2
theorem Ints.drop {a b c : Toks} {y : List Int} (h : Ints a y b) (h2 : Ints b [] c) : Ints a y c := by
  have := h.trans h2; rwa [List.append_nil] at this

theorem tok1_ints {k l} {ts rest : Toks} (h : Tok1 k l ts rest) (hk : k ≠ .intValue := by decide) : Ints ts [] rest := by
  obtain ⟨t, rfl, h1, -⟩ := h
  have : (t.kind == .intValue) = false := by
    rw [h1]; cases k <;> first | rfl | exact absurd rfl hk
  exact ⟨by simp [tokInts, this], by simp⟩

theorem litInt_of {l : Bytes} {i : Int} (h : IntLit l i) : litInt l = i := by
  rcases h with ⟨⟨h1, h2⟩, rfl⟩ | ⟨ds, rfl, _, rfl⟩ | ⟨ds, rfl, _, rfl⟩
  · unfold litInt
    split
    · have := h2 43 (by simp); omega
    · have := h2 45 (by simp); omega
    · rfl
  · rfl
  · rfl

theorem int_ints {l i} {ts rest : Toks} (h : Tok1 .intValue l ts rest) (h2 : IntLit l i) (h3 : Spec.Int64 i) : Ints ts [i] rest := by
  obtain ⟨t, rfl, h1, rfl⟩ := h
  exact ⟨by simp [tokInts, h1, litInt_of h2], by simpa using h3⟩

theorem many_ints {α : Type} {R : Toks → α → Toks → Prop} {f : α → List Int} {ts rest : Toks} {as : List α}
    (hm : Many R ts as rest) (h : ∀ ts a r, R ts a r → Ints ts (f a) r) : Ints ts (as.flatMap f) rest := by
  induction hm with
  | nil => exact .refl _
  | cons h1 _ ih => rw [List.flatMap_cons]; exact (h _ _ _ h1).trans ih

theorem many_ints0 {α : Type} {R : Toks → α → Toks → Prop} {ts rest : Toks} {as : List α}
    (hm : Many R ts as rest) (h : ∀ ts a r, R ts a r → Ints ts [] r) : Ints ts [] rest := by
  induction hm with
  | nil => exact .refl _
  | cons h1 _ ih => exact (h _ _ _ h1).skip ih

theorem sepBy_ints0 {α : Type} {R : Toks → α → Toks → Prop} {l : Bytes} {ts rest : Toks} {as : List α}
    (hm : SepBy R l ts as rest) (h : ∀ ts a r, R ts a r → Ints ts [] r) : Ints ts [] rest := by
  induction hm with
  | one h1 _ => exact h _ _ _ h1
  | cons h1 h2 _ ih => exact (h _ _ _ h1).skip ((tok1_ints h2).skip ih)

theorem block_ints {α : Type} {R : Toks → α → Toks → Prop} {f : α → List Int} {ts rest : Toks} {as : List α}
    (hm : Block R ts as rest) (h : ∀ ts a r, R ts a r → Ints ts (f a) r) : Ints ts (as.flatMap f) rest := by
  cases hm with
  | none _ => exact .refl _
  | some h1 h2 _ h3 => exact (tok1_ints h1).skip ((many_ints h2 h).drop (tok1_ints h3))

theorem optPu_ints {l : Bytes} {ts rest : Toks} (h : OptPu l ts rest) : Ints ts [] rest := by
  rcases h with h | ⟨-, rfl⟩
  · exact tok1_ints h
  · exact .refl _

theorem optTok_ints {k : TokenKind} {l : Bytes} {ts rest : Toks} (h : OptTok k ts l rest)
    (hk : k ≠ .intValue := by decide) : Ints ts [] rest := by
  rcases h with h | ⟨-, -, rfl⟩
  · exact tok1_ints h hk
  · exact .refl _

theorem bang_ints {b : Bool} {ts rest : Toks} (h : Bang ts b rest) : Ints ts [] rest := by
  rcases h with ⟨-, h⟩ | ⟨-, -, rfl⟩
  · exact tok1_ints h
  · exact .refl _

section
variable {pf : Bytes → Option Nat} {lax : Bool}

mutual
theorem typeRef_ints {ts t rest} : TypeRef lax ts t rest → Ints ts [] rest
  | .named h1 h2 => (tok1_ints h1).skip (bang_ints h2)
  | .list h1 h2 h3 h4 => (tok1_ints h1).skip ((typeRef_ints h2).skip ((tok1_ints h3).skip (bang_ints h4)))
  | .broken _ h1 h2 => (tok1_ints h1).skip (typeStuck_ints h2)
theorem typeStuck_ints {ts rest} : TypeStuck lax ts rest → Ints ts [] rest
  | .start _ _ => .refl _
  | .unclosed h1 h2 _ => (tok1_ints h1).skip (typeRef_ints h2)
end

theorem namedType_ints {ts t rest} (h : NamedType lax ts t rest) : Ints ts [] rest := by
  cases h with | mk h1 h2 _ => exact (tok1_ints h1).skip (bang_ints h2)

mutual
theorem val_ints {c ts v rest} : Val pf lax c ts v rest → Ints ts (valInts v) rest
  | .var _ h1 h2 => by unfold valInts; exact (tok1_ints h1).skip (tok1_ints h2)
  | .int h h2 h3 => by unfold valInts; exact int_ints h h2 h3
  | .float h _ => by unfold valInts; exact tok1_ints h
  | .str h => by unfold valInts; exact tok1_ints h
  | .tru h => by unfold valInts; exact tok1_ints h
  | .fls h => by unfold valInts; exact tok1_ints h
  | .null h => by unfold valInts; exact tok1_ints h
  | .enum h _ _ _ => by unfold valInts; exact tok1_ints h
  | .list h1 h2 h3 => by unfold valInts; exact (tok1_ints h1).skip ((vals_ints h2).drop (tok1_ints h3))
  | .obj h1 h2 h3 => by unfold valInts; exact (tok1_ints h1).skip ((flds_ints h2).drop (tok1_ints h3))
theorem vals_ints {c ts vs rest} : Vals pf lax c ts vs rest → Ints ts (valsInts vs) rest
  | .nil _ => by unfold valsInts; exact .refl _
  | .cons h1 h2 => by unfold valsInts; exact (val_ints h1).trans (vals_ints h2)
theorem flds_ints {c ts fs rest} : Flds pf lax c ts fs rest → Ints ts (fldsInts fs) rest
  | .nil _ => by unfold fldsInts; exact .refl _
  | .cons h1 h2 h3 h4 => by
    unfold fldsInts; exact (tok1_ints h1).skip ((tok1_ints h2).skip ((val_ints h3).trans (flds_ints h4)))
end

theorem default_ints {ts d rest} (h : Default pf lax ts d rest) : Ints ts (defaultInts d) rest := by
  cases h with
  | none => exact .refl _
  | some h1 h2 => exact (tok1_ints h1).skip (val_ints h2)

theorem args_ints {c ts d rest} (h : Args pf lax c ts d rest) : Ints ts (argsInts d) rest := by
  cases h with
  | none => exact .refl _
  | some h1 h2 h3 =>
    refine (tok1_ints h1).skip ((many_ints h2 ?_).drop (tok1_ints h3))
    intro ts a r h
    cases h with | mk g1 g2 g3 => exact (tok1_ints g1).skip ((tok1_ints g2).skip (val_ints g3))

theorem dirs_ints {c loc ts d rest} (h : Dirs pf lax c loc ts d rest) : Ints ts (dirsInts d) rest := by
  refine many_ints h.1 ?_
  intro ts a r h
  cases h with | mk h1 h2 h3 => exact (tok1_ints h1).skip ((tok1_ints h2).skip (args_ints h3))

theorem typeCond_ints {ts t rest} (h : TypeCond lax ts t rest) : Ints ts [] rest := by
  cases h with | mk h1 h2 => exact (tok1_ints h1).skip (namedType_ints h2)

theorem optCond_ints {ts t rest} (h : OptCond lax ts t rest) : Ints ts [] rest := by
  cases h with
  | none => exact .refl _
  | some h => exact typeCond_ints h

theorem fieldName_ints {ts t rest} (h : FieldName ts t rest) : Ints ts [] rest := by
  cases h with
  | plain h _ => exact tok1_ints h
  | alias h1 h2 h3 => exact (tok1_ints h1).skip ((tok1_ints h2).skip (tok1_ints h3))

mutual
theorem sel_ints {ts s rest} : Sel pf lax ts s rest → Ints ts (selInts s) rest
  | .leaf h1 h2 h3 _ => by
    unfold selInts selsInts; rw [List.append_nil]
    exact (fieldName_ints h1).skip ((args_ints h2).trans (dirs_ints h3))
  | .node h1 h2 h3 h4 => by
    unfold selInts; exact (fieldName_ints h1).skip (((args_ints h2).trans (dirs_ints h3)).trans (selSet_ints h4))
  | .spread h1 h2 _ h3 => by unfold selInts; exact (tok1_ints h1).skip ((tok1_ints h2).skip (dirs_ints h3))
  | .inline h1 h2 h3 h4 => by
    unfold selInts; exact (tok1_ints h1).skip ((optCond_ints h2).skip ((dirs_ints h3).trans (selSet_ints h4)))
theorem sels_ints {ts s rest} : Sels pf lax ts s rest → Ints ts (selsInts s) rest
  | .one h => by unfold selsInts selsInts; rw [List.append_nil]; exact sel_ints h
  | .cons h1 h2 => by unfold selsInts; exact (sel_ints h1).trans (sels_ints h2)
theorem selSet_ints {ts s rest} : SelSet pf lax ts s rest → Ints ts (selsInts s) rest
  | .mk h1 h2 h3 => (tok1_ints h1).skip ((sels_ints h2).drop (tok1_ints h3))
end

theorem varDefns_ints {ts d rest} (h : VarDefns pf lax ts d rest) :
    Ints ts (d.flatMap fun v => defaultInts v.default) rest := by
  cases h with
  | none => exact .refl _
  | some h1 h2 _ h3 =>
    refine (tok1_ints h1).skip ((many_ints h2 ?_).drop (tok1_ints h3))
    intro ts a r h
    cases h with
    | mk h1 h2 h3 h4 h5 =>
      exact (tok1_ints h1).skip ((tok1_ints h2).skip ((tok1_ints h3).skip ((typeRef_ints h4).skip (default_ints h5))))

theorem opType_ints {ts k rest} (h : OpType ts k rest) : Ints ts [] rest := by
  cases h with
  | query h => exact tok1_ints h
  | mutation h => exact tok1_ints h
  | subscription h => exact tok1_ints h

theorem opDefn_ints {ts d rest} (h : OpDefn pf lax ts d rest) : Ints ts (bodyInts (.op d)) rest := by
  cases h with
  | shorthand h => exact selSet_ints h
  | full h1 h2 h3 h4 h5 =>
    exact (opType_ints h1).skip ((optTok_ints h2).skip (((varDefns_ints h3).trans (dirs_ints h4)).trans (selSet_ints h5)))

theorem fragDefn_ints {ts d rest} (h : FragDefn pf lax ts d rest) : Ints ts (bodyInts (.frag d)) rest := by
  cases h with
  | mk h1 h2 _ h3 h4 h5 =>
    exact (tok1_ints h1).skip ((tok1_ints h2).skip ((typeCond_ints h3).skip ((dirs_ints h4).trans (selSet_ints h5))))

theorem opTypeDefns_ints {ts d rest} (h : OpTypeDefns lax ts d rest) : Ints ts [] rest := by
  cases h with
  | mk h1 h2 _ h3 =>
    refine (tok1_ints h1).skip ((many_ints0 h2 ?_).skip (tok1_ints h3))
    intro ts a r h
    cases h with | mk h1 h2 h3 => exact (opType_ints h1).skip ((tok1_ints h2).skip (namedType_ints h3))

theorem schemaDefn_ints {ts d rest} (h : SchemaDefn pf lax ts d rest) : Ints ts (dirsInts d.dirs) rest := by
  cases h with
  | mk h1 h2 h3 => exact (tok1_ints h1).skip ((dirs_ints h2).drop (opTypeDefns_ints h3))

theorem schemaExtn_ints {ts d rest} (h : SchemaExtn pf lax ts d rest) : Ints ts (dirsInts d.dirs) rest := by
  cases h with
  | ops h1 h2 h3 => exact (tok1_ints h1).skip ((dirs_ints h2).drop (opTypeDefns_ints h3))
  | dirs h1 h2 _ _ => exact (tok1_ints h1).skip (dirs_ints h2)

theorem inputValue_ints {loc ts d rest} (h : InputValue pf lax loc ts d rest) : Ints ts (inputInts d) rest := by
  cases h with
  | mk h1 h2 h3 h4 h5 h6 =>
    exact (optTok_ints h1).skip ((tok1_ints h2).skip ((tok1_ints h3).skip ((typeRef_ints h4).skip
      ((default_ints h5).trans (dirs_ints h6)))))

theorem argsDef_ints {ts d rest} (h : ArgsDef pf lax ts d rest) : Ints ts (d.flatMap inputInts) rest := by
  cases h with
  | none => exact .refl _
  | some h1 h2 _ h3 => exact (tok1_ints h1).skip ((many_ints h2 (fun _ _ _ => inputValue_ints)).drop (tok1_ints h3))

theorem dirDefn_ints {desc ts d rest} (h : DirDefn pf lax desc ts d rest) : Ints ts (d.args.flatMap inputInts) rest := by
  cases h with
  | mk h1 h2 h3 h4 h5 h6 h7 =>
    exact (tok1_ints h1).skip ((tok1_ints h2).skip ((tok1_ints h3).skip ((argsDef_ints h4).drop
      ((tok1_ints h5).skip ((optPu_ints h6).skip (sepBy_ints0 h7 (fun _ _ _ h => tok1_ints h)))))))

theorem implements_ints {ts d rest} (h : Implements lax ts d rest) : Ints ts [] rest := by
  cases h with
  | none => exact .refl _
  | some h1 h2 h3 =>
    exact (tok1_ints h1).skip ((optPu_ints h2).skip (sepBy_ints0 h3 (fun _ _ _ h => typeRef_ints h.1)))

theorem unionMembers_ints {ts d rest} (h : UnionMembers lax ts d rest) : Ints ts [] rest := by
  cases h with
  | none => exact .refl _
  | some h1 h2 h3 =>
    exact (tok1_ints h1).skip ((optPu_ints h2).skip (sepBy_ints0 h3 (fun _ _ _ h => typeRef_ints h.1)))

theorem fieldDefn_ints {ts d rest} (h : FieldDefn pf lax ts d rest) : Ints ts (fieldInts d) rest := by
  cases h with
  | mk h1 h2 h3 h4 h5 h6 =>
    exact (optTok_ints h1).skip ((tok1_ints h2).skip ((argsDef_ints h3).trans ((tok1_ints h4).skip
      ((typeRef_ints h5).skip (dirs_ints h6)))))

theorem enumValDefn_ints {ts d rest} (h : EnumValDefn pf lax ts d rest) : Ints ts (dirsInts d.dirs) rest := by
  cases h with
  | mk h1 h2 _ _ _ h3 => exact (optTok_ints h1).skip ((tok1_ints h2).skip (dirs_ints h3))

theorem typeDefn_ints {desc ts d rest} (h : TypeDefn pf lax desc ts d rest) : Ints ts (typeInts d) rest := by
  cases h with
  | scalar h1 h2 h3 =>
    simpa [typeInts] using (tok1_ints h1).skip ((tok1_ints h2).skip (dirs_ints h3))
  | object h1 h2 h3 h4 h5 =>
    simpa [typeInts] using (tok1_ints h1).skip ((tok1_ints h2).skip ((implements_ints h3).skip ((dirs_ints h4).trans
      (block_ints h5 (fun _ _ _ => fieldDefn_ints)))))
  | interface h1 h2 h4 h5 =>
    simpa [typeInts] using (tok1_ints h1).skip ((tok1_ints h2).skip ((dirs_ints h4).trans
      (block_ints h5 (fun _ _ _ => fieldDefn_ints))))
  | union h1 h2 h4 h5 =>
    simpa [typeInts] using (tok1_ints h1).skip ((tok1_ints h2).skip ((dirs_ints h4).drop (unionMembers_ints h5)))
  | enum h1 h2 h4 h5 =>
    simpa [typeInts] using (tok1_ints h1).skip ((tok1_ints h2).skip ((dirs_ints h4).trans
      (block_ints h5 (fun _ _ _ => enumValDefn_ints))))
  | input h1 h2 h4 h5 =>
    simpa [typeInts] using (tok1_ints h1).skip ((tok1_ints h2).skip ((dirs_ints h4).trans
      (block_ints h5 (fun _ _ _ => inputValue_ints))))

theorem defn_ints {ts b rest} (h : Defn pf lax ts b rest) : Ints ts (bodyInts b) rest := by
  cases h with
  | op h => exact opDefn_ints h
  | frag h => exact fragDefn_ints h
  | schema h => exact schemaDefn_ints h
  | schemaDesc _ h1 h2 => exact (tok1_ints h1).skip (schemaDefn_ints h2)
  | type h1 h2 => exact (optTok_ints h1).skip (typeDefn_ints h2)
  | directive h1 h2 => exact (optTok_ints h1).skip (dirDefn_ints h2)
  | schemaExt h1 h2 => exact (tok1_ints h1).skip (schemaExtn_ints h2)
  | typeExt h1 h2 _ => exact (tok1_ints h1).skip (typeDefn_ints h2)

theorem defs_ints {ts ds rest} (h : Many (LocDefn pf lax) ts ds rest) : Ints ts (docInts ds) rest :=
  many_ints h (fun _ _ _ h => by cases h with | mk h => exact defn_ints h)

end
end GQL
