/-
Printed type system definitions are derived by the grammar.
-/
import Verif.Proofs.DumpDoc
import Verif.Props.C17

namespace GQL
open Spec

/-! ### Descriptions -/

/-- A description, with the line end after it. -/
theorem desc_dump {s : Bytes} (h : DescriptionOk s) : ∃ x, J false false (dumpDescription s) x ∧ (∀ r, NewDefn r → NewDefn (x ++ r)) ∧
    (∀ r, Fresh r → Fresh (x ++ r)) ∧ ∀ r, NotKind .stringValue r → OptTok .stringValue (x ++ r) s r := by
  obtain ⟨cs, rfl, hz, hd⟩ := h
  by_cases he : cs = []
  · subst he
    exact ⟨[], J.skip', fun _ h => h, fun _ h => h, fun r hr => .inr ⟨rfl, hr, rfl⟩⟩
  · have h := hd.resolve_left he
    have hne : utf8 cs ≠ [] := by
      cases cs with
      | nil => exact absurd rfl he
      | cons c t =>
        rw [utf8_cons]
        intro e
        exact absurd (List.append_eq_nil_iff.1 e).1 (utf8Char_ne_nil c)
    refine ⟨[st (utf8 cs)], ?_, fun r _ => ⟨fresh_kind (by decide), notNext_tk (.inl (by decide))⟩, fun r _ => fresh_kind (by decide), fun r _ => .inl tok1_tk⟩
    unfold dumpDescription
    rw [if_pos hne]
    have := J.token (e := false) (w := utf8 (quotes3 ++ ('\n' :: (cs ++ '\n' :: quotes3)))) _ .string cs rfl
      (by simp [quotes3, hz]) fun rest _ => by
        have := block_lexeme (esc := false) (k := 0) (m := 0) (Nat.le_refl _) h.1 h.2 rest
        simpa [escIf, spaces, indentAfter_nil] using this
    refine (this.seq J.newline).eqs ?_ rfl
    simp only [seqOut, Out.bind, Out.ret.injEq, utf8_append, utf8_cons, List.append_assoc]
    rfl

section
variable {pf : Bytes → Option Nat} {fmtG : Nat → Bytes}

theorem typeRef_name {ts : Toks} {n : Bytes} {b : Bool} {rest : Toks} (h : TypeRef true ts (.named n b) rest) (hn : Names ts) : NameText n := by
  cases h with
  | named h1 _ => exact hn.nm h1

/-- An input value. -/
theorem inputValue_dump {loc : DirLoc} {ts : Toks} {v : InputVal} {rest : Toks} (h : InputValue pf true loc ts v rest) (hn : Names ts) (ho : InputOk fmtG pf v) :
    ∃ x, J false true (dumpInputValueDefinition fmtG v) x ∧ (∀ r, Fresh (x ++ r)) ∧ ∀ rest', Fresh rest' → InputValue pf true loc (x ++ rest') v rest' := by
  cases h with
  | @mk desc _ n _ _ t _ d _ ds _ h1 h2 h3 h4 h5 h6 =>
    obtain ⟨tn, b, rfl⟩ : Plain2 t := ho.2.1
    have hn1 := hn.go (optTok_eats h1 (by decide) (by decide))
    have hn3 := (hn1.tok h2).tok h3
    have hn4 := hn3.go1 (typeRef_eats h4)
    obtain ⟨x, jx, f1, f2, gx⟩ := desc_dump ho.1
    obtain ⟨y, jy, oy, gy⟩ := bang_dump b
    obtain ⟨z, jz, oz, gz⟩ := default_dump h5 hn4 ho.2.2.1
    obtain ⟨w, jw, ow, gw⟩ := dirs_dump 0 h6 (hn4.go (default_eats h5)) ho.2.2.2
    refine ⟨x ++ (nt n :: pt b!":" :: nt tn :: (y ++ (z ++ w))), ?_, fun r => ?_, fun rest' hr => ?_⟩
    · exact (jx.seq ((J.name (hn1.nm h2)).seq (J.colon.seq ((J.name (typeRef_name h4 hn3)).seq (jy.seq (jz.seq jw)))))).eqs rfl (by simp)
    · rw [List.append_assoc]
      exact f2 _ (fresh_kind (by decide))
    · rw [List.append_assoc]
      refine .mk (gx _ (notKind_tk (by decide))) tok1_tk tok1_tk (.named (r := y ++ (z ++ (w ++ rest'))) ⟨nt tn, by simp, rfl, rfl⟩ (gy _ ?_)) (gz _ ?_) (gw _ (hr _ (by decide)) (hr _ (by decide)))
      · exact oz.notNext (.inr (by decide)) (ow.notNext (.inr (by decide)) (hr _ (by decide)))
      · exact ow.notNext (.inr (by decide)) (hr _ (by decide))

/-- Argument definitions. -/
theorem argsDef_dump {ts : Toks} {as : List InputVal} {rest : Toks} (h : ArgsDef pf true ts as rest) (hn : Names ts) (ho : ∀ a ∈ as, InputOk fmtG pf a) :
    ∃ x, J true true (dumpOptArgsDef fmtG as) x ∧ Opt b!"(" x ∧ ∀ rest', NotNext1 .punctuator b!"(" rest' → ArgsDef pf true (x ++ rest') as rest' := by
  unfold dumpOptArgsDef
  cases h with
  | none _ => exact ⟨[], J.skip, .inl rfl, fun _ h => .none h⟩
  | some h1 h2 h3 h4 =>
    rw [if_pos h3]
    have mem := many_mem (fun _ _ _ h => (inputValue_eats h).1) h2 (hn.tok h1)
    obtain ⟨x, j, -, m⟩ := many_before0 (R := InputValue pf true .argumentDefinition) (Q := Fresh) (f := dumpInputValueDefinition fmtG)
      (g := fun i => if i > 0 then write b!", " else skipOut) rfl (fun i => J.comma) h3 fun a ha => by
        obtain ⟨ts', r, hn', ha'⟩ := mem a ha
        exact inputValue_dump ha' hn' (ho a ha)
    refine ⟨[pt b!"("] ++ (x ++ [pt b!")"]), ((J.punct '(').seq (j.seq (J.punct ')'))).weak, .inr ⟨_, tok1_tk⟩, fun rest' _ => ?_⟩
    refine .some (r1 := (x ++ [pt b!")"]) ++ rest') (r2 := pt b!")" :: rest') tok1_tk ?_ h3 tok1_tk
    rw [List.append_assoc]; exact m _ fresh_pt

theorem J.indentation : J false false (write indentation) [] := J.indent 1

/-- A field. -/
theorem fieldDefn_dump {ts : Toks} {f : FieldDef} {rest : Toks} (h : FieldDefn pf true ts f rest) (hn : Names ts) (ho : FieldOk fmtG pf f) :
    ∃ x, J false true (dumpFieldDefinition fmtG f) x ∧ (∀ r, Fresh (x ++ r)) ∧ ∀ rest', Fresh rest' → FieldDefn pf true (x ++ rest') f rest' := by
  cases h with
  | @mk desc _ n _ as _ _ t _ ds _ h1 h2 h3 h4 h5 h6 =>
    obtain ⟨tn, b, rfl⟩ : Plain2 t := ho.2.1
    have hn1 := hn.go (optTok_eats h1 (by decide) (by decide))
    have hn2 := hn1.tok h2
    have hn4 := (hn2.go (argsDef_eats h3)).tok h4
    obtain ⟨x, jx, f1, f2, gx⟩ := desc_dump ho.1
    obtain ⟨z, jz, oz, gz⟩ := argsDef_dump h3 hn2 ho.2.2.1
    obtain ⟨y, jy, oy, gy⟩ := bang_dump b
    obtain ⟨w, jw, ow, gw⟩ := dirs_dump 0 h6 (hn4.go1 (typeRef_eats h5)) ho.2.2.2
    refine ⟨x ++ (nt n :: (z ++ pt b!":" :: nt tn :: (y ++ w))), ?_, fun r => ?_, fun rest' hr => ?_⟩
    · exact (jx.seq (J.indentation.seq ((J.name (hn1.nm h2)).seq (jz.seq (J.colon.seq ((J.name (typeRef_name h5 hn4)).seq (jy.seq jw))))))).eqs rfl (by simp)
    · rw [List.append_assoc]
      exact f2 _ (fresh_kind (by decide))
    · rw [List.append_assoc]
      refine .mk (r2 := z ++ (pt b!":" :: nt tn :: (y ++ (w ++ rest')))) (gx _ (notKind_tk (by decide))) ⟨nt n, by simp, rfl, rfl⟩ (gz _ (notNext_tk (.inr (by decide)))) tok1_tk
        (.named tok1_tk (gy _ ?_)) (gw _ (hr _ (by decide)) (hr _ (by decide)))
      exact ow.notNext (.inr (by decide)) (hr _ (by decide))

/-- An enum value. -/
theorem enumValDefn_dump {ts : Toks} {v : EnumVal} {rest : Toks} (h : EnumValDefn pf true ts v rest) (hn : Names ts) (ho : EnumOk fmtG pf v) :
    ∃ x, J false true (dumpEnumValueDefinition fmtG v) x ∧ (∀ r, Fresh (x ++ r)) ∧ ∀ rest', Fresh rest' → EnumValDefn pf true (x ++ rest') v rest' := by
  cases h with
  | @mk desc _ n _ ds _ h1 h2 h3 h4 h5 h6 =>
    have hn1 := hn.go (optTok_eats h1 (by decide) (by decide))
    obtain ⟨x, jx, f1, f2, gx⟩ := desc_dump ho.1
    obtain ⟨w, jw, ow, gw⟩ := dirs_dump 0 h6 (hn1.tok h2) ho.2
    refine ⟨x ++ (nt n :: w), ?_, fun r => ?_, fun rest' hr => ?_⟩
    · exact (jx.seq (J.indentation.seq ((J.name (hn1.nm h2)).seq jw))).eqs rfl (by simp)
    · rw [List.append_assoc]
      exact f2 _ (fresh_kind (by decide))
    · rw [List.append_assoc]
      exact .mk (gx _ (notKind_tk (by decide))) tok1_tk h3 h4 h5 (gw _ (hr _ (by decide)) (hr _ (by decide)))

/-- `{ R+ }` with a line for each, optional. -/
theorem block_dump {α : Type} {R : Toks → α → Toks → Prop} {f : α → Out Bytes} (hR : ∀ ts a r, R ts a r → Eats1 ts r) {ts : Toks} {l : List α} {rest : Toks}
    (h : Block R ts l rest) (hn : Names ts)
    (hf : ∀ a ∈ l, ∀ ts rest, Names ts → R ts a rest → ∃ x, J false true (f a) x ∧ (∀ r, Fresh (x ++ r)) ∧ ∀ rest', Fresh rest' → R (x ++ rest') a rest') :
    ∃ x, J true true (dumpOpt (fun l => write b!"{\n" +++ forEach (fun a _ => f a +++ write b!"\n") l +++ write b!"}") l) x ∧ Opt b!"{" x ∧
      ∀ rest', NotNext1 .punctuator b!"{" rest' → Block R (x ++ rest') l rest' := by
  unfold dumpOpt
  cases h with
  | none _ => exact ⟨[], J.skip, .inl rfl, fun _ h => .none h⟩
  | some h1 h2 h3 h4 =>
    rw [if_pos h3]
    have mem := many_mem (fun _ _ _ h => (hR _ _ _ h).1) h2 (hn.tok h1)
    obtain ⟨x, j, -, m⟩ := many_lines (R := R) (Q := Fresh) (f := f) l 0 fun a ha => by
      obtain ⟨ts', r, hn', ha'⟩ := mem a ha
      exact hf a ha _ _ hn' ha'
    refine ⟨[pt b!"{"] ++ (x ++ [pt b!"}"]), (J.space.seq (J.brace.seq (j.seq (J.punct '}').hard))).weak, .inr ⟨_, tok1_tk⟩, fun rest' _ => ?_⟩
    refine .some (r1 := (x ++ [pt b!"}"]) ++ rest') (r2 := pt b!"}" :: rest') tok1_tk ?_ h3 tok1_tk
    rw [List.append_assoc]; exact m _ fresh_pt

/-! ### Lists with separators -/

/-- Names with a separator after each but the last. -/
theorem sepBy_dump {α : Type} {R : Toks → α → Toks → Prop} {nm : α → Bytes} {l sep : Bytes} (hsep : J true false (write sep) [pt l]) (hl : l ≠ b!"!") (n : Nat) :
    ∀ (as : List α) (i : Nat), i + as.length = n → as ≠ [] →
    (∀ a ∈ as, NameText (nm a) ∧ ∀ rest, NotNext1 .punctuator b!"!" rest → R (nt (nm a) :: rest) a rest) →
    ∃ m x, J false true (forEachFrom (fun t i => write t +++ (if i < n - 1 then write sep else skipOut)) i (as.map nm)) (nt m :: x) ∧
      ∀ rest, NotNext1 .punctuator b!"!" rest → NotNext1 .punctuator l rest → SepBy R l (nt m :: x ++ rest) as rest
  | [], _, _, h, _ => absurd rfl h
  | [a], i, hi, _, h => by
    obtain ⟨h1, h2⟩ := h a (by simp)
    refine ⟨nm a, [], ?_, fun rest r1 r2 => .one (h2 _ r1) r2⟩
    rw [List.map, forEachFrom, if_neg (by simp at hi; omega)]
    exact (((J.name h1).seq J.skip).seq J.skip).eqs rfl rfl
  | a :: b :: as, i, hi, _, h => by
    obtain ⟨h1, h2⟩ := h a (by simp)
    obtain ⟨m, x, j, g⟩ := sepBy_dump hsep hl n (b :: as) (i + 1) (by simp at hi ⊢; omega) (by simp) fun a ha => h a (by simp at ha ⊢; simp [ha])
    refine ⟨nm a, [pt l] ++ (nt m :: x), ?_, fun rest r1 r2 => ?_⟩
    · rw [List.map, forEachFrom, if_pos (by simp at hi; omega)]
      exact (((J.name h1).seq hsep).seq j).eqs rfl (by simp)
    · exact .cons (h2 _ (notNext_tk (.inr hl))) tok1_tk (g _ r1 r2)

/-- A separator with white space around it. -/
theorem J.sep {w l : Bytes} (c : Char) (u : List Char) (hl : l = utf8 [c]) (hc : c ∈ punctuators) (hu : u ≠ []) (hi : ∀ d ∈ u, ignored d = true) (hw : w = utf8 u ++ l ++ b!" ") :
    J true false (write w) [pt l] := by
  have := (J.blank u rfl hi hu).seq ((J.punct (w := l) c hc hl).seq J.space)
  exact this.eqs (by rw [hw]; simp [seqOut, Out.bind]) rfl

/-- What stands before the first name: nothing but a space, or a separator. -/
theorem sepStart {α : Type} {R : Toks → α → Toks → Prop} {nm : α → Bytes} {l sep : Bytes} (hsep : J true false (write sep) [pt l]) (hl : l ≠ b!"!") (as : List α) (hne : as ≠ [])
    (b : Prop) [Decidable b]
    (h : ∀ a ∈ as, NameText (nm a) ∧ ∀ rest, NotNext1 .punctuator b!"!" rest → R (nt (nm a) :: rest) a rest) :
    ∃ x, J true true ((if b then write b!" " else write sep) +++ forEach (fun t i => write t +++ (if i < as.length - 1 then write sep else skipOut)) (as.map nm)) x ∧
      ∀ rest, NotNext1 .punctuator b!"!" rest → NotNext1 .punctuator l rest → ∃ r, OptPu l (x ++ rest) r ∧ SepBy R l r as rest := by
  obtain ⟨m, x, j, g⟩ := sepBy_dump hsep hl as.length as 0 (by simp) hne h
  by_cases hb : b
  · rw [if_pos hb]
    exact ⟨nt m :: x, J.space.seq j, fun rest r1 r2 => ⟨_, .inr ⟨notNext_tk (.inl (by decide)), rfl⟩, g rest r1 r2⟩⟩
  · rw [if_neg hb]
    exact ⟨[pt l] ++ (nt m :: x), hsep.seq j, fun rest r1 r2 => ⟨_, .inl tok1_tk, g rest r1 r2⟩⟩

theorem forEachFrom_map {α β : Type} (f : α → β) (g : β → Nat → Out Bytes) : ∀ (l : List α) (i : Nat), forEachFrom g i (l.map f) = forEachFrom (fun a i => g (f a) i) i l
  | [], _ => rfl
  | a :: l, i => by rw [List.map, forEachFrom, forEachFrom, forEachFrom_map]

theorem dumpTypeNames_eq (sep : Bytes) (ts : List Ty) : dumpTypeNames sep ts = forEach (fun t i => write t +++ (if i < ts.length - 1 then write sep else skipOut)) (ts.map Ty.rawName) := by
  rw [forEach, forEachFrom_map]; rfl

/-- The names in a list of plain types. -/
theorem sepBy_names {l : Bytes} : ∀ {ts : Toks} {as : List Ty} {rest : Toks}, SepBy (MemberType true) l ts as rest → Names ts → (∀ a ∈ as, Plain1 a) →
    ∀ a ∈ as, NameText a.rawName ∧ ∀ rest, NotNext1 .punctuator b!"!" rest → MemberType true (nt a.rawName :: rest) a rest := by
  have one : ∀ {ts a r}, MemberType true ts a r → Names ts → Plain1 a → NameText a.rawName ∧ ∀ rest, NotNext1 .punctuator b!"!" rest → MemberType true (nt a.rawName :: rest) a rest := by
    rintro ts a r h hn ⟨n, rfl⟩
    exact ⟨typeRef_name h.1 hn, fun rest hr => ⟨.named tok1_tk (.inr ⟨rfl, hr, rfl⟩), .inl rfl⟩⟩
  intro ts as rest h hn
  induction h with
  | one h1 _ =>
    intro hp a ha
    rw [List.mem_singleton] at ha
    subst ha
    exact one h1 hn (hp _ (by simp))
  | cons h1 h2 _ ih =>
    intro hp a ha
    rcases List.mem_cons.1 ha with rfl | ha
    · exact one h1 hn (hp _ (by simp))
    · exact ih ((hn.go1 (memberType_eats h1)).tok h2) (fun b hb => hp b (by simp [hb])) a ha

theorem sepBy_ne {α : Type} {R : Toks → α → Toks → Prop} {l : Bytes} {ts : Toks} {as : List α} {rest : Toks} (h : SepBy R l ts as rest) : as ≠ [] := by cases h <;> simp

/-- Interfaces. -/
theorem implements_dump {ts : Toks} {is : List Ty} {rest : Toks} (b : Bool) (h : Implements true ts is rest) (hn : Names ts) (ho : ∀ i ∈ is, Plain1 i) :
    ∃ x, J true true (dumpOpt (fun is => dumpImplementsInterfaces is b) is) x ∧ (x = [] ∨ ∃ r, x = nt b!"implements" :: r) ∧
      ∀ rest', NotNext1 .name b!"implements" rest' → NotNext1 .punctuator b!"!" rest' → NotNext1 .punctuator b!"&" rest' → Implements true (x ++ rest') is rest' := by
  unfold dumpOpt
  cases h with
  | none _ => exact ⟨[], J.skip, .inl rfl, fun _ h _ _ => .none h⟩
  | some h1 h2 h3 =>
    have hne := sepBy_ne h3
    rw [if_pos hne]
    unfold dumpImplementsInterfaces
    dsimp only
    rw [dumpTypeNames_eq]
    have hsep : J true false (write (if is.length < 3 then b!" & " else b!"\n " ++ ((if b then indentation else []) ++ b!" & "))) [pt b!"&"] := by
      split
      · exact J.sep '&' c!" " rfl (by decide) (by decide) (by decide) rfl
      · cases b
        · exact J.sep '&' c!"\n  " rfl (by decide) (by decide) (by decide) rfl
        · exact J.sep '&' c!"\n    " rfl (by decide) (by decide) (by decide) rfl
    obtain ⟨x, j, g⟩ := sepStart (R := MemberType true) hsep (by decide) is hne (is.length < 3) (sepBy_names h3 ((hn.tok h1).go (optPu_eats h2)) ho)
    refine ⟨[nt b!"implements"] ++ x, ?_, .inr ⟨_, rfl⟩, fun rest' r0 r1 r2 => ?_⟩
    · exact (J.space.seq ((J.name (nameText_of (n := b!"implements") 'i' c!"mplements")).seq j)).eqs rfl (by simp)
    · obtain ⟨r, g1, g2⟩ := g rest' r1 r2
      exact .some tok1_tk g1 g2

/-- Union members. -/
theorem unionMembers_dump {ts : Toks} {ms : List Ty} {rest : Toks} (h : UnionMembers true ts ms rest) (hn : Names ts) (ho : ∀ i ∈ ms, Plain1 i) :
    ∃ x, J true true (dumpOpt dumpUnionMemberTypes ms) x ∧ Opt b!"=" x ∧
      ∀ rest', NotNext1 .punctuator b!"=" rest' → NotNext1 .punctuator b!"!" rest' → NotNext1 .punctuator b!"|" rest' → UnionMembers true (x ++ rest') ms rest' := by
  unfold dumpOpt
  cases h with
  | none _ => exact ⟨[], J.skip, .inl rfl, fun _ h _ _ => .none h⟩
  | some h1 h2 h3 =>
    have hne := sepBy_ne h3
    rw [if_pos hne]
    unfold dumpUnionMemberTypes
    dsimp only
    rw [dumpTypeNames_eq]
    have hsep : J true false (write (if ms.length < 3 then b!" | " else b!"\n " ++ b!" | ")) [pt b!"|"] := by
      split
      · exact J.sep '|' c!" " rfl (by decide) (by decide) (by decide) rfl
      · exact J.sep '|' c!"\n  " rfl (by decide) (by decide) (by decide) rfl
    obtain ⟨x, j, g⟩ := sepStart (R := MemberType true) hsep (by decide) ms hne (ms.length < 3) (sepBy_names h3 ((hn.tok h1).go (optPu_eats h2)) ho)
    refine ⟨[pt b!"="] ++ x, ?_, .inr ⟨_, tok1_tk⟩, fun rest' r0 r1 r2 => ?_⟩
    · exact (J.space.seq ((J.punct '=').seq j)).eqs rfl (by simp)
    · obtain ⟨r, g1, g2⟩ := g rest' r1 r2
      exact .some tok1_tk g1 g2

/-! ### Directive locations -/

/-- The index of a location among the bits. -/
def locIdx (l : DirLoc) : Nat := DirLoc.all.idxOf l

theorem locIdx_bit (l : DirLoc) : l.bit = 2 ^ locIdx l := by cases l <;> rfl

/-- The locations in a bit set. -/
def locsOf (m : Nat) : List DirLoc := DirLoc.all.filter fun l => m &&& l.bit = l.bit

theorem mem_locsOf {m : Nat} {l : DirLoc} : l ∈ locsOf m ↔ inMask l m := by
  unfold locsOf
  rw [List.mem_filter, decide_eq_true_eq]
  exact ⟨fun h => h.2, fun h => ⟨(C22_names_bits l l).2.2.2, h⟩⟩

theorem locMask_lt (ls : List DirLoc) : locMask ls < 2 ^ 19 := by
  have key : ∀ (ls : List DirLoc) m, m < 2 ^ 19 → ls.foldl (fun m l => m ||| l.bit) m < 2 ^ 19 := by
    intro ls
    induction ls with
    | nil => intro m h; exact h
    | cons a as ih =>
      intro m h
      rw [List.foldl_cons]
      exact ih _ (Nat.or_lt_two_pow h (by cases a <;> decide))
  exact key ls 0 (by decide)

theorem locMask_testBit (ls : List DirLoc) (i : Nat) : (locMask ls).testBit i = true ↔ ∃ l ∈ ls, locIdx l = i := by
  have key : ∀ (ls : List DirLoc) (m : Nat), (ls.foldl (fun (m : Nat) (l : DirLoc) => m ||| l.bit) m).testBit i = true ↔ m.testBit i = true ∨ ∃ l ∈ ls, locIdx l = i := by
    intro ls
    induction ls with
    | nil => intro m; simp
    | cons a as ih =>
      intro m
      rw [List.foldl_cons, ih, Nat.testBit_or, locIdx_bit, Nat.testBit_two_pow]
      simp [or_assoc]
  unfold locMask
  rw [key]; simp

theorem locMask_locsOf (ls : List DirLoc) : locMask (locsOf (locMask ls)) = locMask ls := by
  apply Nat.eq_of_testBit_eq
  intro i
  rw [Bool.eq_iff_iff, locMask_testBit, locMask_testBit]
  simp only [mem_locsOf, C22_mask]

theorem locNames_eq (ls : List DirLoc) : locNames (locMask ls) = (locsOf (locMask ls)).map DirLoc.name := by
  have hlt := locMask_lt ls
  generalize locMask ls = m at hlt
  unfold locNames locsOf
  have e : List.range (DirLoc.all.length + 1) = DirLoc.all.map locIdx ++ [19] := by decide
  have h19 : m &&& (1 <<< 19) = 0 := by
    apply Nat.eq_of_testBit_eq
    intro j
    rw [Nat.testBit_and, Nat.one_shiftLeft, Nat.testBit_two_pow, Nat.zero_testBit]
    by_cases hj : 19 = j
    · subst hj; rw [Nat.testBit_lt_two_pow hlt]; rfl
    · simp [hj]
  rw [e, List.filterMap_append]
  rw [show ([19] : List Nat).filterMap (fun i => if m &&& (1 <<< i) = 0 then none else some (nameByLoc (m &&& (1 <<< i)))) = [] by
    rw [List.filterMap_cons, if_pos h19]; rfl]
  rw [List.append_nil, List.filterMap_map]
  induction DirLoc.all with
  | nil => rfl
  | cons l as ih =>
    have hl : 1 <<< locIdx l = l.bit := by rw [Nat.one_shiftLeft, locIdx_bit]
    by_cases hm : m &&& l.bit = l.bit
    · rw [List.filterMap_cons_some (b := l.name), List.filter_cons_of_pos (by simpa using hm), List.map_cons, ih]
      show (if m &&& (1 <<< locIdx l) = 0 then none else some (nameByLoc (m &&& (1 <<< locIdx l)))) = some l.name
      rw [hl, hm, if_neg (by cases l <;> decide)]
      cases l <;> decide
    · rw [List.filterMap_cons_none, List.filter_cons_of_neg (by simpa using hm), ih]
      show (if m &&& (1 <<< locIdx l) = 0 then none else some (nameByLoc (m &&& (1 <<< locIdx l)))) = none
      rw [hl, if_pos]
      have hn : ¬ inMask l m := hm
      rw [inMask_iff (locIdx_bit l)] at hn
      apply Nat.eq_of_testBit_eq
      intro j
      rw [Nat.testBit_and, locIdx_bit, Nat.testBit_two_pow, Nat.zero_testBit]
      by_cases hj : locIdx l = j
      · subst hj; simpa using hn
      · simp [hj]

theorem locName_text (l : DirLoc) : NameText l.name := by
  have : ∀ l ∈ DirLoc.all, ∃ c w, l.name = c :: w ∧ (∀ b ∈ l.name, (65 ≤ b ∧ b ≤ 90) ∨ b = 95) := by
    intro l _
    cases l <;> exact ⟨_, _, rfl, by decide⟩
  obtain ⟨b, w, e, h⟩ := this l (C22_names_bits l l).2.2.2
  have one : ∀ b, b < 96 → ((65 ≤ b ∧ b ≤ 90) ∨ b = 95) → nameStart (Char.ofNat b) = true ∧ nameCont (Char.ofNat b) = true ∧ (Char.ofNat b).toNat = b := by decide
  have all : ∀ w : Bytes, (∀ b ∈ w, (65 ≤ b ∧ b ≤ 90) ∨ b = 95) → w = utf8 (w.map Char.ofNat) ∧ ∀ d ∈ w.map Char.ofNat, nameCont d = true := by
    intro w
    induction w with
    | nil => intro _; exact ⟨rfl, by simp⟩
    | cons b w ih =>
      intro hw
      have hb := hw b (by simp)
      obtain ⟨o1, o2, o3⟩ := one b (by omega) hb
      obtain ⟨i1, i2⟩ := ih fun c hc => hw c (by simp [hc])
      refine ⟨?_, ?_⟩
      · rw [List.map_cons, utf8_cons, utf8Char_ascii _ (by omega), o3, ← i1]; rfl
      · intro d hd
        rw [List.map_cons] at hd
        rcases List.mem_cons.1 hd with rfl | hd
        · exact o2
        · exact i2 d hd
  obtain ⟨a1, a2⟩ := all l.name h
  rw [e] at a1 a2 h
  have hb := h b (by simp)
  exact ⟨Char.ofNat b, w.map Char.ofNat, by rw [e]; exact a1, (one b (by omega) hb).1, fun d hd => a2 d (by simp only [List.map_cons]; exact List.mem_cons_of_mem _ hd)⟩

/-- A directive definition. -/
theorem dirDefn_dump {desc : Bytes} {ts : Toks} {a : DirDef} {rest : Toks} (h : DirDefn pf true desc ts a rest) (hn : Names ts)
    (ho : ∀ v ∈ a.args, InputOk fmtG pf v) :
    ∃ x, J false true (write b!"directive @" +++ write a.name +++ dumpOptArgsDef fmtG a.args +++ write b!" on" +++ dumpDirectiveLocations a.locs) (nt b!"directive" :: x) ∧
      ∀ rest', Fresh rest' → DirDefn pf true desc (nt b!"directive" :: x ++ rest') a rest' := by
  cases h with
  | @mk _ _ n _ as _ _ _ ls _ h1 h2 h3 h4 h5 h6 h7 =>
    have hn2 := (hn.tok h1).tok h2
    obtain ⟨z, jz, oz, gz⟩ := argsDef_dump h4 (hn2.tok h3) ho
    have hne : locsOf (locMask ls) ≠ [] := by
      intro e
      cases ls with
      | nil => exact absurd rfl (sepBy_ne h7)
      | cons l ls =>
        have : l ∈ locsOf (locMask (l :: ls)) := mem_locsOf.2 ((C22_mask _ _).2 (by simp))
        rw [e] at this; cases this
    have hlen : (locNames (locMask ls)).length = (locsOf (locMask ls)).length := by rw [locNames_eq, List.length_map]
    have hsep : J true false (write (if (locsOf (locMask ls)).length < 3 then b!" | " else b!"\n " ++ b!" | ")) [pt b!"|"] := by
      split
      · exact J.sep '|' c!" " rfl (by decide) (by decide) (by decide) rfl
      · exact J.sep '|' c!"\n  " rfl (by decide) (by decide) (by decide) rfl
    obtain ⟨x, j, g⟩ := sepStart (R := LocName) (nm := DirLoc.name) hsep (by decide) (locsOf (locMask ls)) hne ((locsOf (locMask ls)).length < 3)
      fun l _ => ⟨locName_text l, fun rest _ => tok1_tk⟩
    have jd : J false false (write b!"directive @") [nt b!"directive", pt b!"@"] :=
      ((J.name (nameText_of (n := b!"directive") 'd' c!"irective")).seq (J.space.seq (J.punct '@'))).eqs rfl rfl
    have jo : J true true (write b!" on") [nt b!"on"] := (J.space.seq (J.name (nameText_of (n := b!"on") 'o' c!"n"))).eqs rfl rfl
    refine ⟨pt b!"@" :: nt n :: (z ++ nt b!"on" :: x), ?_, fun rest' hr => ?_⟩
    · have jl : J true true (dumpDirectiveLocations (locMask ls)) x := by
        unfold dumpDirectiveLocations
        dsimp only
        rw [hlen, locNames_eq]
        exact j
      exact (jd.seq ((J.name (hn2.nm h3)).seq (jz.seq (jo.seq jl)))).eqs rfl (by simp)
    · obtain ⟨r, g1, g2⟩ := g rest' (hr _ (by decide)) (hr _ (by decide))
      have := @DirDefn.mk pf true desc (nt b!"directive" :: pt b!"@" :: nt n :: (z ++ (nt b!"on" :: (x ++ rest')))) _ _ n (z ++ (nt b!"on" :: (x ++ rest'))) as
        (nt b!"on" :: (x ++ rest')) (x ++ rest') r (locsOf (locMask ls)) rest' tok1_tk tok1_tk tok1_tk (gz _ (notNext_tk (.inl (by decide)))) tok1_tk g1 g2
      rw [locMask_locsOf] at this
      simpa using this

end

end GQL
