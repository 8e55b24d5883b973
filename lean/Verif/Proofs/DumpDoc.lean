/-
Printed selections, operations and fragments are derived by the grammar.
-/
import Verif.Proofs.DumpVal

namespace GQL
open Spec

theorem seqOut_assoc (a b c : Out Bytes) : (a +++ b) +++ c = a +++ (b +++ c) := by
  cases a <;> cases b <;> cases c <;> simp [seqOut, Out.bind]

/-- `!` or not. -/
theorem bang_dump (b : Bool) : ∃ x, J true true (if b then write b!"!" else skipOut) x ∧ Opt b!"!" x ∧
    ∀ rest', NotNext1 .punctuator b!"!" rest' → Bang (x ++ rest') b rest' := by
  cases b with
  | true => exact ⟨_, (J.punct '!').weak, .inr ⟨_, tok1_tk⟩, fun _ _ => .inl ⟨rfl, tok1_tk⟩⟩
  | false => exact ⟨[], J.skip, .inl rfl, fun _ h => .inr ⟨rfl, h, rfl⟩⟩

/-- A type. -/
theorem type_dump : ∀ {ts rest : Toks} {t : Ty}, TypeRef true ts t rest → Names ts → TyOk t →
    ∃ x, J false true (dumpType t) x ∧ ∀ rest', NotNext1 .punctuator b!"!" rest' → TypeRef true (x ++ rest') t rest' := by
  intro ts rest t
  induction t generalizing ts rest with
  | named n b =>
    intro h hn _
    cases h with
    | named h1 h2 =>
      obtain ⟨x, j, -, g⟩ := bang_dump b
      exact ⟨[nt n] ++ x, (J.name (hn.nm h1)).seq j, fun rest' hr => .named tok1_tk (g _ hr)⟩
  | list t b ih =>
    intro h hn ho
    cases h with
    | list h1 h2 h3 h4 =>
      obtain ⟨x, j, -, g⟩ := bang_dump b
      obtain ⟨y, j2, g2⟩ := ih h2 (hn.tok h1) ho
      refine ⟨[pt b!"["] ++ (y ++ [pt b!"]"]) ++ x, ((J.punct '[').hard.seq (j2.seq (J.punct ']'))).seq j, fun rest' hr => ?_⟩
      refine .list (r1 := y ++ (pt b!"]" :: (x ++ rest'))) (r3 := x ++ rest') ⟨pt b!"[", ?_, rfl, rfl⟩ (g2 _ (notNext_tk (.inr (by decide)))) tok1_tk (g _ hr)
      simp
  | listNil b => intro _ _ ho; exact ho.elim

section
variable {pf : Bytes → Option Nat} {fmtG : Nat → Bytes}

/-! ### Variables -/

theorem varDefn_dump {ts : Toks} {v : VarDef} {rest : Toks} (h : VarDefn pf true ts v rest) (hn : Names ts) (ho : VarOk fmtG pf v) :
    ∃ x, J false true (dumpVariableDefinition fmtG 0 v) x ∧ (∀ r, Fresh (x ++ r)) ∧ ∀ rest', Fresh rest' → VarDefn pf true (x ++ rest') v rest' := by
  cases h with
  | mk h1 h2 h3 h4 h5 =>
    have hn3 := ((hn.tok h1).tok h2).tok h3
    obtain ⟨x, j, g⟩ := type_dump h4 hn3 ho.1
    obtain ⟨y, j2, o2, g2⟩ := default_dump h5 (hn3.go1 (typeRef_eats h4)) ho.2
    refine ⟨[pt b!"$"] ++ ([nt _] ++ ([pt b!":"] ++ (x ++ y))), (J.punct '$').hard.seq ((J.name ((hn.tok h1).nm h2)).seq (J.colon.seq (j.seq j2))),
      fun _ => fresh_pt, fun rest' hr => ?_⟩
    refine .mk (r3 := (x ++ y) ++ rest') tok1_tk tok1_tk tok1_tk ?_ (g2 _ (hr _ (by decide)))
    rw [List.append_assoc]
    exact g _ (o2.notNext (.inr (by decide)) (hr _ (by decide)))

theorem varDefns_dump {ts : Toks} {vs : List VarDef} {rest : Toks} (h : VarDefns pf true ts vs rest) (hn : Names ts) (ho : ∀ v ∈ vs, VarOk fmtG pf v) :
    ∃ x, J true true (if vs ≠ [] then dumpVariableDefinitions fmtG 0 vs else skipOut) x ∧ Opt b!"(" x ∧
      ∀ rest', NotNext1 .punctuator b!"(" rest' → VarDefns pf true (x ++ rest') vs rest' := by
  cases h with
  | none _ => exact ⟨[], J.skip, .inl rfl, fun _ h => .none h⟩
  | some h1 h2 h3 h4 =>
    rw [if_pos h3]
    have mem := many_mem (fun _ _ _ h => (varDefn_eats h).1) h2 (hn.tok h1)
    obtain ⟨x, j, -, m⟩ := many_after (R := VarDefn pf true) (Q := Fresh) (f := dumpVariableDefinition fmtG 0) J.comma vs.length vs 0 (by simp) fun a ha => by
      obtain ⟨ts', r, hn', ha'⟩ := mem a ha
      exact varDefn_dump ha' hn' (ho a ha)
    refine ⟨[pt b!"("] ++ (x ++ [pt b!")"]), ((J.punct '(').seq (j.seq (J.punct ')'))).weak, .inr ⟨_, tok1_tk⟩, fun rest' _ => ?_⟩
    refine .some (r1 := (x ++ [pt b!")"]) ++ rest') (r2 := pt b!")" :: rest') tok1_tk ?_ h3 tok1_tk
    rw [List.append_assoc]; exact m _ fresh_pt

/-! ### Selections -/

theorem fieldName_dump {ts : Toks} {a n : Bytes} {rest : Toks} (h : FieldName ts (a, n) rest) (hn : Names ts) :
    ∃ l x, J false true ((if a ≠ [] then write a +++ write b!": " else skipOut) +++ write n) (nt l :: x) ∧
      ∀ rest', NotNext1 .punctuator b!":" rest' → FieldName (nt l :: x ++ rest') (a, n) rest' := by
  cases h with
  | plain h1 _ => exact ⟨n, [], (J.skip'.seq (J.name (hn.nm h1))).eqs rfl rfl, fun _ h => .plain tok1_tk h⟩
  | alias h1 h2 h3 =>
    have ha : a ≠ [] := by
      obtain ⟨c, w, e, -⟩ := hn.nm h1
      rw [e, utf8_cons]
      intro e
      exact absurd (List.append_eq_nil_iff.1 e).1 (utf8Char_ne_nil c)
    rw [if_pos ha]
    exact ⟨a, [pt b!":", nt n], (((J.name (hn.nm h1)).seq J.colon).seq (J.name (((hn.tok h1).tok h2).nm h3))).eqs rfl rfl, fun _ _ => .alias tok1_tk tok1_tk tok1_tk⟩

theorem namedType_name {ts : Toks} {n : Bytes} {b : Bool} {rest : Toks} (h : NamedType true ts (.named n b) rest) (hn : Names ts) : NameText n := by
  cases h with
  | mk h1 _ _ => exact hn.nm h1

theorem dumpField_leaf (d : Nat) (a n : Bytes) (args : List Argument) (dirs : List Directive) : dumpSelection fmtG d (.field a n args dirs []) =
    write (indentOf (d + 1)) +++ ((if a ≠ [] then write a +++ write b!": " else skipOut) +++ write n) +++
      dumpArguments fmtG (d + 1) args +++ dumpOptDirectives fmtG (d + 1) dirs +++ skipOut := by
  rw [dumpSelection, seqOut_assoc]; rfl

theorem dumpField_node (d : Nat) (a n : Bytes) (args : List Argument) (dirs : List Directive) {sels : List Selection} (h : sels ≠ []) : dumpSelection fmtG d (.field a n args dirs sels) =
    write (indentOf (d + 1)) +++ ((if a ≠ [] then write a +++ write b!": " else skipOut) +++ write n) +++
      dumpArguments fmtG (d + 1) args +++ dumpOptDirectives fmtG (d + 1) dirs +++ (write b!" " +++ dumpSelections fmtG (d + 1) sels) := by
  rw [dumpSelection, seqOut_assoc]
  cases sels with
  | nil => exact absurd rfl h
  | cons s ss => rfl

/-- `{` and the line end after it. -/
theorem J.brace : J true false (write b!"{\n") [pt b!"{"] := ((J.punct '{').seq J.newline).eqs rfl rfl

mutual
theorem sel_dump {ts : Toks} {s : Selection} {rest : Toks} (d : Nat) : Sel pf true ts s rest → Names ts → SelOk fmtG pf s →
    ∃ x, J false true (dumpSelection fmtG d s) x ∧ (∀ r, Fresh (x ++ r)) ∧ ∀ rest', Fresh rest' → Sel pf true (x ++ rest') s rest'
  | .leaf h1 h2 h3 h4, hn, ho => by
    obtain ⟨l, x, j, g⟩ := fieldName_dump h1 hn
    have hn1 := hn.go1 (fieldName_eats h1)
    obtain ⟨y, j2, o2, g2⟩ := args_dump (d + 1) h2 hn1 ho.1
    obtain ⟨z, j3, o3, g3⟩ := dirs_dump (d + 1) h3 (hn1.go (args_eats h2)) ho.2.1
    refine ⟨nt l :: x ++ (y ++ z), ?_, fun _ => fresh_kind (by decide), fun rest' hr => ?_⟩
    · rw [dumpField_leaf]
      exact ((J.indent _).seq (j.seq (j2.seq (j3.seq J.skip)))).eqs rfl (by simp)
    · have n1 : NotNext1 .punctuator b!"(" (z ++ rest') := o3.notNext (.inr (by decide)) (hr _ (by decide))
      have n2 : NotNext1 .punctuator b!":" (y ++ (z ++ rest')) := o2.notNext (.inr (by decide)) (o3.notNext (.inr (by decide)) (hr _ (by decide)))
      rw [List.append_assoc, List.append_assoc]
      exact .leaf (g _ n2) (g2 _ n1) (g3 _ (hr _ (by decide)) (hr _ (by decide))) (hr _ (by decide))
  | .node h1 h2 h3 h4, hn, ho => by
    obtain ⟨l, x, j, g⟩ := fieldName_dump h1 hn
    have hn1 := hn.go1 (fieldName_eats h1)
    obtain ⟨y, j2, o2, g2⟩ := args_dump (d + 1) h2 hn1 ho.1
    have hn2 := hn1.go (args_eats h2)
    obtain ⟨z, j3, o3, g3⟩ := dirs_dump (d + 1) h3 hn2 ho.2.1
    obtain ⟨w, j4, he, g4⟩ := selSet_dump (d + 1) h4 (hn2.go (dirs_eats h3)) ho.2.2
    refine ⟨nt l :: x ++ (y ++ (z ++ pt b!"{" :: w)), ?_, fun _ => fresh_kind (by decide), fun rest' hr => ?_⟩
    · rw [dumpField_node _ _ _ _ _ he]
      exact ((J.indent _).seq (j.seq (j2.seq (j3.seq (J.space.seq j4))))).weak.eqs rfl (by simp)
    · have nb : ∀ l, l ≠ b!"{" → NotNext1 .punctuator l (pt b!"{" :: w ++ rest') := fun l hl => notNext_tk (.inr (Ne.symm hl))
      have n1 : NotNext1 .punctuator b!"(" (z ++ (pt b!"{" :: w ++ rest')) := o3.notNext (.inr (by decide)) (nb _ (by decide))
      have n2 : NotNext1 .punctuator b!":" (y ++ (z ++ (pt b!"{" :: w ++ rest'))) := o2.notNext (.inr (by decide)) (o3.notNext (.inr (by decide)) (nb _ (by decide)))
      rw [List.append_assoc, List.append_assoc, List.append_assoc]
      exact .node (g _ n2) (g2 _ n1) (g3 _ (nb _ (by decide)) (nb _ (by decide))) (g4 _)
  | .spread (n := n) h1 h2 h3 h4, hn, ho => by
    have hn2 := (hn.tok h1).tok h2
    obtain ⟨z, j3, o3, g3⟩ := dirs_dump (d + 1) h4 hn2 ho
    refine ⟨[pt b!"..."] ++ ([nt n] ++ z), ?_, fun _ => fresh_pt, fun rest' hr => ?_⟩
    · rw [dumpSelection]
      exact ((J.indent _).seq (J.dots.seq ((J.name ((hn.tok h1).nm h2)).seq j3))).eqs rfl (by simp)
    · exact .spread tok1_tk tok1_tk h3 (g3 _ (hr _ (by decide)) (hr _ (by decide)))
  | .inline (c := c) h1 h2 h3 h4, hn, ho => by
    have hn1 := hn.tok h1
    have hn2 := hn1.go (optCond_eats h2)
    obtain ⟨z, j3, o3, g3⟩ := dirs_dump (d + 1) h3 hn2 ho.2.1
    obtain ⟨w, j4, he, g4⟩ := selSet_dump (d + 1) h4 (hn2.go (dirs_eats h3)) ho.2.2
    have nb : ∀ rest' l, l ≠ b!"{" → NotNext1 .punctuator l (pt b!"{" :: w ++ rest') := fun rest' l hl => notNext_tk (.inr (Ne.symm hl))
    cases h2 with
    | none _ =>
      refine ⟨[pt b!"..."] ++ (z ++ pt b!"{" :: w), ?_, fun _ => fresh_pt, fun rest' hr => ?_⟩
      · rw [dumpSelection]
        exact ((J.indent _).seq (J.dots.seq (J.skip.hard.seq (j3.seq (J.space.seq j4))))).weak.eqs rfl (by simp)
      · refine .inline (r1 := z ++ (pt b!"{" :: w ++ rest')) (r3 := pt b!"{" :: w ++ rest') ⟨pt b!"...", by simp, rfl, rfl⟩ (.none ?_) (g3 _ (nb _ _ (by decide)) (nb _ _ (by decide))) (g4 _)
        exact o3.notNext (.inl (by decide)) (notNext_tk (.inl (by decide)))
    | some h2 =>
      obtain ⟨n, rfl⟩ := ho.1 _ rfl
      cases h2 with
      | mk h5 h6 =>
        have hnm := namedType_name h6 (hn1.tok h5)
        refine ⟨[pt b!"..."] ++ (nt b!"on" :: nt n :: (z ++ pt b!"{" :: w)), ?_, fun _ => fresh_pt, fun rest' hr => ?_⟩
        · rw [dumpSelection]
          have jc := J.space.seq ((J.name (nameText_of (n := b!"on") 'o' c!"n")).seq (J.space.seq (J.name hnm)))
          exact ((J.indent _).seq (J.dots.seq (jc.hard.seq (j3.seq (J.space.seq j4))))).weak.eqs rfl (by simp)
        · refine .inline (r1 := nt b!"on" :: nt n :: (z ++ (pt b!"{" :: w ++ rest'))) (r2 := z ++ (pt b!"{" :: w ++ rest')) (r3 := pt b!"{" :: w ++ rest')
            ⟨pt b!"...", by simp, rfl, rfl⟩ (.some (.mk tok1_tk (.mk tok1_tk (.inr ⟨rfl, ?_, rfl⟩) (.inl rfl)))) (g3 _ (nb _ _ (by decide)) (nb _ _ (by decide))) (g4 _)
          exact o3.notNext (.inr (by decide)) (nb _ _ (by decide))
theorem sels_dump {ts : Toks} {ss : List Selection} {rest : Toks} (d : Nat) : Sels pf true ts ss rest → Names ts → SelsOk fmtG pf ss →
    ∃ x, J false false (dumpSelectionList fmtG d ss) x ∧ (∀ r, Fresh (x ++ r)) ∧ ∀ rest', Fresh rest' → Sels pf true (x ++ rest') ss rest'
  | .one h1, hn, ho => by
    obtain ⟨x, j, q, g⟩ := sel_dump d h1 hn ho.1
    refine ⟨x, ?_, q, fun rest' hr => .one (g _ hr)⟩
    rw [dumpSelectionList, dumpSelectionList]
    exact (j.seq (J.newline.seq J.skip')).eqs rfl (by simp)
  | .cons h1 h2, hn, ho => by
    obtain ⟨x, j, q, g⟩ := sel_dump d h1 hn ho.1
    obtain ⟨y, j2, q2, g2⟩ := sels_dump d h2 (hn.go1 (sel_eats h1)) ho.2
    refine ⟨x ++ y, ?_, fun r => by rw [List.append_assoc]; exact q _, fun rest' hr => .cons (r := y ++ rest') ?_ (g2 _ hr)⟩
    · rw [dumpSelectionList]
      exact (j.seq (J.newline.seq j2)).eqs rfl (by simp)
    · rw [List.append_assoc]; exact g _ (q2 _)
theorem selSet_dump {ts : Toks} {ss : List Selection} {rest : Toks} (d : Nat) : SelSet pf true ts ss rest → Names ts → SelsOk fmtG pf ss →
    ∃ x, J true false (dumpSelections fmtG d ss) (pt b!"{" :: x) ∧ ss ≠ [] ∧ ∀ rest', SelSet pf true (pt b!"{" :: x ++ rest') ss rest'
  | .mk h1 h2 h3, hn, ho => by
    obtain ⟨x, j, q, g⟩ := sels_dump d h2 (hn.tok h1) ho
    refine ⟨x ++ [pt b!"}"], ?_, ?_, fun rest' => ?_⟩
    · exact (J.brace.seq (j.seq ((J.indent d).seq (J.punct '}').hard))).eqs rfl (by simp)
    · cases h2 <;> simp
    · refine .mk (r1 := x ++ (pt b!"}" :: rest')) ⟨pt b!"{", by simp, rfl, rfl⟩ (g _ fresh_pt) tok1_tk
end

/-! ### Operations and fragments -/

/-- What an operation consists of. -/
theorem opDefn_parts {ts : Toks} {o : OpDef} {rest : Toks} (h : OpDefn pf true ts o rest) (hn : Names ts) :
    (o.name = [] ∨ NameText o.name) ∧ (∃ t r, Names t ∧ VarDefns pf true t o.vars r) ∧ (∃ t r, Names t ∧ Dirs pf true false (opLoc o.kind) t o.dirs r) ∧
      ∃ t r, Names t ∧ SelSet pf true t o.sels r := by
  have no : ∀ {k l}, NotNext1 k l [] := by rintro k l r ⟨t, e, -⟩; cases e
  cases h with
  | shorthand h1 => exact ⟨.inl rfl, ⟨[], [], by simp [Names], .none no⟩, ⟨[], [], by simp [Names], .nil _, no⟩, ⟨_, _, hn, h1⟩⟩
  | full h1 h2 h3 h4 h5 =>
    have hn1 := hn.go1 (opType_eats h1)
    have hn2 := hn1.go (optTok_eats h2 (by decide) (by decide))
    have hn3 := hn2.go (varDefns_eats h3)
    refine ⟨?_, ⟨_, _, hn2, h3⟩, ⟨_, _, hn3, h4⟩, ⟨_, _, hn3.go (dirs_eats h4), h5⟩⟩
    rcases h2 with h | h
    · exact .inr (hn1.nm h)
    · exact .inl h.1

/-- The keyword of an operation. -/
theorem opType_dump (k : OpKind) : J false true (write k.str) [nt k.str] ∧ J false false (write (k.str ++ b!" ")) [nt k.str] ∧ ∀ r, OpType (nt k.str :: r) k r := by
  have key : ∀ n : Bytes, NameText n → J false true (write n) [nt n] ∧ J false false (write (n ++ b!" ")) [nt n] := fun n h =>
    ⟨J.name h, ((J.name h).seq J.space).eqs rfl rfl⟩
  cases k
  · exact ⟨(key _ (nameText_of (n := b!"query") 'q' c!"uery")).1, (key _ (nameText_of (n := b!"query") 'q' c!"uery")).2, fun r => .query tok1_tk⟩
  · exact ⟨(key _ (nameText_of (n := b!"mutation") 'm' c!"utation")).1, (key _ (nameText_of (n := b!"mutation") 'm' c!"utation")).2, fun r => .mutation tok1_tk⟩
  · exact ⟨(key _ (nameText_of (n := b!"subscription") 's' c!"ubscription")).1, (key _ (nameText_of (n := b!"subscription") 's' c!"ubscription")).2, fun r => .subscription tok1_tk⟩

theorem nameText_ne {n : Bytes} (h : NameText n) : n ≠ [] := by
  obtain ⟨c, w, e, -⟩ := h
  rw [e, utf8_cons]
  intro e
  exact absurd (List.append_eq_nil_iff.1 e).1 (utf8Char_ne_nil c)

/-- What may follow a definition. -/
def NewDefn (rest : Toks) : Prop := Fresh rest ∧ NotNext1 .name b!"implements" rest

theorem op_keyword {k : OpKind} {n : Nat} {name : Bytes} {vars : List VarDef} {dirs : List Directive} {sels : List Selection} (hs : ¬ (n = 1 ∧ k = .query ∧ name = [])) :
    dumpOperationDefinition fmtG n ⟨k, name, vars, dirs, sels⟩ = write (k.str ++ b!" ") +++ (if name ≠ [] then write name else skipOut) +++
      (if vars ≠ [] then dumpVariableDefinitions fmtG 0 vars else skipOut) +++ dumpOptDirectives fmtG 0 dirs +++ (if !(n == 1) then write b!" " else skipOut) +++
      dumpSelections fmtG 0 sels := by
  refine congrArg (· +++ _) ?_
  cases k with
  | query =>
    refine if_pos ?_
    by_cases h1 : n = 1
    · by_cases h2 : name = []
      · exact absurd ⟨h1, rfl, h2⟩ hs
      · simp [h2]
    · simp [h1]
  | mutation => rfl
  | subscription => rfl

/-- An operation. -/
theorem opDefn_dump (n : Nat) {ts : Toks} {o : OpDef} {rest : Toks} (h : OpDefn pf true ts o rest) (hn : Names ts) (ho : OpOk fmtG pf o)
    (hb : n = 1 → o.kind = .query → o.name = [] → o.vars = [] ∧ o.dirs = []) :
    ∃ x, J false false (dumpOperationDefinition fmtG n o) x ∧ (n ≠ 1 → ∀ r, NewDefn (x ++ r)) ∧ ∀ rest', OpDefn pf true (x ++ rest') o rest' := by
  obtain ⟨hname, ⟨t1, r1, hn1, h1⟩, ⟨t2, r2, hn2, h2⟩, ⟨t3, r3, hn3, h3⟩⟩ := opDefn_parts h hn
  obtain ⟨k, name, vars, dirs, sels⟩ := o
  dsimp only at hname h1 h2 h3 hb
  obtain ⟨y, j1, o1, g1⟩ := varDefns_dump h1 hn1 ho.1
  obtain ⟨z, j2, o2, g2⟩ := dirs_dump 0 h2 hn2 ho.2.1
  obtain ⟨w, j3, -, g3⟩ := selSet_dump 0 h3 hn3 ho.2.2
  by_cases hs : n = 1 ∧ k = .query ∧ name = []
  · obtain ⟨rfl, rfl, rfl⟩ := hs
    obtain ⟨rfl, rfl⟩ := hb rfl rfl rfl
    refine ⟨pt b!"{" :: w, ?_, fun h => absurd rfl h, fun rest' => .shorthand (g3 _)⟩
    exact (J.skip'.seq (J.skip'.seq (J.skip'.seq (J.skip'.seq (J.skip'.seq j3.hard))))).eqs rfl rfl
  · obtain ⟨-, jk, gk⟩ := opType_dump k
    obtain ⟨u, ju, gu⟩ : ∃ u, J false true (if name ≠ [] then write name else skipOut) u ∧ ∀ r, NotKind .name r → OptTok .name (u ++ r) name r := by
      rcases hname with h | h
      · subst h
        exact ⟨[], J.skip'.weak, fun r hr => .inr ⟨rfl, hr, rfl⟩⟩
      · rw [if_pos (nameText_ne h)]
        exact ⟨[nt name], J.name h, fun r _ => .inl tok1_tk⟩
    obtain ⟨jb⟩ : Nonempty (J true true (if !(n == 1) then write b!" " else skipOut) []) := by
      split
      · exact ⟨J.space.weak⟩
      · exact ⟨J.skip⟩
    refine ⟨nt k.str :: (u ++ (y ++ (z ++ pt b!"{" :: w))), ?_, fun _ r => ⟨fresh_kind (by decide), notNext_tk (.inr (by cases k <;> decide))⟩, fun rest' => ?_⟩
    · rw [op_keyword hs]
      exact (jk.seq (ju.seq (j1.seq (j2.seq (jb.seq j3))))).eqs rfl (by simp)
    · have nb : ∀ k l, k ≠ .punctuator ∨ l ≠ b!"{" → NotNext1 k l (pt b!"{" :: w ++ rest') := fun k l hl => notNext_tk (by
        rcases hl with h | h
        · exact .inl (Ne.symm h)
        · exact .inr (Ne.symm h))
      refine .full (r1 := u ++ (y ++ (z ++ (pt b!"{" :: w ++ rest')))) (r4 := pt b!"{" :: w ++ rest') ?_ (gu _ ?_) (g1 _ ?_) (g2 _ (nb _ _ (.inr (by decide))) (nb _ _ (.inr (by decide)))) (g3 _)
      · have := gk (u ++ (y ++ (z ++ (pt b!"{" :: w ++ rest'))))
        simpa using this
      · exact o1.notKind (by decide) (o2.notKind (by decide) (notKind_tk (by decide)))
      · exact o2.notNext (.inr (by decide)) (nb _ _ (.inr (by decide)))

/-- A fragment definition. -/
theorem fragDefn_dump {ts : Toks} {f : FragDef} {rest : Toks} (h : FragDefn pf true ts f rest) (hn : Names ts) (ho : FragOk fmtG pf f) :
    ∃ x, J false false (dumpFragmentDefinition fmtG f) x ∧ (∀ r, NewDefn (x ++ r)) ∧ ∀ rest', FragDefn pf true (x ++ rest') f rest' := by
  cases h with
  | @mk _ n _ c _ ds _ sels _ h1 h2 h3 h4 h5 h6 =>
    obtain ⟨cn, rfl⟩ : Plain1 c := ho.1
    have hn2 := (hn.tok h1).tok h2
    have hn3 := hn2.go1 (typeCond_eats h4)
    obtain ⟨z, j2, o2, g2⟩ := dirs_dump 0 h5 hn3 ho.2.1
    obtain ⟨w, j3, -, g3⟩ := selSet_dump 0 h6 (hn3.go (dirs_eats h5)) ho.2.2
    cases h4 with
    | mk h7 h8 =>
      have hnm := namedType_name h8 (hn2.tok h7)
      have nb : ∀ rest' l, l ≠ b!"{" → NotNext1 .punctuator l (pt b!"{" :: w ++ rest') := fun rest' l hl => notNext_tk (.inr (Ne.symm hl))
      refine ⟨nt b!"fragment" :: nt n :: nt b!"on" :: nt cn :: (z ++ pt b!"{" :: w), ?_, fun r => ⟨fresh_kind (by decide), notNext_tk (.inr (by decide))⟩, fun rest' => ?_⟩
      · have jf := J.name (nameText_of (n := b!"fragment") 'f' c!"ragment")
        have jo := J.name (nameText_of (n := b!"on") 'o' c!"n")
        exact (jf.seq (J.space.seq ((J.name ((hn.tok h1).nm h2)).seq (J.space.seq (jo.seq (J.space.seq ((J.name hnm).seq (j2.seq (J.space.seq j3))))))))).eqs rfl (by simp)
      · refine .mk (r3 := z ++ (pt b!"{" :: w ++ rest')) (r4 := pt b!"{" :: w ++ rest') tok1_tk tok1_tk h3 (.mk tok1_tk (.mk (r := z ++ (pt b!"{" :: w ++ rest')) ⟨nt cn, by simp, rfl, rfl⟩ (.inr ⟨rfl, ?_, rfl⟩) (.inl rfl)))
          (g2 _ (nb _ _ (by decide)) (nb _ _ (by decide))) (g3 _)
        exact o2.notNext (.inr (by decide)) (nb _ _ (by decide))

end

end GQL
