/-
C33 and C34: unused variables and recursively referenced fragments.
-/
import Verif.Props.C30

namespace GQL
open Classical

/-- The variable occurs in definition number `i` or in one of the type-system definitions that directly follow it. -/
def Spec.UsesAround (doc : Document) (i : Nat) (x : Bytes) : Prop :=
  ∃ d0 rest d, doc.defs.drop i = d0 :: rest ∧ (d ∈ d0 :: rest.takeWhile fun x => !x.isExecutable) ∧ UsesVar d x

/-- What the rule takes as a use of a variable in definition number `i`. -/
def Spec.UsedAt (doc : Document) (i : Nat) (x : Bytes) : Prop :=
  UsesAround doc i x ∨ ∃ j d d', doc.defs[i]? = some d ∧ doc.defs[j]? = some d' ∧ Reaches doc d d' ∧ UsesAround doc j x

theorem drop_head {α : Type} {l : List α} {i : Nat} {a : α} (h : l[i]? = some a) : ∃ rest, l.drop i = a :: rest := by
  obtain ⟨hl, e⟩ := List.getElem?_eq_some_iff.1 h
  exact ⟨l.drop (i + 1), by rw [List.drop_eq_getElem_cons hl, e]⟩

theorem drop_get {α : Type} {l : List α} {i : Nat} {a : α} {rest : List α} (h : l.drop i = a :: rest) : l[i]? = some a := by
  have := List.head?_drop (l := l) (i := i)
  rw [h] at this; exact this.symm

section
variable (doc : Document) (schema : Option Schema)

theorem usages_around {i : Nat} {d : Definition} (hd : doc.defs[i]? = some d) (he : d.isExecutable = true) (x : Bytes) :
    x ∈ (queryCtx doc schema).variableUsages (some i) ↔ Spec.UsesAround doc i x := by
  rw [queryCtx_usages]
  constructor
  · rintro ⟨d0, rest, d', h1, _, h2, h3⟩; exact ⟨d0, rest, d', h1, h2, h3⟩
  · rintro ⟨d0, rest, d', h1, h2, h3⟩
    have := (drop_get h1).symm.trans hd
    cases this
    exact ⟨d, rest, d', h1, he, h2, h3⟩

theorem reaches_fragment {d d' : Definition} (h : Spec.Reaches doc d d') : d'.isExecutable = true := by
  have key : ∀ {a b}, Spec.SpreadsTo doc a b → b.isExecutable = true := by
    rintro a ⟨loc, b⟩ ⟨_, _, _, f, hf, _⟩
    cases hf; rfl
  induction h with
  | one h => exact key h
  | more _ _ ih => exact ih

theorem uses_at {i : Nat} {d : Definition} (hd : doc.defs[i]? = some d) (he : d.isExecutable = true) (x : Bytes) :
    x ∈ usesOf (queryCtx doc schema) i ↔ Spec.UsedAt doc i x := by
  obtain ⟨u, hu, hx⟩ := recursiveVariableUsages_spec (queryCtx doc schema) (N := doc.defs.length) (fun d => queryCtx_bound doc schema d)
    (fuel := (queryCtx doc schema).depthBound) (by rw [Ctx.depthBound, queryCtx_doc]; omega) (some i)
  unfold usesOf
  rw [hu]
  rw [hx, usages_around doc schema hd he]
  refine or_congr_right ⟨?_, ?_⟩
  · rintro ⟨j, hj, hm⟩
    obtain ⟨d', h1, h2⟩ := (reachable_spec doc schema hd).1 hj
    exact ⟨j, d, d', hd, h1, h2, (usages_around doc schema h1 (reaches_fragment doc h2) x).1 hm⟩
  · rintro ⟨j, d1, d', h0, h1, h2, h3⟩
    cases h0.symm.trans hd
    exact ⟨j, (reachable_spec doc schema hd).2 ⟨d', h1, h2⟩, (usages_around doc schema h1 (reaches_fragment doc h2) x).2 h3⟩

/-- **C33, exactly**: for every document a variable of an operation is reported unless it is used around the operation or around a fragment that the
operation reaches, "around" meaning in it or in a type-system definition that directly follows it.  `Validate` terminates, also when fragments
spread each other in a cycle. -/
theorem C33_exact : QueryErrors .noUnusedVariables doc schema
    (doc.defs.zipIdx.flatMap fun p => match p.1.body with
      | .op o => (o.vars.filter fun v => ¬ Spec.UsedAt doc p.2 v.name).map fun v => unusedVariableError v.name o.name
      | _ => []) := by
  obtain ⟨c, h1, h2⟩ := validate_one doc schema .noUnusedVariables rfl
  refine ⟨c, h1, h2.trans ?_⟩
  unfold Rule.errsAll
  rw [if_neg (by intro h; cases h), events_leaves _ (fun _ => rfl)]
  refine ((leaves_trace _).flatMap_right _).trans (.of_eq ?_)
  rw [nodes_flatMap_top _ _ (fun n hn => by cases n <;> first | rfl | (simp only [ANode.kind] at hn; exact absurd hn (by decide))) (fun _ => rfl)
    (fun _ => rfl), List.flatMap_def, List.flatMap_def]
  congr 1
  refine List.map_congr_left fun p hp => ?_
  obtain ⟨⟨loc, b⟩, i⟩ := p
  have hd := List.mk_mem_zipIdx_iff_getElem?.1 hp
  cases b with
  | op o =>
    have key : ∀ v ∈ o.vars, (!(usesOf (queryCtx doc schema) i).contains v.name) = decide (¬ Spec.UsedAt doc i v.name) := by
      intro v _
      rw [Bool.eq_iff_iff]
      simp only [Bool.not_eq_true', List.contains_eq_mem, decide_eq_false_iff_not, decide_eq_true_eq,
        uses_at doc schema hd (d := ⟨loc, .op o⟩) rfl]
    have e : ((o.vars.filter fun v => !(usesOf (queryCtx doc schema) i).contains v.name)) = o.vars.filter fun v => ¬ Spec.UsedAt doc i v.name :=
      List.filter_congr key
    obtain ⟨k, n, vs, ds, ss⟩ := o
    cases k <;> simp only [topNodes, opKindNode, Rule.errs, unusedErrs, List.flatMap_cons, List.flatMap_nil, List.nil_append, List.append_nil] <;> exact congrArg _ e
  | type t => obtain ⟨_, _, k, _, _, _, _, _, _⟩ := t; cases k <;> rfl
  | typeExt t => obtain ⟨_, _, k, _, _, _, _, _, _⟩ := t; cases k <;> rfl
  | _ => rfl

/-- No type-system definition of the document has a variable in it (for instance, because there is none). -/
def NoStrayVariables : Prop := ∀ d ∈ doc.defs, d.isExecutable = false → ∀ x, ¬ Spec.UsesVar d x

theorem takeWhile_sub {α : Type} {p : α → Bool} {l : List α} {a : α} (h : a ∈ l.takeWhile p) : a ∈ l ∧ p a = true := by
  induction l with
  | nil => cases h
  | cons b l ih =>
    rw [List.takeWhile_cons] at h
    split at h
    · rename_i hb
      rcases List.mem_cons.1 h with rfl | h
      · exact ⟨by simp, hb⟩
      · exact ⟨by simp [(ih h).1], (ih h).2⟩
    · cases h

theorem around_iff (h : NoStrayVariables doc) {i : Nat} {d : Definition} (hd : doc.defs[i]? = some d) (x : Bytes) :
    Spec.UsesAround doc i x ↔ Spec.UsesVar d x := by
  constructor
  · rintro ⟨d0, rest, d', h1, h2, h3⟩
    cases (drop_get h1).symm.trans hd
    rcases List.mem_cons.1 h2 with rfl | h2
    · exact h3
    · obtain ⟨hm, he⟩ := takeWhile_sub h2
      have : d' ∈ doc.defs.drop i := by rw [h1]; simp [hm]
      exact absurd h3 (h d' (List.mem_of_mem_drop this) (by simpa using he) x)
  · intro hx
    obtain ⟨rest, hr⟩ := drop_head hd
    exact ⟨d, rest, d, hr, by simp, hx⟩

theorem usedAt_iff (h : NoStrayVariables doc) {i : Nat} {d : Definition} (hd : doc.defs[i]? = some d) (x : Bytes) :
    Spec.UsedAt doc i x ↔ Spec.Used doc d x := by
  unfold Spec.UsedAt Spec.Used
  rw [around_iff doc h hd]
  refine or_congr_right ⟨?_, ?_⟩
  · rintro ⟨j, d1, d', h0, h1, h2, h3⟩
    cases h0.symm.trans hd
    exact ⟨d', h2, (around_iff doc h h1 x).1 h3⟩
  · rintro ⟨d', h2, h3⟩
    have : d' ∈ doc.defs := by
      clear hd h3
      induction h2 with
      | one h => exact h.1
      | more _ _ ih => exact ih
    obtain ⟨j, hj⟩ := List.getElem?_of_mem this
    exact ⟨j, d, d', hd, hj, h2, (around_iff doc h hj x).2 h3⟩

/-- **C33 for documents without variables in type-system definitions**: a variable of an operation is reported exactly if neither the operation
nor a fragment reachable from it through spreads uses it. -/
theorem C33_partial (h : NoStrayVariables doc) : QueryErrors .noUnusedVariables doc schema (Spec.unusedVariableErrors doc) := by
  obtain ⟨c, h1, h2⟩ := C33_exact doc schema
  refine ⟨c, h1, h2.trans (.of_eq ?_)⟩
  unfold Spec.unusedVariableErrors
  rw [← zipIdx_flatMap _ doc.defs 0, List.flatMap_def, List.flatMap_def]
  congr 1
  refine List.map_congr_left fun p hp => ?_
  obtain ⟨⟨loc, b⟩, i⟩ := p
  have hd := List.mk_mem_zipIdx_iff_getElem?.1 hp
  cases b <;> try rfl
  rename_i o
  dsimp only
  rw [says_unusedVariable]
  congr 1
  refine List.filter_congr fun v _ => ?_
  simp only [usedAt_iff doc h hd]

/-- **C34**: for every definition of every document `RecursivelyReferencedFragments` returns, and what it returns are the fragments reachable by
one or more spreads.  (Definition number `i` stands for the pointer to it.) -/
theorem C34_query {i : Nat} {d : Definition} (hd : doc.defs[i]? = some d) :
    ∃ (c : Ctx) (l : List Nat), newContext doc schema = .ret c ∧ c.recursivelyReferencedFragments c.depthBound (some i) = .ret l ∧
      ∀ j, j ∈ l ↔ ∃ d', doc.defs[j]? = some d' ∧ Spec.Reaches doc d d' := by
  obtain ⟨u, hu, hx⟩ := recursivelyReferencedFragments_spec (queryCtx doc schema) (N := doc.defs.length) (fun d => queryCtx_bound doc schema d)
    (fuel := (queryCtx doc schema).depthBound) (by rw [Ctx.depthBound, queryCtx_doc]; omega) (some i)
  exact ⟨_, u, newContext_ret doc schema, hu, fun j => (hx j).trans (reachable_spec doc schema hd)⟩

end

/-- The errors of the outcome. -/
def Out.errors? : Out Ctx → Option (List GErr)
  | .ret c => some c.errors
  | _ => none

theorem no_kind {d : Definition} {k : NodeKind} (h : ((Spec.defNodes d).any fun n => n.kind == k) = false) {n : ANode} (hn : n ∈ Spec.defNodes d) :
    n.kind ≠ k := by
  intro e
  rw [List.any_eq_false] at h
  exact h n hn (by simp [e])

theorem no_spread {doc : Document} {d d' : Definition} (h : ((Spec.defNodes d).any fun n => n.kind == .fragmentSpreadSelection) = false) :
    ¬ Spec.Reaches doc d d' := by
  have : ∀ d', ¬ Spec.SpreadsTo doc d d' := by
    rintro d' ⟨_, name, ⟨ds, hs⟩, _⟩
    exact no_kind h hs rfl
  intro hr
  cases hr with
  | one h => exact this _ h
  | more h _ => exact this _ h

/-- C33 as stated fails: in this document `$v` is used neither in the operation nor in a fragment, and is not reported, because it is used
in the type definition after the operation. -/
theorem C33_refuted : ∃ (d : Document) (dq : Definition) (o : OpDef) (v : VarDef),
    parse (fun _ => none) b!"query Q($v: Int) { a } type T @d(x: $v) { a: Int }" = .ok d ∧ dq ∈ d.defs ∧ dq.body = .op o ∧ v ∈ o.vars ∧
    ¬ Spec.Used d dq v.name ∧ (validate d none (rulesWalker [.noUnusedVariables])).errors? = some [] := by
  refine ⟨_, _, _, _, (parse_eq (ts := [⟨.name, b!"query", 1, 1⟩, ⟨.name, b!"Q", 1, 7⟩, ⟨.punctuator, b!"(", 1, 8⟩, ⟨.punctuator, b!"$", 1, 9⟩, ⟨.name, b!"v", 1, 10⟩, ⟨.punctuator, b!":", 1, 11⟩, ⟨.name, b!"Int", 1, 13⟩, ⟨.punctuator, b!")", 1, 16⟩, ⟨.punctuator, b!"{", 1, 18⟩, ⟨.name, b!"a", 1, 20⟩, ⟨.punctuator, b!"}", 1, 22⟩, ⟨.name, b!"type", 1, 24⟩, ⟨.name, b!"T", 1, 29⟩, ⟨.punctuator, b!"@", 1, 31⟩, ⟨.name, b!"d", 1, 32⟩, ⟨.punctuator, b!"(", 1, 33⟩, ⟨.name, b!"x", 1, 34⟩, ⟨.punctuator, b!":", 1, 35⟩, ⟨.punctuator, b!"$", 1, 37⟩, ⟨.name, b!"v", 1, 38⟩, ⟨.punctuator, b!")", 1, 39⟩, ⟨.punctuator, b!"{", 1, 41⟩, ⟨.name, b!"a", 1, 43⟩, ⟨.punctuator, b!":", 1, 44⟩, ⟨.name, b!"Int", 1, 46⟩, ⟨.punctuator, b!"}", 1, 50⟩, ⟨.eof, [], 1, 51⟩]) (by decide) rfl), .head _, rfl, .head _, ?_, rfl⟩
  rintro (h | ⟨d', h, _⟩)
  · exact no_kind (k := .variableValue) rfl h rfl
  · exact no_spread rfl h

set_option maxRecDepth 4000 in
/-- `$v` is used two spreads away, through a cycle of fragments; `$w` is not used. -/
example : ∃ d, parse (fun _ => none) b!"query Q($v: Int, $w: Int) { ...A } fragment A on T { ...B } fragment B on T { x(a: $v) ...A }" = .ok d ∧
    NoStrayVariables d ∧ (validate d none (rulesWalker [.noUnusedVariables])).errors? = some [unusedVariableError b!"w" b!"Q"] ∧
    ((newContext d none).bind fun c => c.recursivelyReferencedFragments c.depthBound (some 0)) = .ret [1, 2] := by
  refine ⟨_, (parse_eq (ts := [⟨.name, b!"query", 1, 1⟩, ⟨.name, b!"Q", 1, 7⟩, ⟨.punctuator, b!"(", 1, 8⟩, ⟨.punctuator, b!"$", 1, 9⟩, ⟨.name, b!"v", 1, 10⟩, ⟨.punctuator, b!":", 1, 11⟩, ⟨.name, b!"Int", 1, 13⟩, ⟨.punctuator, b!"$", 1, 18⟩, ⟨.name, b!"w", 1, 19⟩, ⟨.punctuator, b!":", 1, 20⟩, ⟨.name, b!"Int", 1, 22⟩, ⟨.punctuator, b!")", 1, 25⟩, ⟨.punctuator, b!"{", 1, 27⟩, ⟨.punctuator, b!"...", 1, 29⟩, ⟨.name, b!"A", 1, 32⟩, ⟨.punctuator, b!"}", 1, 34⟩, ⟨.name, b!"fragment", 1, 36⟩, ⟨.name, b!"A", 1, 45⟩, ⟨.name, b!"on", 1, 47⟩, ⟨.name, b!"T", 1, 50⟩, ⟨.punctuator, b!"{", 1, 52⟩, ⟨.punctuator, b!"...", 1, 54⟩, ⟨.name, b!"B", 1, 57⟩, ⟨.punctuator, b!"}", 1, 59⟩, ⟨.name, b!"fragment", 1, 61⟩, ⟨.name, b!"B", 1, 70⟩, ⟨.name, b!"on", 1, 72⟩, ⟨.name, b!"T", 1, 75⟩, ⟨.punctuator, b!"{", 1, 77⟩, ⟨.name, b!"x", 1, 79⟩, ⟨.punctuator, b!"(", 1, 80⟩, ⟨.name, b!"a", 1, 81⟩, ⟨.punctuator, b!":", 1, 82⟩, ⟨.punctuator, b!"$", 1, 84⟩, ⟨.name, b!"v", 1, 85⟩, ⟨.punctuator, b!")", 1, 86⟩, ⟨.punctuator, b!"...", 1, 88⟩, ⟨.name, b!"A", 1, 91⟩, ⟨.punctuator, b!"}", 1, 93⟩, ⟨.eof, [], 1, 94⟩]) (by decide) rfl), ?_, rfl, rfl⟩
  intro d hd he
  cases hd with
  | head => cases he
  | tail _ hd => cases hd with
    | head => cases he
    | tail _ hd => cases hd with
      | head => cases he
      | tail _ hd => cases hd

end GQL
