/-
The parser on strings that are windows on the input buffer (for C83): as long as every token still reads as it did,
the document reads as if the strings were copies.
-/
import Verif.Model.AliasParser
import Verif.Proofs.Alias

namespace GQL

section
variable (inp b : Bytes) (G : ATok → Prop)

/-- Results that read the same. -/
inductive RelR {α' α : Type} (R : α' → α → Prop) : ResA α' → Res α → Prop
  | ok {a a' r} : R a a' → (∀ t ∈ r, G t) → RelR R (.ok a r) (.ok a' (r.map (ATok.read inp)))
  | err {e r} : (∀ t ∈ r, G t) → RelR R (.err e r) (.err e (r.map (ATok.read inp)))
  | panic : RelR R .panic .panic
  | oof : RelR R .oof .oof

/-- Functions that give results that read the same. -/
def Com {α' α : Type} (R : α' → α → Prop) (p : PA α') (q : P α) : Prop :=
  ∀ ts, (∀ t ∈ ts, G t) → RelR inp G R (p ts) (q (ts.map (ATok.read inp)))

/-- What the tokens are assumed to be. -/
structure GoodTok : Prop where
  same : ∀ t, G t → t.lit.value b = t.lit.value inp
  eof : G ⟨.eof, .own [], 0, 0⟩

/-- A token and what it reads. -/
def RT (t : ATok) (t' : Token) : Prop := t' = t.read inp ∧ G t

/-- A token, or none. -/
inductive RO (k : TokenKind) : Option ATok → Option Token → Prop
  | none : RO k none none
  | some {t} : G t → t.kind = k → RO k (some t) (some (t.read inp))

end

/-- `f` of the one is the other. -/
abbrev RF {α' α : Type} (f : α' → α) (a : α') (a' : α) : Prop := a' = f a

section
variable {inp b : Bytes} {G : ATok → Prop} {α' α β' β : Type} {R : α' → α → Prop} {R' : β' → β → Prop}

theorem com_bind {p : PA α'} {q : P α} {f : α' → PA β'} {g : α → P β} (h1 : Com inp G R p q) (h2 : ∀ a a', R a a' → Com inp G R' (f a) (g a')) :
    Com inp G R' (p >>= f) (q >>= g) := by
  intro ts hts
  have h := h1 ts hts
  show RelR inp G R' (PA.bind p f ts) (P.bind q g _)
  unfold PA.bind P.bind
  generalize p ts = x at h
  generalize q _ = y at h
  cases h with
  | ok h1 h3 => exact h2 _ _ h1 _ h3
  | err h1 => exact .err h1
  | panic => exact .panic
  | oof => exact .oof

theorem com_pure {a : α'} {a' : α} (h : R a a') : Com inp G R (pure a : PA α') (pure a' : P α) := fun _ hts => .ok h hts

theorem com_ite {c c' : Prop} [Decidable c] [Decidable c'] (hc : c ↔ c') {p1 p2 : PA α'} {q1 q2 : P α} (h1 : c → Com inp G R p1 q1) (h2 : ¬ c → Com inp G R p2 q2) :
    Com inp G R (if c then p1 else p2) (if c' then q1 else q2) := by
  by_cases h : c
  · rw [if_pos h, if_pos (hc.1 h)]; exact h1 h
  · rw [if_neg h, if_neg (fun h' => h (hc.2 h'))]; exact h2 h

theorem com_mono {R2 : α' → α → Prop} {p : PA α'} {q : P α} (h : Com inp G R p q) (hR : ∀ a a', R a a' → R2 a a') : Com inp G R2 p q := by
  intro ts hts
  have h := h ts hts
  generalize p ts = x at h
  generalize q _ = y at h
  cases h with
  | ok h1 h2 => exact .ok (hR _ _ h1) h2
  | err h1 => exact .err h1
  | panic => exact .panic
  | oof => exact .oof

theorem com_fail {e : PErr} : Com inp G R (failA e : PA α') (fail e : P α) := fun _ hts => .err hts
theorem com_crash : Com inp G R (crashA : PA α') (crash : P α) := fun _ _ => .panic
theorem com_oof : Com inp G R (outOfFuelA : PA α') (outOfFuel : P α) := fun _ _ => .oof

theorem com_advance : Com inp G (fun _ _ => True) advanceA advance := by
  intro ts hts
  have : (ts.map (ATok.read inp)).tail = ts.tail.map (ATok.read inp) := List.map_tail.symm
  show RelR inp G _ _ (Res.ok () _)
  rw [this]
  exact .ok trivial (fun t ht => hts t (List.mem_of_mem_tail ht))

variable (hg : GoodTok inp b G)
include hg

theorem com_cur : Com inp G (RT inp G) curA cur := by
  intro ts hts
  refine .ok ?_ hts
  cases ts with
  | nil => exact ⟨rfl, hg.eof⟩
  | cons t ts => exact ⟨rfl, hts t (List.mem_cons_self ..)⟩

theorem com_peek0 (k : TokenKind) : Com inp G Eq (peek0A k) (peek0 k) := by
  refine com_bind (com_cur hg) ?_
  rintro t _ ⟨rfl, -⟩
  exact com_pure rfl

theorem com_peek1 (k : TokenKind) (l : Bytes) : Com inp G Eq (peek1A inp k l) (peek1 k l) := by
  refine com_bind (com_cur hg) ?_
  rintro t _ ⟨rfl, -⟩
  exact com_pure rfl

theorem com_peekn (k : TokenKind) (ls : List Bytes) : Com inp G Eq (peeknA inp k ls) (peekn k ls) := by
  refine com_bind (com_cur hg) ?_
  rintro t _ ⟨rfl, -⟩
  refine com_ite Iff.rfl (fun _ => com_pure rfl) fun _ => com_ite Iff.rfl (fun _ => com_pure rfl) fun _ => com_pure rfl

theorem com_consume0 (k : TokenKind) : Com inp G (RO inp G k) (consume0A k) (consume0 k) := by
  refine com_bind (com_cur hg) ?_
  rintro t _ ⟨rfl, h⟩
  refine com_ite Iff.rfl (fun hk => com_bind com_advance fun _ _ _ => com_pure (.some h hk)) fun _ => com_pure .none

theorem com_consumen (k : TokenKind) (ls : List Bytes) : Com inp G (RO inp G k) (consumenA inp k ls) (consumen k ls) := by
  refine com_bind (com_cur hg) ?_
  rintro t _ ⟨rfl, h⟩
  refine com_ite Iff.rfl (fun _ => com_pure .none) fun hk => ?_
  replace hk : t.kind = k := Decidable.of_not_not hk
  refine com_ite Iff.rfl (fun _ => com_bind com_advance fun _ _ _ => com_pure (.some h hk)) fun _ => ?_
  exact com_ite Iff.rfl (fun _ => com_bind com_advance fun _ _ _ => com_pure (.some h hk)) fun _ => com_pure .none

/-- A token of the kind wanted. -/
def RK (inp : Bytes) (G : ATok → Prop) (k : TokenKind) (t : ATok) (t' : Token) : Prop := t' = t.read inp ∧ G t ∧ t.kind = k

theorem com_mustConsume0 (k : TokenKind) : Com inp G (RK inp G k) (mustConsume0A inp k) (mustConsume0 k) := by
  refine com_bind (com_cur hg) ?_
  rintro t _ ⟨rfl, h⟩
  exact com_ite Iff.rfl (fun _ => com_fail) fun hk => com_bind com_advance fun _ _ _ => com_pure ⟨rfl, h, Decidable.of_not_not hk⟩

theorem com_mustConsume1 (k : TokenKind) (l : Bytes) : Com inp G (RK inp G k) (mustConsume1A inp k l) (mustConsume1 k l) := by
  refine com_bind (com_cur hg) ?_
  rintro t _ ⟨rfl, h⟩
  exact com_ite Iff.rfl (fun _ => com_fail) fun hk => com_bind com_advance fun _ _ _ => com_pure ⟨rfl, h, Decidable.of_not_not fun h => hk (.inl h)⟩

theorem com_mustConsumen (k : TokenKind) (ls : List Bytes) : Com inp G (RK inp G k) (mustConsumenA inp k ls) (mustConsumen k ls) := by
  refine com_bind (com_cur hg) ?_
  rintro t _ ⟨rfl, h⟩
  refine com_bind (com_consumen hg k ls) ?_
  intro o o' ho
  cases ho with
  | none => exact com_fail
  | some h hk => exact com_pure ⟨rfl, h, hk⟩

theorem com_skip1 (k : TokenKind) (l : Bytes) : Com inp G Eq (skip1A inp k l) (skip1 k l) := by
  refine com_bind (com_cur hg) ?_
  rintro t _ ⟨rfl, -⟩
  exact com_ite Iff.rfl (fun _ => com_pure rfl) fun _ => com_bind com_advance fun _ _ _ => com_pure rfl

theorem com_unexpected (ws : List Bytes) : Com inp G R (unexpectedCurA inp ws : PA α') (unexpectedCur ws : P α) := by
  refine com_bind (com_cur hg) ?_
  rintro t _ ⟨rfl, -⟩
  exact com_fail

omit hg

theorem com_doWhileF {f : α' → α} {p : PA α'} {q : P α} {c : PA Bool} {d : P Bool} (h1 : Com inp G (RF f) p q) (h2 : Com inp G Eq c d) (n : Nat) :
    Com inp G (RF (List.map f)) (doWhileFA p c n) (doWhileF q d n) := by
  induction n with
  | zero => exact com_oof
  | succ n ih =>
    refine com_bind h1 ?_
    rintro a _ rfl
    refine com_bind h2 ?_
    rintro x _ rfl
    refine com_ite Iff.rfl (fun _ => com_pure rfl) fun _ => com_bind ih ?_
    rintro as _ rfl
    exact com_pure rfl

theorem com_doWhile {f : α' → α} {p : PA α'} {q : P α} {c : PA Bool} {d : P Bool} (h1 : Com inp G (RF f) p q) (h2 : Com inp G Eq c d) :
    Com inp G (RF (List.map f)) (doWhileA p c) (doWhile q d) := by
  intro ts hts
  have := com_doWhileF h1 h2 (ts.length + 1) ts hts
  show RelR inp G _ _ (doWhileF q d ((ts.map (ATok.read inp)).length + 1) _)
  rw [List.length_map]
  exact this

theorem com_untilDoF {f : α' → α} {p : PA α'} {q : P α} {c : PA Bool} {d : P Bool} (h2 : Com inp G Eq c d) (h1 : Com inp G (RF f) p q) (n : Nat) :
    Com inp G (RF (List.map f)) (untilDoFA c p n) (untilDoF d q n) := by
  induction n with
  | zero => exact com_oof
  | succ n ih =>
    refine com_bind h2 ?_
    rintro x _ rfl
    refine com_ite Iff.rfl (fun _ => com_pure rfl) fun _ => com_bind h1 ?_
    rintro a _ rfl
    refine com_bind ih ?_
    rintro as _ rfl
    exact com_pure rfl

theorem com_untilDo {f : α' → α} {p : PA α'} {q : P α} {c : PA Bool} {d : P Bool} (h2 : Com inp G Eq c d) (h1 : Com inp G (RF f) p q) :
    Com inp G (RF (List.map f)) (untilDoA c p) (untilDo d q) := by
  intro ts hts
  have := com_untilDoF h2 h1 (ts.length + 1) ts hts
  show RelR inp G _ _ (untilDoF d q ((ts.map (ATok.read inp)).length + 1) _)
  rw [List.length_map]
  exact this

theorem com_not {c : PA Bool} {d : P Bool} (h : Com inp G Eq c d) : Com inp G Eq (notPA c) (notP d) := by
  refine com_bind h ?_
  rintro x _ rfl
  exact com_pure rfl

theorem com_or {c c2 : PA Bool} {d d2 : P Bool} (h : Com inp G Eq c d) (h2 : Com inp G Eq c2 d2) : Com inp G Eq (orPA c c2) (orP d d2) := by
  refine com_bind h ?_
  rintro x _ rfl
  exact com_ite Iff.rfl (fun _ => com_pure rfl) fun _ => h2

end

theorem Str.value_own (b x : Bytes) : (Str.own x).value b = x := rfl

theorem AValue.readL_map (b : Bytes) (vs : List AValue) : AValue.readL b vs = vs.map (AValue.read b) := by
  induction vs with
  | nil => rfl
  | cons v vs ih => rw [AValue.readL, ih]; rfl

theorem AValue.readF_map (b : Bytes) (fs : List (Str × AValue)) : AValue.readF b fs = fs.map (fun f => (f.1.value b, f.2.read b)) := by
  induction fs with
  | nil => rfl
  | cons v vs ih => rw [AValue.readF, ih]; rfl

theorem ASelection.readL_map (b : Bytes) (vs : List ASelection) : ASelection.readL b vs = vs.map (ASelection.read b) := by
  induction vs with
  | nil => rfl
  | cons v vs ih => rw [ASelection.readL, ih]; rfl

section
variable {inp b : Bytes} {G : ATok → Prop} {α' α β' β : Type} {R' : β' → β → Prop}

theorem com_bindE {p : PA α} {q : P α} {f : α → PA β'} {g : α → P β} (h1 : Com inp G Eq p q) (h2 : ∀ a, Com inp G R' (f a) (g a)) :
    Com inp G R' (p >>= f) (q >>= g) := com_bind h1 (by rintro a _ rfl; exact h2 a)

theorem com_bindF {k : α' → α} {p : PA α'} {q : P α} {f : α' → PA β'} {g : α → P β} (h1 : Com inp G (RF k) p q) (h2 : ∀ a, Com inp G R' (f a) (g (k a))) :
    Com inp G R' (p >>= f) (q >>= g) := com_bind h1 (by rintro a _ rfl; exact h2 a)

theorem com_bindK (hg : GoodTok inp b G) {k : TokenKind} {p : PA ATok} {q : P Token} {f : ATok → PA β'} {g : Token → P β} (h1 : Com inp G (RK inp G k) p q)
    (h2 : ∀ t, G t → t.kind = k → t.lit.value inp = t.lit.value b → Com inp G R' (f t) (g (t.read inp))) :
    Com inp G R' (p >>= f) (q >>= g) := com_bind h1 (by rintro t _ ⟨rfl, hG, hk⟩; exact h2 t hG hk (hg.same t hG).symm)

theorem com_bindT (hg : GoodTok inp b G) {p : PA ATok} {q : P Token} {f : ATok → PA β'} {g : Token → P β} (h1 : Com inp G (RT inp G) p q)
    (h2 : ∀ t, G t → t.lit.value inp = t.lit.value b → Com inp G R' (f t) (g (t.read inp))) :
    Com inp G R' (p >>= f) (q >>= g) := com_bind h1 (by rintro t _ ⟨rfl, hG⟩; exact h2 t hG (hg.same t hG).symm)

theorem com_bindO (hg : GoodTok inp b G) {k : TokenKind} {p : PA (Option ATok)} {q : P (Option Token)} {f : Option ATok → PA β'} {g : Option Token → P β} (h1 : Com inp G (RO inp G k) p q)
    (h2 : ∀ t, G t → t.kind = k → t.lit.value inp = t.lit.value b → Com inp G R' (f (some t)) (g (some (t.read inp)))) (h3 : Com inp G R' (f none) (g none)) :
    Com inp G R' (p >>= f) (q >>= g) := com_bind h1 (by
      intro o o' ho
      cases ho with
      | none => exact h3
      | some hG hk => exact h2 _ hG hk (hg.same _ hG).symm)

end

/-- One step of both parsers. -/
macro "com_step" : tactic => `(tactic| first
  | exact com_fail | exact com_crash | exact com_oof | exact com_unexpected (by assumption) _
  | assumption
  | exact com_pure rfl
  | (refine com_bindE (by first
      | exact com_skip1 (by assumption) _ _ | exact com_peek1 (by assumption) _ _ | exact com_peekn (by assumption) _ _ | exact com_peek0 (by assumption) _
      | exact com_or (com_peek1 (by assumption) _ _) (com_peek0 (by assumption) _) | exact com_or (com_peekn (by assumption) _ _) (com_peek1 (by assumption) _ _)
      | assumption) ?_; intro a; try dsimp only)
  | (refine com_bindF (by assumption) ?_; intro a; try dsimp only)
  | (refine com_bindK (by assumption) (by first | exact com_mustConsume0 (by assumption) _ | exact com_mustConsume1 (by assumption) _ _ | exact com_mustConsumen (by assumption) _ _) ?_; intro t hG hk he; try dsimp only [ATok.read])
  | (refine com_bindT (by assumption) (com_cur (by assumption)) ?_; intro t hG he; try dsimp only [ATok.read])
  | (refine com_bindO (by assumption) (by first | exact com_consume0 (by assumption) _ | exact com_consumen (by assumption) _ _) ?_ ?_; (intro t hG hk he; try dsimp only [ATok.read]); (try dsimp only))
  | (refine com_ite Iff.rfl (fun _ => ?_) (fun _ => ?_)))

/-- What is returned reads the same. -/
macro "com_ret" : tactic => `(tactic| (refine com_pure ?_; simp [RF, ATok.read, AValue.read, AArgument.read, ADirective.read, ASelection.read, AVarDef.read, AOpDef.read, AFragDef.read, AOpTypeDef.read,
  ASchemaDef.read, AInputVal.read, AFieldDef.read, AEnumVal.read, ATypeDef.read, ADirDef.read, ABody.read, ADefinition.read, ATy.read, AValue.readL_map, AValue.readF_map, ASelection.readL_map, Str.value_own, *]))

section
variable {inp b : Bytes} {G : ATok → Prop} (hg : GoodTok inp b G) (pf : Bytes → Option Nat)
include hg

theorem parseValueA_com (n : Nat) : Com inp G (RF (AValue.read b)) (parseValueA inp pf n) (parseValue pf n) := by
  induction n with
  | zero => exact com_oof
  | succ n ih =>
    have hl := com_untilDo (com_skip1 hg .punctuator b!"]") ih
    have ho : Com inp G (RF (List.map (fun f : Str × AValue => (f.1.value b, f.2.read b))))
        (untilDoA (skip1A inp TokenKind.punctuator b!"}") (do
            let t ← mustConsume0A inp TokenKind.name
            let _ ← mustConsume1A inp TokenKind.punctuator b!":"
            let v ← parseValueA inp pf n
            pure (t.lit, v)))
        (untilDo (skip1 TokenKind.punctuator b!"}") (do
            let t ← mustConsume0 TokenKind.name
            let _ ← mustConsume1 TokenKind.punctuator b!":"
            let v ← parseValue pf n
            pure (t.lit, v))) := by
      refine com_untilDo (com_skip1 hg _ _) ?_
      repeat' com_step
      com_ret
    unfold parseValueA parseValue
    repeat' com_step
    · com_ret
    · rename_i t _ _ _
      cases atoi (t.lit.value inp) with
      | none => exact com_fail
      | some i => com_ret
    · rename_i t _ _ _
      cases pf (t.lit.value inp) with
      | none => exact com_fail
      | some i => com_ret
    all_goals com_ret

theorem parseDefaultValueA_com (n : Nat) : Com inp G (RF (Option.map (AValue.read b))) (parseDefaultValueA inp pf n) (parseDefaultValue pf n) := by
  have h := parseValueA_com hg pf n
  unfold parseDefaultValueA parseDefaultValue
  repeat' com_step
  all_goals com_ret

theorem parseArgumentsA_com (n : Nat) : Com inp G (RF (List.map (AArgument.read b))) (parseArgumentsA inp pf n) (parseArguments pf n) := by
  have h := parseValueA_com hg pf n
  unfold parseArgumentsA parseArguments
  repeat' com_step
  refine com_untilDo (com_skip1 hg _ _) ?_
  repeat' com_step
  all_goals com_ret

theorem parseDirectivesA_com (n : Nat) (loc : DirLoc) : Com inp G (RF (List.map (ADirective.read b))) (parseDirectivesA inp pf n loc) (parseDirectives pf n loc) := by
  have h := parseArgumentsA_com hg pf n
  unfold parseDirectivesA parseDirectives
  refine com_untilDo (com_not (com_peek1 hg _ _)) ?_
  repeat' com_step
  all_goals com_ret

theorem parseTypeA_com (n : Nat) : Com inp G (RF (ATy.read b)) (parseTypeA inp n) (parseType n) := by
  induction n with
  | zero => exact com_oof
  | succ n ih =>
    have k : ∀ a : ATy, Com inp G (RF (ATy.read b)) (do
            let _ ← mustConsume1A inp .punctuator b!"]"
            return ATy.list a (← skip1A inp .punctuator b!"!")) (do
            let _ ← mustConsume1 .punctuator b!"]"
            return Ty.list (a.read b) (← skip1 .punctuator b!"!")) := by
      intro a
      repeat' com_step
    unfold parseTypeA parseType
    repeat' com_step
    · intro ts hts
      have h := ih ts hts
      dsimp only
      generalize parseTypeA inp n ts = x at h
      generalize parseType n _ = y at h
      cases h with
      | ok h1 h3 =>
        subst h1
        exact k _ _ h3
      | err h1 => exact .ok rfl h1
      | panic => exact .panic
      | oof => exact .oof
    all_goals com_ret

theorem mustBeNamedA_com (t : ATy) : Com inp G Eq (mustBeNamedA inp t) (mustBeNamed (t.read b)) := by
  cases t with
  | named => exact com_pure rfl
  | list => exact com_unexpected hg _
  | listNil => exact com_unexpected hg _

theorem parseTypeConditionA_com (n : Nat) : Com inp G (RF (ATy.read b)) (parseTypeConditionA inp n) (parseTypeCondition n) := by
  have h := parseTypeA_com hg n
  have h2 := mustBeNamedA_com hg
  unfold parseTypeConditionA parseTypeCondition
  repeat' com_step
  refine com_bindE (h2 _) ?_
  intro _
  com_step

theorem parseVariableDefinitionsA_com (n : Nat) : Com inp G (RF (List.map (AVarDef.read b))) (parseVariableDefinitionsA inp pf n) (parseVariableDefinitions pf n) := by
  have h1 := parseTypeA_com hg n
  have h2 := parseDefaultValueA_com hg pf n
  unfold parseVariableDefinitionsA parseVariableDefinitions
  repeat' com_step
  refine com_bindF (com_doWhile (f := AVarDef.read b) ?_ (com_peek1 hg _ _)) ?_
  · repeat' com_step
    com_ret
  · intro _
    repeat' com_step

theorem parseFragmentSpreadA_com (n : Nat) : Com inp G (RF (ASelection.read b)) (parseFragmentSpreadA inp pf n) (parseFragmentSpread pf n) := by
  have h1 := parseDirectivesA_com hg pf n
  unfold parseFragmentSpreadA parseFragmentSpread
  repeat' com_step
  refine com_bindF (h1 _) ?_
  intro _
  com_ret

theorem parseInlineFragmentA_com (n : Nat) {sa s} (hs : Com inp G (RF (List.map (ASelection.read b))) sa s) :
    Com inp G (RF (ASelection.read b)) (parseInlineFragmentA inp pf n sa) (parseInlineFragment pf n s) := by
  have h1 := parseDirectivesA_com hg pf n .inlineFragment
  have h2 := parseTypeConditionA_com hg n
  unfold parseInlineFragmentA parseInlineFragment
  refine com_bindF (k := Option.map (ATy.read b)) ?_ ?_
  · repeat' com_step
  · intro _
    repeat' com_step
    com_ret

theorem parseFieldA_com (n : Nat) {sa s} (hs : Com inp G (RF (List.map (ASelection.read b))) sa s) :
    Com inp G (RF (ASelection.read b)) (parseFieldA inp pf n sa) (parseField pf n s) := by
  have h1 := parseDirectivesA_com hg pf n .field
  have h2 := parseArgumentsA_com hg pf n
  unfold parseFieldA parseField
  com_step
  rename_i t _ _ _
  refine com_bindF (k := fun p : Str × Str => (p.1.value b, p.2.value b)) ?_ ?_
  · repeat' com_step
    all_goals com_ret
  · intro ⟨x, y⟩
    dsimp only
    repeat' com_step
    com_ret

theorem parseSelectionSetA_com (n : Nat) (o : Bool) : Com inp G (RF (List.map (ASelection.read b))) (parseSelectionSetA inp pf n o) (parseSelectionSet pf n o) := by
  induction n generalizing o with
  | zero => exact com_oof
  | succ n ih =>
    have h1 := parseFragmentSpreadA_com hg pf n
    have h2 := parseInlineFragmentA_com hg pf n (ih false)
    have h3 := parseFieldA_com hg pf n (ih true)
    unfold parseSelectionSetA parseSelectionSet
    repeat' com_step
    refine com_bindF (com_doWhile (f := ASelection.read b) ?_ (com_or (com_peek1 hg _ _) (com_peek0 hg _))) ?_
    · repeat' com_step
    · intro _
      repeat' com_step

theorem parseOperationTypeA_com : Com inp G Eq (parseOperationTypeA inp) parseOperationType := by
  unfold parseOperationTypeA parseOperationType
  repeat' com_step

theorem parseOperationDefinitionA_com (n : Nat) (sh : Bool) :
    Com inp G (RF (AOpDef.read b)) (parseOperationDefinitionA inp pf n sh) (parseOperationDefinition pf n sh) := by
  have h1 := parseSelectionSetA_com hg pf n false
  have h2 := parseOperationTypeA_com hg
  have h3 := parseVariableDefinitionsA_com hg pf n
  have h4 := parseDirectivesA_com hg pf n
  unfold parseOperationDefinitionA parseOperationDefinition
  repeat' com_step
  · refine com_bindF (h4 _) ?_
    intro _
    repeat' com_step
    com_ret
  · refine com_bindF (h4 _) ?_
    intro _
    repeat' com_step

theorem parseFragmentDefinitionA_com (n : Nat) : Com inp G (RF (AFragDef.read b)) (parseFragmentDefinitionA inp pf n) (parseFragmentDefinition pf n) := by
  have h1 := parseSelectionSetA_com hg pf n false
  have h2 := parseTypeConditionA_com hg n
  have h4 := parseDirectivesA_com hg pf n .fragmentDefinition
  unfold parseFragmentDefinitionA parseFragmentDefinition
  repeat' com_step
  com_ret

theorem parseOperationTypeDefinitionA_com (n : Nat) : Com inp G (RF (AOpTypeDef.read b)) (parseOperationTypeDefinitionA inp n) (parseOperationTypeDefinition n) := by
  have h1 := parseOperationTypeA_com hg
  have h2 := parseTypeA_com hg n
  have h3 := mustBeNamedA_com hg
  unfold parseOperationTypeDefinitionA parseOperationTypeDefinition
  repeat' com_step
  refine com_bindE (h3 _) ?_
  intro _
  com_step

theorem parseOperationTypeDefinitionsA_com (n : Nat) :
    Com inp G (RF (List.map (AOpTypeDef.read b))) (parseOperationTypeDefinitionsA inp n) (parseOperationTypeDefinitions n) := by
  have h1 := com_doWhile (parseOperationTypeDefinitionA_com hg n) (com_or (com_peek1 hg .punctuator b!"}") (com_peek0 hg .eof))
  unfold parseOperationTypeDefinitionsA parseOperationTypeDefinitions
  repeat' com_step

theorem parseSchemaDefinitionA_com (n : Nat) : Com inp G (RF (ASchemaDef.read b)) (parseSchemaDefinitionA inp pf n) (parseSchemaDefinition pf n) := by
  have h1 := parseOperationTypeDefinitionsA_com hg n
  have h2 := parseDirectivesA_com hg pf n .schema
  unfold parseSchemaDefinitionA parseSchemaDefinition
  repeat' com_step

theorem parseSchemaExtensionA_com (n : Nat) : Com inp G (RF (ASchemaDef.read b)) (parseSchemaExtensionA inp pf n) (parseSchemaExtension pf n) := by
  have h1 := parseOperationTypeDefinitionsA_com hg n
  have h2 := parseDirectivesA_com hg pf n .schema
  unfold parseSchemaExtensionA parseSchemaExtension
  repeat' com_step
  refine com_bindF (k := List.map (AOpTypeDef.read b)) ?_ ?_
  · repeat' com_step
  · intro _
    refine com_ite (by rw [List.length_map, List.length_map]) (fun _ => ?_) (fun _ => ?_)
    all_goals com_step

theorem parseInputValueDefinitionA_com (n : Nat) (loc : DirLoc) :
    Com inp G (RF (AInputVal.read b)) (parseInputValueDefinitionA inp pf n loc) (parseInputValueDefinition pf n loc) := by
  have h1 := parseTypeA_com hg n
  have h2 := parseDefaultValueA_com hg pf n
  have h3 := parseDirectivesA_com hg pf n loc
  unfold parseInputValueDefinitionA parseInputValueDefinition
  repeat' com_step
  all_goals com_ret

theorem parseArgumentsDefinitionA_com (n : Nat) :
    Com inp G (RF (List.map (AInputVal.read b))) (parseArgumentsDefinitionA inp pf n) (parseArgumentsDefinition pf n) := by
  have h1 := com_doWhile (parseInputValueDefinitionA_com hg pf n .argumentDefinition) (com_or (com_peek1 hg .punctuator b!")") (com_peek0 hg .eof))
  unfold parseArgumentsDefinitionA parseArgumentsDefinition
  repeat' com_step

theorem parseDirectiveLocationsA_com : Com inp G Eq (parseDirectiveLocationsA inp) parseDirectiveLocations := by
  have h0 : Com inp G (RF (ATok.read inp)) (mustConsumenA inp .name directiveLocations) (mustConsumen .name directiveLocations) :=
    com_mono (com_mustConsumen hg _ _) (fun _ _ h => h.1)
  have h1 := com_doWhile h0 (com_not (com_skip1 hg .punctuator b!"|"))
  unfold parseDirectiveLocationsA parseDirectiveLocations
  repeat' com_step
  exact com_pure (by rw [List.foldl_map]; rfl)

theorem parseDirectiveDefinitionA_com (n : Nat) (desc : Str) (hd : desc.value inp = desc.value b) :
    Com inp G (RF (ADirDef.read b)) (parseDirectiveDefinitionA inp pf n desc) (parseDirectiveDefinition pf n (desc.value inp)) := by
  have h1 := parseArgumentsDefinitionA_com hg pf n
  have h2 := parseDirectiveLocationsA_com hg
  unfold parseDirectiveDefinitionA parseDirectiveDefinition
  repeat' com_step
  com_ret

theorem parseImplementsInterfacesA_com (n : Nat) : Com inp G (RF (List.map (ATy.read b))) (parseImplementsInterfacesA inp n) (parseImplementsInterfaces n) := by
  have h1 := com_doWhile (parseTypeA_com hg n) (com_not (com_skip1 hg .punctuator b!"&"))
  unfold parseImplementsInterfacesA parseImplementsInterfaces
  repeat' com_step

theorem parseFieldsDefinitionA_com (n : Nat) : Com inp G (RF (List.map (AFieldDef.read b))) (parseFieldsDefinitionA inp pf n) (parseFieldsDefinition pf n) := by
  have h1 := parseArgumentsDefinitionA_com hg pf n
  have h2 := parseTypeA_com hg n
  have h3 := parseDirectivesA_com hg pf n .fieldDefinition
  unfold parseFieldsDefinitionA parseFieldsDefinition
  repeat' com_step
  refine com_doWhile ?_ (com_skip1 hg _ _)
  repeat' com_step
  all_goals com_ret

theorem parseUnionMemberTypesA_com (n : Nat) : Com inp G (RF (List.map (ATy.read b))) (parseUnionMemberTypesA inp n) (parseUnionMemberTypes n) := by
  have h1 := com_doWhile (parseTypeA_com hg n) (com_not (com_skip1 hg .punctuator b!"|"))
  unfold parseUnionMemberTypesA parseUnionMemberTypes
  repeat' com_step

theorem parseEnumValuesDefinitionA_com (n : Nat) : Com inp G (RF (List.map (AEnumVal.read b))) (parseEnumValuesDefinitionA inp pf n) (parseEnumValuesDefinition pf n) := by
  have h3 := parseDirectivesA_com hg pf n .enumValue
  unfold parseEnumValuesDefinitionA parseEnumValuesDefinition
  repeat' com_step
  refine com_doWhile ?_ (com_skip1 hg _ _)
  repeat' com_step
  all_goals com_ret

theorem parseInputFieldsDefinitionA_com (n : Nat) : Com inp G (RF (List.map (AInputVal.read b))) (parseInputFieldsDefinitionA inp pf n) (parseInputFieldsDefinition pf n) := by
  have h1 := com_doWhile (parseInputValueDefinitionA_com hg pf n .inputFieldDefinition) (com_skip1 hg .punctuator b!"}")
  unfold parseInputFieldsDefinitionA parseInputFieldsDefinition
  repeat' com_step

theorem parseTypeBodyA_com (n : Nat) (desc : Str) (hd : desc.value inp = desc.value b) (k : TypeKind) :
    Com inp G (RF (ATypeDef.read b)) (parseTypeBodyA inp pf n desc k) (parseTypeBody pf n (desc.value inp) k) := by
  have h1 := parseDirectivesA_com hg pf n
  have h2 := parseImplementsInterfacesA_com hg n
  have h3 := parseFieldsDefinitionA_com hg pf n
  have h4 := parseUnionMemberTypesA_com hg n
  have h5 := parseEnumValuesDefinitionA_com hg pf n
  have h6 := parseInputFieldsDefinitionA_com hg pf n
  unfold parseTypeBodyA parseTypeBody
  com_step
  cases k <;> dsimp only
  case object =>
    com_step
    refine com_bindF (h1 _) ?_
    intro _
    repeat' com_step
    com_ret
  all_goals
    refine com_bindF (h1 _) ?_
    intro _
    repeat' com_step
    com_ret

theorem parseTypeDefinitionA_com (n : Nat) (desc : Str) (hd : desc.value inp = desc.value b) :
    Com inp G (RF (ATypeDef.read b)) (parseTypeDefinitionA inp pf n desc) (parseTypeDefinition pf n (desc.value inp)) := by
  have h1 := parseTypeBodyA_com hg pf n desc hd
  unfold parseTypeDefinitionA parseTypeDefinition
  com_step
  rename_i t _ _ _
  cases kindOf (t.lit.value inp) with
  | none => exact com_crash
  | some k => exact h1 k

theorem parseTypeExtensionA_com (n : Nat) : Com inp G (RF (ATypeDef.read b)) (parseTypeExtensionA inp pf n) (parseTypeExtension pf n) := by
  have h1 := parseDirectivesA_com hg pf n
  have h2 := parseImplementsInterfacesA_com hg n
  have h3 := parseFieldsDefinitionA_com hg pf n
  have h4 := parseUnionMemberTypesA_com hg n
  have h5 := parseEnumValuesDefinitionA_com hg pf n
  have h6 := parseInputFieldsDefinitionA_com hg pf n
  unfold parseTypeExtensionA parseTypeExtension
  com_step
  com_step
  rename_i kt _ _ _ t _ _ _
  refine com_bindF (k := List.map (ATy.read b)) ?_ ?_
  · repeat' com_step
  · intro ifs
    rcases kindOf (kt.lit.value inp) with _ | ⟨_ | _ | _ | _ | _ | _⟩
    · exact com_crash
    all_goals
      refine com_bindF (h1 _) ?_
      intro _
      repeat' com_step
      com_ret

theorem parseTypeSystemDefinitionA_com (n : Nat) (desc : Str) (hd : desc.value inp = desc.value b) :
    Com inp G (RF (ABody.read b)) (parseTypeSystemDefinitionA inp pf n desc) (parseTypeSystemDefinition pf n (desc.value inp)) := by
  have h1 := parseTypeDefinitionA_com hg pf n desc hd
  have h2 := parseDirectiveDefinitionA_com hg pf n desc hd
  have h3 := parseSchemaDefinitionA_com hg pf n
  unfold parseTypeSystemDefinitionA parseTypeSystemDefinition
  repeat' com_step

theorem parseTypeSystemExtensionA_com (n : Nat) :
    Com inp G (RF (ABody.read b)) (parseTypeSystemExtensionA inp pf n) (parseTypeSystemExtension pf n) := by
  have h1 := parseTypeExtensionA_com hg pf n
  have h3 := parseSchemaExtensionA_com hg pf n
  unfold parseTypeSystemExtensionA parseTypeSystemExtension
  repeat' com_step

theorem parseDefinitionBodyA_com (n : Nat) : Com inp G (RF (ABody.read b)) (parseDefinitionBodyA inp pf n) (parseDefinitionBody pf n) := by
  have h1 := parseOperationDefinitionA_com hg pf n
  have h2 := parseFragmentDefinitionA_com hg pf n
  have h3 := parseTypeSystemExtensionA_com hg pf n
  have h4 := parseTypeSystemDefinitionA_com hg pf n
  unfold parseDefinitionBodyA parseDefinitionBody
  com_step
  com_step
  com_step
  · refine com_bindF (h1 _) ?_
    intro _
    com_step
  · com_step
    com_step
    · com_step
      com_step
    · com_step
      com_step
      · com_step
      · com_step
        · rename_i t _ _ he
          have h5 := h4 t.lit he
          clear h4
          dsimp only [Option.map_some, Option.getD_some]
          com_step
          com_step <;> com_step
        · have h5 := h4 (.own []) rfl
          clear h4
          dsimp only [Option.map_none, Option.getD_none]
          com_step
          com_step <;> com_step

theorem parseDefinitionA_com (n : Nat) : Com inp G (RF (ADefinition.read b)) (parseDefinitionA inp pf n) (parseDefinition pf n) := by
  have h1 := parseDefinitionBodyA_com hg pf n
  unfold parseDefinitionA parseDefinition
  repeat' com_step

theorem parseDefsA_com (n : Nat) : Com inp G (RF (List.map (ADefinition.read b))) (parseDefsA inp pf n) (parseDefs pf n) := by
  have h1 := parseDefinitionA_com hg pf n
  unfold parseDefsA parseDefs
  refine com_doWhile ?_ (com_peek0 hg _)
  repeat' com_step

end

end GQL