/-
What `ValidateSchema` computes.
-/
import Verif.Model.SchemaValidate
import Verif.Proofs.Subtype
import Verif.Proofs.Repeated
import Verif.Proofs.Rules
import Verif.Props.C29

namespace GQL
open Classical

/-! ### Adding errors -/

/-- Both, in this order. -/
def Out.append {α : Type} (x y : Out (List α)) : Out (List α) := x.bind fun a => y.bind fun b => .ret (a ++ b)

/-- All of them, in order. -/
def outAll {α β : Type} (f : α → Out (List β)) : List α → Out (List β)
  | [] => .ret []
  | a :: l => (f a).append (outAll f l)

/-- What the function does to a context is to add the errors. -/
def Adds (f : Ctx → Out Ctx) (x : Out (List GErr)) : Prop := ∀ c, f c = x.bind fun es => .ret (c.addErrors es)

theorem addErrors_append (c : Ctx) (a b : List GErr) : (c.addErrors a).addErrors b = c.addErrors (a ++ b) := by
  unfold Ctx.addErrors; rw [List.foldl_append]

theorem Adds.then {f g : Ctx → Out Ctx} {x y : Out (List GErr)} (hf : Adds f x) (hg : Adds g y) : Adds (fun c => (f c).bind g) (x.append y) := by
  intro c
  show (f c).bind g = _
  rw [hf c]
  cases x with
  | ret a =>
    show g (c.addErrors a) = _
    rw [hg]
    cases y with
    | ret b => exact congrArg Out.ret (addErrors_append c a b)
    | panic => rfl
    | oof => rfl
  | panic => rfl
  | oof => rfl

theorem Adds.fold {α : Type} {f : Ctx → α → Out Ctx} {x : α → Out (List GErr)} : ∀ (l : List α), (∀ a ∈ l, Adds (fun c => f c a) (x a)) →
    Adds (fun c => foldOut f l c) (outAll x l)
  | [], _ => fun _ => rfl
  | a :: l, h => (h a (by simp)).then (Adds.fold l fun b hb => h b (by simp [hb]))

/-- A pure step. -/
theorem Adds.pure {f : Ctx → Ctx} {es : List GErr} (h : ∀ c, f c = c.addErrors es) : Adds (fun c => .ret (f c)) (.ret es) :=
  fun c => congrArg Out.ret (h c)

/-! ### Meaning -/

/-- With enough fuel the errors are `es`, in some order, if `ok`; else there is no result. -/
def Means (x : Nat → Out (List GErr)) (ok : Prop) (es : List GErr) : Prop :=
  (ok → ∃ N, ∀ k ≥ N, ∃ l, x k = .ret l ∧ l.Perm es) ∧ (¬ ok → ∀ k, ¬ (x k).returns)

theorem Means.const {l es : List GErr} (h : l.Perm es) : Means (fun _ => .ret l) True es :=
  ⟨fun _ => ⟨0, fun _ _ => ⟨l, rfl, h⟩⟩, fun h => absurd trivial h⟩

theorem Means.iff {x : Nat → Out (List GErr)} {p q : Prop} {es : List GErr} (h : Means x p es) (e : p ↔ q) : Means x q es := by
  rw [propext e] at h; exact h

theorem Means.perm {x : Nat → Out (List GErr)} {p : Prop} {es es' : List GErr} (h : Means x p es) (e : p → es.Perm es') : Means x p es' := by
  refine ⟨fun hp => ?_, h.2⟩
  obtain ⟨N, hN⟩ := h.1 hp
  exact ⟨N, fun k hk => let ⟨l, h1, h2⟩ := hN k hk; ⟨l, h1, h2.trans (e hp)⟩⟩

theorem Out.append_returns {α : Type} {x y : Out (List α)} (h : (x.append y).returns) : x.returns ∧ y.returns := by
  obtain ⟨r, h⟩ := h
  cases x <;> cases y <;> first | exact ⟨⟨_, rfl⟩, ⟨_, rfl⟩⟩ | cases h

theorem Means.append {x y : Nat → Out (List GErr)} {p q : Prop} {a b : List GErr} (hx : Means x p a) (hy : Means y q b) :
    Means (fun k => (x k).append (y k)) (p ∧ q) (a ++ b) := by
  constructor
  · rintro ⟨hp, hq⟩
    obtain ⟨N, hN⟩ := hx.1 hp
    obtain ⟨M, hM⟩ := hy.1 hq
    refine ⟨N + M, fun k hk => ?_⟩
    obtain ⟨l, h1, h2⟩ := hN k (by omega)
    obtain ⟨l', h3, h4⟩ := hM k (by omega)
    exact ⟨l ++ l', by dsimp only; rw [h1, h3]; rfl, h2.append h4⟩
  · intro h k hr
    obtain ⟨h1, h2⟩ := Out.append_returns hr
    by_cases hp : p
    · exact hy.2 (fun hq => h ⟨hp, hq⟩) k h2
    · exact hx.2 hp k h1

theorem Means.all {α : Type} {x : Nat → α → Out (List GErr)} {p : α → Prop} {es : α → List GErr} : ∀ (l : List α),
    (∀ a ∈ l, Means (fun k => x k a) (p a) (es a)) → Means (fun k => outAll (x k) l) (∀ a ∈ l, p a) (l.flatMap es)
  | [], _ => (Means.const (.refl [])).iff (by simp)
  | a :: l, h => by
    have := (h a (by simp)).append (Means.all l fun b hb => h b (by simp [hb]))
    exact this.iff (by simp)

/-- A test that does not depend on the fuel. -/
theorem Means.test {o : Out Bool} {ok : Prop} {p : Prop} (e : GErr) (h1 : ok → o = .ret (decide p)) (h2 : ¬ ok → ¬ o.returns) :
    Means (fun _ => o.bind fun b => .ret (if b then [] else [e])) ok (if p then [] else [e]) := by
  constructor
  · intro h
    refine ⟨0, fun _ _ => ⟨_, by rw [h1 h]; rfl, .of_eq ?_⟩⟩
    by_cases hp : p <;> simp [hp]
  · intro h k hr
    have := h2 h
    cases o with
    | ret a => exact this ⟨a, rfl⟩
    | panic => obtain ⟨_, h⟩ := hr; cases h
    | oof => obtain ⟨_, h⟩ := hr; cases h

/-! ### Names -/

theorem decode_small {b : Nat} {t : Bytes} (h : b < 128) : decodeRune (b :: t) = (b, 1) := by
  simp [decodeRune, h]

theorem decode_large {b : Nat} {t : Bytes} (h : 128 ≤ b) : 128 ≤ (decodeRune (b :: t)).1 := by
  have h0 : ¬ b < 128 := by omega
  simp only [decodeRune, h0, ↓reduceIte]
  repeat' split
  all_goals first | (simp [runeError]; done) | skip
  all_goals simp only [isCont, Bool.and_eq_true, decide_eq_true_eq] at *
  all_goals omega

theorem nameByte_lt {b : Nat} (h : Spec.nameByte b) : b < 128 := by
  unfold Spec.nameByte Spec.nameStartByte at h; omega

/-- The loop accepts a continuation of a name. -/
theorem nameLoop_rest : ∀ (s : Bytes) (fuel i : Nat), s.length ≤ fuel → 0 < i →
    (nameLoop (rangeRunes fuel i s) = true ↔ ∀ x ∈ s, Spec.nameByte x)
  | [], fuel, i, _, _ => by cases fuel <;> simp [rangeRunes, nameLoop]
  | b :: t, fuel + 1, i, hf, hi => by
    have ih := nameLoop_rest t fuel (i + 1) (by simpa using hf) (by omega)
    simp only [rangeRunes, List.mem_cons, forall_eq_or_imp]
    by_cases hb : b < 128
    · rw [decode_small hb]
      simp only [nameLoop, List.drop_one, List.tail_cons]
      by_cases h1 : Spec.nameStartByte b
      · rw [if_pos (by unfold Spec.nameStartByte at h1; simp; omega), ih]
        simp [Spec.nameByte, h1]
      · rw [if_neg (by unfold Spec.nameStartByte at h1; simp; omega)]
        by_cases h2 : 48 ≤ b ∧ b ≤ 57
        · rw [if_pos (by simp [hi, h2]), ih]
          simp [Spec.nameByte, h2]
        · rw [if_neg (by simp [hi]; omega)]
          simp [Spec.nameByte, h1, h2]
    · have h1 := decode_large (t := t) (by omega : 128 ≤ b)
      have h2 : ¬ Spec.nameByte b := fun h => hb (nameByte_lt h)
      generalize decodeRune (b :: t) = rw at h1
      obtain ⟨r, w⟩ := rw
      simp only [nameLoop]
      rw [if_neg (by simp at h1 ⊢; omega), if_neg (by simp at h1 ⊢; omega)]
      simp [h2]

theorem nameLoop_iff (s : Bytes) (hs : s ≠ []) : nameLoop (rangeRunes s.length 0 s) = true ↔ Spec.ValidName s := by
  cases s with
  | nil => exact absurd rfl hs
  | cons b t =>
    have hv : Spec.ValidName (b :: t) ↔ Spec.nameStartByte b ∧ ∀ x ∈ t, Spec.nameByte x := by
      unfold Spec.ValidName
      constructor
      · rintro ⟨b', t', h, h1, h2⟩; cases h; exact ⟨h1, h2⟩
      · rintro ⟨h1, h2⟩; exact ⟨b, t, rfl, h1, h2⟩
    rw [hv, List.length_cons]
    simp only [rangeRunes]
    by_cases hb : b < 128
    · rw [decode_small hb]
      simp only [nameLoop, List.drop_one, List.tail_cons]
      by_cases h1 : Spec.nameStartByte b
      · rw [if_pos (by unfold Spec.nameStartByte at h1; simp; omega), nameLoop_rest t t.length (0 + 1) (by omega) (by omega)]
        simp [h1]
      · rw [if_neg (by unfold Spec.nameStartByte at h1; simp; omega), if_neg (by simp)]
        simp [h1]
    · have h1 := decode_large (t := t) (by omega : 128 ≤ b)
      have h2 : ¬ Spec.nameStartByte b := fun h => hb (nameByte_lt (.inl h))
      generalize decodeRune (b :: t) = rw at h1
      obtain ⟨r, w⟩ := rw
      simp only [nameLoop]
      rw [if_neg (by simp at h1 ⊢; omega), if_neg (by simp)]
      simp [h2]

theorem validateName_eq (c : Ctx) (n : Bytes) : validateName c n = c.addErrors (Spec.nameErrors n) := by
  unfold validateName Spec.nameErrors
  have hr : Spec.Reserved n ↔ (n.length > 1 ∧ n[0]? = some 95 ∧ n[1]? = some 95) := by
    unfold Spec.Reserved
    match n with
    | [] => simp
    | [a] => simp
    | a :: b :: t => simp [eq_comm]
  by_cases h0 : n.length = 0
  · have : n = [] := List.eq_nil_of_length_eq_zero h0
    subst this
    rw [if_pos h0, if_neg (by simp [Spec.Reserved]), if_neg]
    · rfl
    · rintro ⟨b, t, h, _⟩; cases h
  · rw [if_neg h0]
    by_cases h1 : Spec.Reserved n
    · rw [if_pos (hr.1 h1), if_pos h1]; rfl
    · rw [if_neg (fun h => h1 (hr.2 h)), if_neg h1]
      have hv := nameLoop_iff n (fun h => h0 (by rw [h]; rfl))
      by_cases h2 : Spec.ValidName n
      · rw [if_pos (hv.2 h2), if_pos h2]; rfl
      · rw [if_neg (fun h => h2 (hv.1 h)), if_neg h2]; rfl

/-! ### Root types -/

theorem rootNotObject_iff (s : Schema) (r : Option Ty) : Spec.RootNotObject s r ↔ ∃ t k, r = some t ∧ s.kindOf t.namedType = some k ∧ k ≠ .object := by
  unfold Spec.RootNotObject
  simp only [← kindOf_iff, namedType_eq]

theorem optRoot (s : Schema) (r : Option Ty) (m : Bytes) (c : Ctx) :
    validateOptionalRoot c s r m = c.addErrors (if Spec.RootNotObject s r then [newError m] else []) := by
  unfold validateOptionalRoot
  by_cases h : Spec.RootNotObject s r
  · rw [if_pos h]
    obtain ⟨t, k, rfl, hk, hn⟩ := (rootNotObject_iff s r).1 h
    simp only [hk]
    rw [if_neg (by simpa using hn)]
    rfl
  · rw [if_neg h]
    rw [rootNotObject_iff] at h
    cases r with
    | none => rfl
    | some t =>
      dsimp only
      split
      · rename_i k hk
        rw [if_pos]
        · rfl
        · rw [beq_iff_eq]
          exact Decidable.byContradiction fun hn => h ⟨t, k, rfl, hk, hn⟩
      · rfl

theorem validateRootTypes_eq (c : Ctx) (s : Schema) : validateRootTypes c s = c.addErrors (Spec.rootTypeErrs s) := by
  unfold validateRootTypes Spec.rootTypeErrs
  dsimp only
  rw [optRoot, optRoot, ← addErrors_append, ← addErrors_append]
  congr 2
  unfold validateQueryRoot
  have hm : ∀ t : Ty, Spec.RootMissing s (some t) ↔ s.kindOf t.namedType = none := by
    intro t
    unfold Spec.RootMissing Schema.kindOf
    simp [namedType_eq]
  cases hq : s.queryType with
  | none =>
    rw [if_pos (by intro t h; cases h), if_neg]
    · rfl
    · rintro ⟨t, k, h, _⟩; cases h
  | some t =>
    dsimp only
    cases hk : s.kindOf t.namedType with
    | none =>
      rw [if_pos ((hm t).2 hk), if_neg]
      · rfl
      · rw [rootNotObject_iff]
        rintro ⟨t', k, h, hk', _⟩
        cases h
        rw [hk] at hk'; cases hk'
    | some k =>
      rw [if_neg (fun h => by rw [hm, hk] at h; cases h)]
      dsimp only
      by_cases ho : k = .object
      · rw [if_pos (by simp [ho]), if_neg]
        · rfl
        · rw [rootNotObject_iff]
          rintro ⟨t', k', h, hk', hn⟩
          cases h
          rw [hk] at hk'; cases hk'; exact hn ho
      · rw [if_neg (by simp [ho]), if_pos ((rootNotObject_iff _ _).2 ⟨t, k, rfl, hk, ho⟩)]
        rfl

/-! ### Directives -/

/-- The names that have not occurred before, in order. -/
def firsts : List Bytes → List Bytes → List Bytes
  | _, [] => []
  | known, n :: ns => if known.contains n then firsts known ns else n :: firsts (n :: known) ns

theorem mem_firsts (x : Bytes) : ∀ (ns known : List Bytes), x ∈ firsts known ns ↔ x ∈ ns ∧ x ∉ known
  | [], known => by simp [firsts]
  | n :: ns, known => by
    unfold firsts
    by_cases h : known.contains n = true
    · rw [if_pos h, mem_firsts x ns known]
      simp only [List.contains_iff_mem] at h
      constructor
      · rintro ⟨h1, h2⟩; exact ⟨by simp [h1], h2⟩
      · rintro ⟨h1, h2⟩
        rcases List.mem_cons.1 h1 with rfl | h1
        · exact absurd h h2
        · exact ⟨h1, h2⟩
    · rw [if_neg h, List.mem_cons, mem_firsts x ns]
      simp only [List.contains_iff_mem] at h
      by_cases e : x = n
      · subst e; simp [h]
      · simp [e]

theorem firsts_nodup : ∀ (ns known : List Bytes), (firsts known ns).Nodup
  | [], _ => by simp [firsts]
  | n :: ns, known => by
    unfold firsts
    split
    · exact firsts_nodup ns known
    · rw [List.nodup_cons]
      exact ⟨fun h => ((mem_firsts _ _ _).1 h).2 (by simp), firsts_nodup ns _⟩

theorem firsts_perm (ns : List Bytes) : (firsts [] ns).Perm ns.eraseDups := by
  refine (List.perm_ext_iff_of_nodup (firsts_nodup ns []) (eraseDups_nodup ns)).2 fun x => ?_
  rw [mem_firsts, List.mem_eraseDups]
  simp

/-- The errors of the loop over the arguments of a directive. -/
noncomputable def dirArgErrs (d : Bytes) : List Bytes → List Bytes → List GErr
  | _, [] => []
  | known, n :: ns =>
    if known.contains n then newError (b!"Argument @" ++ d ++ b!"(" ++ n ++ b!":) can only be defined once.") :: dirArgErrs d known ns
    else Spec.nameErrors n ++ dirArgErrs d (n :: known) ns

theorem directiveArgs_eq (d : Bytes) : ∀ (args : List InputVal) (c : Ctx) (known : List Bytes),
    (args.foldl (directiveArgStep d) (c, known)).1 = c.addErrors (dirArgErrs d known (args.map (·.name)))
  | [], c, known => rfl
  | a :: args, c, known => by
    rw [List.foldl_cons, List.map_cons]
    unfold directiveArgStep dirArgErrs
    by_cases h : known.contains a.name = true
    · simp only [h, ↓reduceIte]
      exact directiveArgs_eq d args _ _
    · simp only [h, Bool.false_eq_true, ↓reduceIte]
      refine (directiveArgs_eq d args _ _).trans ?_
      rw [validateName_eq, addErrors_append]

theorem dirArgErrs_perm (d : Bytes) : ∀ (ns known : List Bytes), (dirArgErrs d known ns).Perm
    ((firsts known ns).flatMap Spec.nameErrors ++
      (repeats known ns).map fun a => newError (b!"Argument @" ++ d ++ b!"(" ++ a ++ b!":) can only be defined once."))
  | [], known => .refl _
  | n :: ns, known => by
    unfold dirArgErrs firsts repeats
    by_cases h : known.contains n = true
    · simp only [h, ↓reduceIte, List.map_cons]
      exact ((dirArgErrs_perm d ns known).cons _).trans List.perm_middle.symm
    · simp only [h, Bool.false_eq_true, ↓reduceIte, List.flatMap_cons]
      rw [List.append_assoc]
      exact (dirArgErrs_perm d ns _).append_left _

theorem validateDirectives_eq (ord : Order DirDef) (s : Schema) : ∃ X : List GErr,
    (∀ c, validateDirectives ord c s = c.addErrors X) ∧ X.Perm (s.directives.flatMap Spec.directiveDefErrors) := by
  unfold validateDirectives
  have key : ∀ (l : List (Bytes × DirDef)), ∃ X : List GErr,
      (∀ c : Ctx, l.foldl (fun c p => (p.2.args.foldl (directiveArgStep p.1) (validateName c p.1, [])).1) c = c.addErrors X) ∧
        X.Perm (l.flatMap Spec.directiveDefErrors) := by
    intro l
    induction l with
    | nil => exact ⟨[], fun c => rfl, .refl _⟩
    | cons p l ih =>
      obtain ⟨X, h1, h2⟩ := ih
      refine ⟨(Spec.nameErrors p.1 ++ dirArgErrs p.1 [] (p.2.args.map (·.name))) ++ X, fun c => ?_, ?_⟩
      · rw [List.foldl_cons, directiveArgs_eq, validateName_eq, addErrors_append, h1, addErrors_append]
      rw [List.flatMap_cons]
      refine List.Perm.append ?_ h2
      unfold Spec.directiveDefErrors
      rw [List.append_assoc]
      refine List.Perm.append_left _ ((dirArgErrs_perm _ _ _).trans ?_)
      exact ((firsts_perm _).flatMap_right _).append ((repeats_perm _).map _)
  obtain ⟨X, h1, h2⟩ := key (ord.arrange s.directives)
  exact ⟨X, h1, h2.trans ((ord.perm s.directives).flatMap_right _)⟩

/-! ### Fields -/

theorem Adds.ite {p : Bool} {e : GErr} (c : Ctx) : (if p then c else c.addError e) = c.addErrors (if p then [] else [e]) := by
  cases p <;> rfl

/-- The errors of the loop over the arguments of a field. -/
noncomputable def fieldArgsOut (s : Schema) (tn fn : Bytes) : List Bytes → List InputVal → Out (List GErr)
  | _, [] => .ret []
  | known, a :: args =>
    ((Out.ret (Spec.nameErrors a.name ++
        if known.contains a.name then [newError (b!"Field argument " ++ tn ++ b!"." ++ fn ++ b!"(" ++ a.name ++ b!":) can only be defined once.")] else [])).append
      ((isInputType s a.type).bind fun b => .ret (if b then []
        else [newError (b!"The type of " ++ tn ++ b!"." ++ fn ++ b!"(" ++ a.name ++ b!":) must be Input Type.")]))).append
    (fieldArgsOut s tn fn (a.name :: known) args)

theorem fieldArgs_adds (s : Schema) (tn fn : Bytes) : ∀ (args : List InputVal) (known : List Bytes),
    Adds (fun c => (foldOut (fieldArgStep s tn fn) args (c, known)).bind fun p => .ret p.1) (fieldArgsOut s tn fn known args)
  | [], known => fun c => rfl
  | a :: args, known => by
    intro c
    have ih := fieldArgs_adds s tn fn args (a.name :: known)
    show ((fieldArgStep s tn fn (c, known) a).bind (foldOut (fieldArgStep s tn fn) args)).bind (fun p => .ret p.1) = _
    unfold fieldArgStep fieldArgsOut
    dsimp only
    cases ho : isInputType s a.type with
    | panic => rfl
    | oof => rfl
    | ret b =>
      have e : (if known.contains a.name = true
          then (validateName c a.name).addError (newError (b!"Field argument " ++ tn ++ b!"." ++ fn ++ b!"(" ++ a.name ++ b!":) can only be defined once."))
          else validateName c a.name) = c.addErrors (Spec.nameErrors a.name ++
            if known.contains a.name then [newError (b!"Field argument " ++ tn ++ b!"." ++ fn ++ b!"(" ++ a.name ++ b!":) can only be defined once.")] else []) := by
        rw [validateName_eq, ← addErrors_append]
        split <;> rfl
      simp only [Out.bind_ret]
      rw [e, Adds.ite, addErrors_append]
      refine (ih _).trans ?_
      cases fieldArgsOut s tn fn (a.name :: known) args with
      | ret l => exact congrArg Out.ret (addErrors_append _ _ _)
      | panic => rfl
      | oof => rfl

/-- The errors about one field. -/
noncomputable def fieldOut (s : Schema) (tn : Bytes) (f : FieldDef) : Out (List GErr) :=
  ((Out.ret (Spec.nameErrors f.name)).append
    ((isOutputType s f.type).bind fun b => .ret (if b then []
      else [newError (b!"The type of " ++ tn ++ b!"." ++ f.name ++ b!" must be Output Type.")]))).append
  (fieldArgsOut s tn f.name [] f.args)

theorem field_adds (s : Schema) (tn : Bytes) (f : FieldDef) : Adds (fun c => fieldStep s tn c f) (fieldOut s tn f) := by
  intro c
  unfold fieldStep fieldOut
  dsimp only
  cases ho : isOutputType s f.type with
  | panic => rfl
  | oof => rfl
  | ret b =>
    simp only [Out.bind_ret]
    rw [validateName_eq, Adds.ite, addErrors_append]
    refine (fieldArgs_adds s tn f.name f.args [] _).trans ?_
    cases fieldArgsOut s tn f.name [] f.args with
    | ret l => exact congrArg Out.ret (addErrors_append _ _ _)
    | panic => rfl
    | oof => rfl

/-- The errors about the fields of a type. -/
noncomputable def fieldsOut (s : Schema) (t : TypeDef) : Out (List GErr) :=
  (Out.ret (if t.fields = [] then [newError (b!"Type " ++ t.name ++ b!" must define one or more fields.")] else [])).append (outAll (fieldOut s t.name) t.fields)

theorem fields_adds (s : Schema) (t : TypeDef) : Adds (fun c => validateFields c s t) (fieldsOut s t) := by
  have h1 : Adds (fun c => .ret (if t.fields.length = 0 then c.addError (newError (b!"Type " ++ t.name ++ b!" must define one or more fields.")) else c))
      (.ret (if t.fields = [] then [newError (b!"Type " ++ t.name ++ b!" must define one or more fields.")] else [])) := by
    refine Adds.pure fun c => ?_
    cases t.fields <;> rfl
  exact h1.then (Adds.fold t.fields fun f _ => field_adds s t.name f)

theorem fieldArgs_means (s : Schema) (tn fn : Bytes) : ∀ (args : List InputVal) (known : List Bytes),
    Means (fun _ => fieldArgsOut s tn fn known args) (∀ a ∈ args, (Spec.innerName a.type).isSome)
      ((args.flatMap fun a => Spec.nameErrors a.name ++
        if Spec.InputType s a.type then []
        else [newError (b!"The type of " ++ tn ++ b!"." ++ fn ++ b!"(" ++ a.name ++ b!":) must be Input Type.")]) ++
      (repeats known (args.map (·.name))).map fun a =>
        newError (b!"Field argument " ++ tn ++ b!"." ++ fn ++ b!"(" ++ a ++ b!":) can only be defined once."))
  | [], known => (Means.const (.refl [])).iff (by simp)
  | a :: args, known => by
    have ih := fieldArgs_means s tn fn args (a.name :: known)
    have ht := Means.test (o := isInputType s a.type) (ok := (Spec.innerName a.type).isSome) (p := Spec.InputType s a.type)
      (newError (b!"The type of " ++ tn ++ b!"." ++ fn ++ b!"(" ++ a.name ++ b!":) must be Input Type.")) (isInputType_spec s a.type).1
      (fun h hr => by
        have := (isInputType_spec s a.type).2 (by simpa using h)
        rw [this] at hr; obtain ⟨_, h⟩ := hr; cases h)
    have h1 := (((Means.const (.refl (Spec.nameErrors a.name ++
        if known.contains a.name then [newError (b!"Field argument " ++ tn ++ b!"." ++ fn ++ b!"(" ++ a.name ++ b!":) can only be defined once.")] else []))).append ht).append ih)
    refine (h1.iff (by simp)).perm fun _ => ?_
    rw [List.flatMap_cons, List.map_cons]
    have hr : (repeats known (a.name :: args.map (·.name))) = (if known.contains a.name then [a.name] else []) ++ repeats (a.name :: known) (args.map (·.name)) := by
      rw [repeats]
      by_cases hk : known.contains a.name = true
      · rw [if_pos hk, if_pos hk, List.singleton_append]
        congr 1
        refine repeats_congr _ _ _ fun n => ?_
        rw [List.contains_iff_mem] at hk
        constructor
        · intro h; simp [h]
        · intro h
          rcases List.mem_cons.1 h with rfl | h
          · exact hk
          · exact h
      · rw [if_neg hk, if_neg hk, List.nil_append]
    rw [hr, List.map_append]
    generalize Spec.nameErrors a.name = A
    have hd : ((if known.contains a.name = true then [a.name] else []).map fun a =>
        newError (b!"Field argument " ++ tn ++ b!"." ++ fn ++ b!"(" ++ a ++ b!":) can only be defined once.")) =
        if known.contains a.name then [newError (b!"Field argument " ++ tn ++ b!"." ++ fn ++ b!"(" ++ a.name ++ b!":) can only be defined once.")] else [] := by
      split <;> rfl
    rw [hd]
    generalize (if known.contains a.name = true then [newError (b!"Field argument " ++ tn ++ b!"." ++ fn ++ b!"(" ++ a.name ++ b!":) can only be defined once.")] else []) = D
    generalize (if Spec.InputType s a.type then [] else _ : List GErr) = T
    generalize (List.flatMap _ args : List GErr) = F
    generalize (List.map _ (repeats (a.name :: known) _) : List GErr) = R
    -- ((A ++ D) ++ T) ++ (F ++ R) ~ ((A ++ T) ++ F) ++ (D ++ R)
    simp only [List.append_assoc]
    refine List.Perm.append_left A ?_
    rw [← List.append_assoc T F, ← List.append_assoc T F, ← List.append_assoc D, ← List.append_assoc (T ++ F) D]
    exact List.perm_append_comm.append_right R

theorem field_means (s : Schema) (tn : Bytes) (f : FieldDef) :
    Means (fun _ => fieldOut s tn f) ((Spec.innerName f.type).isSome ∧ ∀ a ∈ f.args, (Spec.innerName a.type).isSome)
      (Spec.nameErrors f.name ++
    (if Spec.OutputType s f.type then [] else [newError (b!"The type of " ++ tn ++ b!"." ++ f.name ++ b!" must be Output Type.")]) ++
    (f.args.flatMap fun a => Spec.nameErrors a.name ++
      if Spec.InputType s a.type then []
      else [newError (b!"The type of " ++ tn ++ b!"." ++ f.name ++ b!"(" ++ a.name ++ b!":) must be Input Type.")]) ++
    (Spec.repeated (f.args.map (·.name))).map fun a =>
      newError (b!"Field argument " ++ tn ++ b!"." ++ f.name ++ b!"(" ++ a ++ b!":) can only be defined once.")) := by
  have ht := Means.test (o := isOutputType s f.type) (ok := (Spec.innerName f.type).isSome) (p := Spec.OutputType s f.type)
      (newError (b!"The type of " ++ tn ++ b!"." ++ f.name ++ b!" must be Output Type.")) (isOutputType_spec s f.type).1
      (fun h hr => by
        have := (isOutputType_spec s f.type).2 (by simpa using h)
        rw [this] at hr; obtain ⟨_, h⟩ := hr; cases h)
  refine ((((Means.const (.refl (Spec.nameErrors f.name))).append ht).append (fieldArgs_means s tn f.name f.args [])).iff (by simp)).perm fun _ => ?_
  rw [← List.append_assoc]
  exact List.Perm.append_left _ ((repeats_perm _).map _)

theorem fields_means (s : Schema) (t : TypeDef) :
    Means (fun _ => fieldsOut s t) (∀ f ∈ t.fields, (Spec.innerName f.type).isSome ∧ ∀ a ∈ f.args, (Spec.innerName a.type).isSome) (Spec.fieldErrors s t) :=
  ((Means.const (.refl _)).append (Means.all t.fields fun f _ => field_means s t.name f)).iff (by simp)

/-! ### Interfaces -/

section
variable (run : RunOrders) (s : Schema)

/-- The errors about one field of an interface. -/
def interfaceFieldOut (fuel : Nat) (t i : TypeDef) (f : FieldDef) : Out (List GErr) :=
  match t.fieldByName f.name with
  | none => .ret [newError (b!"Interface field " ++ i.name ++ b!"." ++ f.name ++ b!" expected but " ++ t.name ++ b!" does not provide it.")]
  | some g =>
    (isTypeSubTypeOf run.ptr (run.impls g.type f.type) s fuel g.type f.type).bind fun ok => .ret (if ok then []
      else [newError (b!"Interface field " ++ i.name ++ b!"." ++ f.name ++ b!" expects type " ++ f.type.str ++ b!" but " ++ t.name ++ b!"." ++
          g.name ++ b!" is type " ++ g.type.str)])

theorem interfaceField_adds (fuel : Nat) (t i : TypeDef) (f : FieldDef) :
    Adds (fun c => interfaceFieldStep fuel run s t i c f) (interfaceFieldOut run s fuel t i f) := by
  intro c
  unfold interfaceFieldStep interfaceFieldOut
  dsimp only
  cases t.fieldByName f.name with
  | none => rfl
  | some g =>
    dsimp only
    cases isTypeSubTypeOf run.ptr (run.impls g.type f.type) s fuel g.type f.type with
    | ret b => cases b <;> rfl
    | panic => rfl
    | oof => rfl

/-- The errors about one interface. -/
def implementsOut (fuel : Nat) (t i : TypeDef) : Out (List GErr) := outAll (interfaceFieldOut run s fuel t i) i.fields

theorem implements_adds (fuel : Nat) (t i : TypeDef) : Adds (fun c => validateObjectImplementsInterface fuel run c s t i) (implementsOut run s fuel t i) :=
  Adds.fold i.fields fun f _ => interfaceField_adds run s fuel t i f

/-- No field of the interface leads to a stuck comparison. -/
def SettledFor (t i : TypeDef) : Prop :=
  ∀ f ∈ i.fields, ∀ g, t.fields.find? (fun g => g.name == f.name) = some g → ¬ Spec.StuckSub s g.type f.type

theorem implements_means (hs : Spec.WellFormed s) (t i : TypeDef) (hk : t.kind = .object) (ht : ∀ g ∈ t.fields, (Spec.innerName g.type).isSome)
    (hi : ∀ f ∈ i.fields, (Spec.innerName f.type).isSome) :
    Means (fun k => implementsOut run s k t i) (SettledFor s t i) (Spec.implementationErrors s t i) := by
  refine Means.all i.fields (p := fun f => ∀ g, t.fields.find? (fun g => g.name == f.name) = some g → ¬ Spec.StuckSub s g.type f.type) fun f hf => ?_
  unfold interfaceFieldOut TypeDef.fieldByName
  simp only [hk, beq_self_eq_true, Bool.true_or, ↓reduceIte]
  cases hg : t.fields.find? (fun g => g.name == f.name) with
  | none => exact (Means.const (.refl _)).iff (by simp)
  | some g =>
    dsimp only
    obtain ⟨h1, h2⟩ := sub_spec run.ptr (run.impls g.type f.type) hs f.type g.type (ht g (List.mem_of_find?_eq_some hg)) (hi f hf)
    have e : (∀ g', some g = some g' → ¬ Spec.StuckSub s g'.type f.type) ↔ ¬ Spec.StuckSub s g.type f.type := by simp
    refine Means.iff ?_ e.symm
    constructor
    · intro h
      obtain ⟨N, hN⟩ := h2 h
      refine ⟨N, fun k hk => ⟨_, by dsimp only; rw [hN k hk]; rfl, .of_eq ?_⟩⟩
      by_cases hp : Spec.Subtype s g.type f.type <;> simp [hp, says_only, reference_eq]
    · intro h k hr
      dsimp only at hr
      rw [h1 (Decidable.not_not.1 h) k] at hr
      obtain ⟨_, h⟩ := hr; cases h

/-- The errors of the loop over the implemented types. -/
def interfacesOut (fuel : Nat) (t : TypeDef) : List Bytes → List Ty → Out (List GErr)
  | _, [] => .ret []
  | known, i :: l =>
    if !isInterfaceType s i then
      (Out.ret [newError (b!"Type " ++ t.name ++ b!" must only implement Interface types, it cannot implement " ++ i.namedType)]).append
        (interfacesOut fuel t known l)
    else if known.contains i.namedType then
      (Out.ret [newError (b!"Type " ++ t.name ++ b!" can only implement " ++ i.namedType ++ b!" once.")]).append (interfacesOut fuel t known l)
    else
      match s.types.lookup i.namedType with
      | none => .panic
      | some d => (implementsOut run s fuel t d).append (interfacesOut fuel t (i.namedType :: known) l)

theorem interfaces_adds (fuel : Nat) (t : TypeDef) : ∀ (l : List Ty) (known : List Bytes),
    Adds (fun c => (foldOut (objectInterfaceStep fuel run s t) l (c, known)).bind fun p => .ret p.1) (interfacesOut run s fuel t known l)
  | [], _ => fun _ => rfl
  | i :: l, known => by
    intro c
    show ((objectInterfaceStep fuel run s t (c, known) i).bind (foldOut (objectInterfaceStep fuel run s t) l)).bind (fun p => .ret p.1) = _
    have go : ∀ (e : GErr), (foldOut (objectInterfaceStep fuel run s t) l (c.addError e, known)).bind (fun p => .ret p.1) =
        ((Out.ret [e]).append (interfacesOut run s fuel t known l)).bind fun es => .ret (c.addErrors es) := by
      intro e
      refine (interfaces_adds fuel t l known (c.addError e)).trans ?_
      cases interfacesOut run s fuel t known l <;> rfl
    unfold interfacesOut
    rw [show objectInterfaceStep fuel run s t (c, known) i = _ from by unfold objectInterfaceStep; rfl]
    dsimp only
    by_cases h1 : (!isInterfaceType s i) = true
    · rw [if_pos h1, if_pos h1]
      exact go _
    · rw [if_neg h1, if_neg h1]
      by_cases h2 : known.contains i.namedType = true
      · rw [if_pos h2, if_pos h2]
        exact go _
      · rw [if_neg h2, if_neg h2]
        cases s.types.lookup i.namedType with
        | none => rfl
        | some d =>
          dsimp only
          rw [show validateObjectImplementsInterface fuel run c s t d = _ from implements_adds run s fuel t d c]
          cases implementsOut run s fuel t d with
          | panic => rfl
          | oof => rfl
          | ret es =>
            refine (interfaces_adds fuel t l (i.namedType :: known) (c.addErrors es)).trans ?_
            cases interfacesOut run s fuel t (i.namedType :: known) l with
            | panic => rfl
            | oof => rfl
            | ret es' => exact congrArg Out.ret (addErrors_append _ _ _)

/-- What has to hold for the type named `n`, if it is an interface. -/
def SettledName (t : TypeDef) (n : Bytes) : Prop := ∀ i, s.types.lookup n = some i → i.kind = .interface → SettledFor s t i

theorem perm_second {α : Type} (e : α) (A B C : List α) : ([e] ++ (A ++ B ++ C)).Perm (A ++ (e :: B) ++ C) := by
  rw [List.append_assoc A B C, List.append_assoc A (e :: B) C]
  show (e :: (A ++ (B ++ C))).Perm (A ++ e :: (B ++ C))
  exact List.perm_middle.symm

theorem perm_third {α : Type} (A B C D : List α) : (A ++ (B ++ C ++ D)).Perm (B ++ C ++ (A ++ D)) := by
  rw [← List.append_assoc A (B ++ C) D, ← List.append_assoc (B ++ C) A D]
  exact List.perm_append_comm.append_right D

theorem interfaces_means (hs : Spec.WellFormed s) (hc : Spec.Complete s) (t : TypeDef) (hk : t.kind = .object)
    (ht : ∀ g ∈ t.fields, (Spec.innerName g.type).isSome) : ∀ (l : List Ty) (known : List Bytes),
    Means (fun k => interfacesOut run s k t known l) (∀ i ∈ l, Spec.tyName i ∉ known → SettledName s t (Spec.tyName i))
      ((((l.map Spec.tyName).filter fun n => ¬ Spec.IsKind s n .interface).map fun n =>
          newError (b!"Type " ++ t.name ++ b!" must only implement Interface types, it cannot implement " ++ n)) ++
        ((repeats known ((l.map Spec.tyName).filter fun n => Spec.IsKind s n .interface)).map fun n =>
          newError (b!"Type " ++ t.name ++ b!" can only implement " ++ n ++ b!" once.")) ++
        (firsts known ((l.map Spec.tyName).filter fun n => Spec.IsKind s n .interface)).flatMap fun n => match s.types.lookup n with
          | some i => Spec.implementationErrors s t i
          | none => [])
  | [], _ => (Means.const (.refl _)).iff (by simp)
  | i :: l, known => by
    simp only [List.map_cons, List.filter_cons]
    have hname := namedType_eq i
    by_cases h1 : isInterfaceType s i = true
    · have hi : Spec.IsKind s (Spec.tyName i) .interface := (isInterfaceType_iff s i).1 h1
      by_cases h2 : known.contains (Spec.tyName i) = true
      · have e : ∀ k, interfacesOut run s k t known (i :: l) =
            (Out.ret [newError (b!"Type " ++ t.name ++ b!" can only implement " ++ Spec.tyName i ++ b!" once.")]).append (interfacesOut run s k t known l) := by
          intro k; rw [interfacesOut]; simp only [h1, h2, hname, Bool.not_true, Bool.false_eq_true, ↓reduceIte]
        simp only [e, hi, not_true_eq_false, decide_false, decide_true, Bool.false_eq_true, ↓reduceIte, repeats, firsts, h2, List.map_cons]
        refine (((Means.const (.refl _)).append (interfaces_means hs hc t hk ht l known)).iff ?_).perm fun _ => ?_
        · rw [List.contains_iff_mem] at h2
          simp [h2]
        · exact perm_second _ _ _ _
      · obtain ⟨d, hd, hdk⟩ := hi
        have hi : Spec.IsKind s (Spec.tyName i) .interface := ⟨d, hd, hdk⟩
        have e : ∀ k, interfacesOut run s k t known (i :: l) =
            (implementsOut run s k t d).append (interfacesOut run s k t (Spec.tyName i :: known) l) := by
          intro k; rw [interfacesOut]; simp only [h1, h2, hname, hd, Bool.not_true, Bool.false_eq_true, ↓reduceIte]
        simp only [e, hi, not_true_eq_false, decide_false, decide_true, Bool.false_eq_true, ↓reduceIte, repeats, firsts, h2, List.flatMap_cons, hd]
        have hmem : (Spec.tyName i, d) ∈ s.types := (mem_iff_lookup hs.types _ _).2 hd
        have him := implements_means run s hs t d hk ht fun f hf => (hc _ hmem (.inr hdk) f hf).1
        refine ((him.append (interfaces_means hs hc t hk ht l (Spec.tyName i :: known))).iff ?_).perm fun _ => ?_
        · have h2 : Spec.tyName i ∉ known := fun h => h2 (List.contains_iff_mem.2 h)
          have hsn : SettledName s t (Spec.tyName i) ↔ SettledFor s t d := by
            unfold SettledName
            rw [hd]
            constructor
            · intro h; exact h d rfl hdk
            · intro h i' hi' _; cases hi'; exact h
          rw [← hsn]
          constructor
          · rintro ⟨ha, hb⟩ j hj hjk
            rcases List.mem_cons.1 hj with rfl | hj
            · exact ha
            · by_cases e : Spec.tyName j = Spec.tyName i
              · rw [e]; exact ha
              · exact hb j hj (by simp [e, hjk])
          · intro h
            refine ⟨h i (by simp) h2, fun j hj hjk => h j (by simp [hj]) fun hx => hjk (by simp [hx])⟩
        · generalize Spec.implementationErrors s t d = A
          generalize (List.map _ (repeats _ _) : List GErr) = B
          generalize (List.map _ (List.filter _ _) : List GErr) = C
          generalize (List.flatMap _ _ : List GErr) = D
          exact perm_third A C B D
    · have hi : ¬ Spec.IsKind s (Spec.tyName i) .interface := fun h => h1 ((isInterfaceType_iff s i).2 h)
      have e : ∀ k, interfacesOut run s k t known (i :: l) =
          (Out.ret [newError (b!"Type " ++ t.name ++ b!" must only implement Interface types, it cannot implement " ++ Spec.tyName i)]).append
            (interfacesOut run s k t known l) := by
        intro k; rw [interfacesOut]; simp only [h1, hname, Bool.not_false, ↓reduceIte]
      simp only [e, hi, not_false_eq_true, decide_false, decide_true, Bool.false_eq_true, ↓reduceIte, List.map_cons]
      refine (((Means.const (.refl _)).append (interfaces_means hs hc t hk ht l known)).iff ?_).perm fun _ => .of_eq ?_
      · have : SettledName s t (Spec.tyName i) := fun d hd hdk => absurd ⟨d, hd, hdk⟩ hi
        simp [this]
      · simp only [List.cons_append, List.nil_append]

/-! ### Types -/

theorem introspection_iff (n : Bytes) : isIntrospectionTypeName n = true ↔ n ∈ Spec.introspectionNames := by
  simp [isIntrospectionTypeName, Spec.introspectionNames, or_assoc]

/-- The errors about one type. -/
noncomputable def typeOut (fuel : Nat) (p : Bytes × TypeDef) : Out (List GErr) :=
  (Out.ret (if p.1 ∈ Spec.introspectionNames then [] else Spec.nameErrors p.1)).append <|
    match p.2.kind with
    | .object => (fieldsOut s p.2).append (interfacesOut run s fuel p.2 [] p.2.ifaces)
    | .interface => fieldsOut s p.2
    | _ => .ret []

theorem type_adds (fuel : Nat) (p : Bytes × TypeDef) : Adds (fun c => typeStep fuel run s c p) (typeOut run s fuel p) := by
  have h1 : Adds (fun c => .ret (if !isIntrospectionTypeName p.1 then validateName c p.1 else c))
      (.ret (if p.1 ∈ Spec.introspectionNames then [] else Spec.nameErrors p.1)) := by
    refine Adds.pure fun c => ?_
    by_cases h : p.1 ∈ Spec.introspectionNames
    · rw [if_pos h, if_neg (by simp [(introspection_iff _).2 h])]; rfl
    · rw [if_neg h, if_pos (by simpa using fun h' => h ((introspection_iff _).1 h'))]; exact validateName_eq _ _
  unfold typeOut
  cases hk : p.2.kind with
  | object =>
    intro c
    refine Eq.trans ?_ (h1.then ((fields_adds s p.2).then (interfaces_adds run s fuel p.2 p.2.ifaces [])) c)
    unfold typeStep
    dsimp only
    rw [hk]
    rfl
  | interface =>
    intro c
    refine Eq.trans ?_ (h1.then (fields_adds s p.2) c)
    unfold typeStep
    dsimp only
    rw [hk]
    rfl
  | _ =>
    intro c
    refine Eq.trans ?_ (h1.then (Adds.pure (f := id) fun _ => rfl) c)
    unfold typeStep
    dsimp only
    rw [hk]
    rfl

theorem type_means (hs : Spec.WellFormed s) (hc : Spec.Complete s) (p : Bytes × TypeDef) (hp : p ∈ s.types) :
    Means (fun k => typeOut run s k p) (p.2.kind = .object → ∀ i ∈ p.2.ifaces, SettledName s p.2 (Spec.tyName i)) (Spec.typeErrors s p) := by
  unfold typeOut Spec.typeErrors
  cases hk : p.2.kind with
  | object =>
    have hcf := hc p hp (.inl hk)
    have hi := interfaces_means run s hs hc p.2 hk (fun g hg => (hcf g hg).1) p.2.ifaces []
    refine (((Means.const (.refl _)).append ((fields_means s p.2).append hi)).iff ?_).perm fun _ => ?_
    · simp only [List.not_mem_nil, not_false_eq_true, forall_const, true_and]
      exact and_iff_right hcf
    · simp only [↓reduceIte, reduceCtorEq, or_false]
      rw [List.append_assoc (if p.1 ∈ Spec.introspectionNames then [] else Spec.nameErrors p.1)]
      refine List.Perm.append_left _ (List.Perm.append_left _ ?_)
      unfold Spec.interfaceErrors Spec.interfaces
      exact ((List.Perm.refl _).append ((repeats_perm _).map _)).append ((firsts_perm _).flatMap_right _)
  | interface =>
    have hcf := hc p hp (.inr hk)
    refine (((Means.const (.refl _)).append (fields_means s p.2)).iff ?_).perm fun _ => .of_eq (by simp)
    simp only [reduceCtorEq, false_imp_iff, true_and, iff_true]
    exact hcf
  | _ => exact (((Means.const (.refl _)).append (Means.const (.refl []))).iff (by simp)).perm fun _ => .of_eq (by simp)

theorem outAll_returns {α β : Type} {f : α → Out (List β)} : ∀ {l : List α}, (outAll f l).returns → ∀ a ∈ l, (f a).returns
  | [], _ => by simp
  | a :: l, h => by
    obtain ⟨h1, h2⟩ := Out.append_returns h
    intro b hb
    rcases List.mem_cons.1 hb with rfl | hb
    · exact h1
    · exact outAll_returns h2 b hb

theorem types_means (hs : Spec.WellFormed s) :
    Means (fun k => outAll (typeOut run s k) (run.types.arrange s.types)) (Spec.Complete s ∧ Spec.Settled s) (s.types.flatMap (Spec.typeErrors s)) := by
  by_cases hc : Spec.Complete s
  · have hperm := run.types.perm s.types
    refine ((Means.all (run.types.arrange s.types) fun p hp => type_means run s hs hc p (hperm.mem_iff.1 hp)).iff ?_).perm fun _ =>
      hperm.flatMap_right _
    constructor
    · intro h
      refine ⟨hc, fun p hp hk t ht i hi hik f hf g hg => ?_⟩
      exact h p (hperm.mem_iff.2 hp) hk t ht i hi hik f hf g hg
    · rintro ⟨_, h⟩ p hp hk t ht i hi hik f hf g hg
      exact h p (hperm.mem_iff.1 hp) hk t ht i hi hik f hf g hg
  · refine ⟨fun h => absurd h.1 hc, fun _ k hr => ?_⟩
    refine hc fun p hp hk => ?_
    have hr := outAll_returns hr p ((run.types.perm s.types).mem_iff.2 hp)
    have hf : (fieldsOut s p.2).returns := by
      unfold typeOut at hr
      have h2 := (Out.append_returns hr).2
      rcases hk with hk | hk <;> rw [hk] at h2
      · exact (Out.append_returns h2).1
      · exact h2
    exact Decidable.byContradiction fun hn => (fields_means s p.2).2 hn 0 hf

/-- What `ValidateSchema` does: with `Complete` and `Settled`, it adds the errors of the specification; otherwise it gives no result, however long it runs. -/
theorem validateSchema_means (hs : Spec.WellFormed s) : ∃ x : Nat → Out (List GErr),
    (∀ k c, validateSchema k run c s = (x k).bind fun es => .ret (c.addErrors es)) ∧ Means x (Spec.Complete s ∧ Spec.Settled s) (Spec.schemaErrors s) := by
  obtain ⟨X, hX, hXp⟩ := validateDirectives_eq run.dirs s
  refine ⟨fun k => (Out.ret (Spec.rootTypeErrs s ++ X)).append (outAll (typeOut run s k) (run.types.arrange s.types)), fun k c => ?_, ?_⟩
  · have h := (Adds.pure (f := fun c => validateDirectives run.dirs (validateRootTypes c s) s) (es := Spec.rootTypeErrs s ++ X)
      fun c => by rw [hX, validateRootTypes_eq, addErrors_append]).then
        (Adds.fold (f := typeStep k run s) (run.types.arrange s.types) fun p _ => type_adds run s k p)
    exact h c
  · refine ((Means.const (hXp.append_left _)).append (types_means run s hs)).iff ?_
    simp

end

end GQL
