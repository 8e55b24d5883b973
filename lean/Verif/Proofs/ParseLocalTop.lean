/-
Locality of definitions and documents.
-/
import Verif.Proofs.ParseLocalDefs

namespace GQL
open Spec Spec.Syntax

section
variable (pf : Bytes → Option Nat)

theorem parseTypeSystemDefinition_branch (n : Nat) (desc : Bytes) : parseTypeSystemDefinition pf n desc =
    branch (isTok .name b!"schema") (parseSchemaDefinition pf n >>= fun s => pure (.schema s))
    (branch (isTok .name b!"directive") (parseDirectiveDefinition pf n desc >>= fun d => pure (.directive d))
    (branch (isOneOf typeKeywords) (parseTypeDefinition pf n desc >>= fun t => pure (.type t)) crash)) := by
  unfold parseTypeSystemDefinition
  rw [peek_branch peeks_peek1, peek_branch peeks_peek1, peek_branch (peeks_peekn typeKeywords_ne)]

theorem loc_parseTypeSystemDefinition (n m : Nat) (desc : Bytes) : Loc m (parseTypeSystemDefinition pf n desc) (parseTypeSystemDefinition pf m desc) := by
  rw [parseTypeSystemDefinition_branch, parseTypeSystemDefinition_branch]
  refine loc_branch (loc_bind (loc_parseSchemaDefinition pf n m) (fun _ => shr_pure _) (fun _ => loc_pure _)) ?_
    (headEats_bind (headEats_parseSchemaDefinition pf n) (fun _ => shr_pure _)) (headEats_bind (headEats_parseSchemaDefinition pf m) (fun _ => shr_pure _))
  refine loc_branch (loc_bind (loc_parseDirectiveDefinition pf n m desc) (fun _ => shr_pure _) (fun _ => loc_pure _)) ?_
    (headEats_bind (headEats_parseDirectiveDefinition pf n desc) (fun _ => shr_pure _)) (headEats_bind (headEats_parseDirectiveDefinition pf m desc) (fun _ => shr_pure _))
  exact loc_branch (loc_bind (loc_parseTypeDefinition pf n m desc) (fun _ => shr_pure _) (fun _ => loc_pure _)) loc_crash
    (headEats_bind (headEats_parseTypeDefinition pf n desc) (fun _ => shr_pure _)) (headEats_bind (headEats_parseTypeDefinition pf m desc) (fun _ => shr_pure _))

theorem headEats_parseTypeSystemDefinition (n : Nat) (desc : Bytes) (ls : List Bytes) : HeadEats (isOneOf ls) (parseTypeSystemDefinition pf n desc) := by
  rw [parseTypeSystemDefinition_branch]
  intro t r _
  by_cases h1 : isTok .name b!"schema" t = true
  · exact went_congr (branch_pos h1) (headEats_bind (headEats_parseSchemaDefinition pf n) (fun _ => shr_pure _) t r h1)
  refine went_congr (branch_neg h1) ?_
  by_cases h2 : isTok .name b!"directive" t = true
  · exact went_congr (branch_pos h2) (headEats_bind (headEats_parseDirectiveDefinition pf n desc) (fun _ => shr_pure _) t r h2)
  refine went_congr (branch_neg h2) ?_
  by_cases h3 : isOneOf typeKeywords t = true
  · exact went_congr (branch_pos h3) (headEats_bind (headEats_parseTypeDefinition pf n desc) (fun _ => shr_pure _) t r h3)
  exact went_congr (branch_neg h3) trivial

theorem parseTypeSystemExtension_branch (n : Nat) : parseTypeSystemExtension pf n = mustConsume1 .name b!"extend" >>= fun _ =>
    branch (isTok .name b!"schema") (parseSchemaExtension pf n >>= fun s => pure (.schemaExt s))
    (branch (isOneOf typeKeywords) (parseTypeExtension pf n >>= fun t => pure (.typeExt t))
      (unexpectedCur [expected .name (b!"schema" :: typeKeywords)])) := by
  unfold parseTypeSystemExtension
  rw [skip1_mustConsume, peek_branch peeks_peek1, peek_branch (peeks_peekn typeKeywords_ne)]

theorem loc_parseTypeSystemExtension (n m : Nat) : Loc m (parseTypeSystemExtension pf n) (parseTypeSystemExtension pf m) := by
  rw [parseTypeSystemExtension_branch, parseTypeSystemExtension_branch]
  have s1 := shr_parseSchemaExtension pf m; have s2 := shr_parseTypeExtension pf m
  refine loc_bind loc_mustNm (fun _ => shr_branch (by shr) (shr_branch (by shr) (shr_unexpectedCur _))) (fun _ => ?_)
  intro ts ht
  refine locX_branch (fun _ => loc_bind (loc_parseSchemaExtension pf n m) (fun _ => shr_pure _) (fun _ => loc_pure _) ts ht) (fun _ => ?_)
    (headEats_bind (headEats_parseSchemaExtension pf n) (fun _ => shr_pure _)) (headEats_bind (headEats_parseSchemaExtension pf m) (fun _ => shr_pure _)) ht
  refine locX_branch (fun _ => loc_bind (loc_parseTypeExtension pf n m) (fun _ => shr_pure _) (fun _ => loc_pure _) ts ht) (fun _ => ?_)
    (headEats_bind (headEats_parseTypeExtension pf n) (fun _ => shr_pure _)) (headEats_bind (headEats_parseTypeExtension pf m) (fun _ => shr_pure _)) ht
  refine locAtX_unexpectedCur ht (fun x hx t' hw => ?_)
  rw [List.mem_singleton] at hx
  subst hx
  obtain ⟨h1, h2⟩ := wanted_names hw (by decide) (by decide)
  rcases List.mem_cons.1 h2 with h2 | h2
  · exact .inr (.inl (isTok_iff.2 ⟨h1, h2⟩))
  · exact .inl (isOneOf_iff.2 ⟨h1, h2⟩)

theorem headEats_parseTypeSystemExtension (n : Nat) : HeadEats (isTok .name b!"extend") (parseTypeSystemExtension pf n) := by
  rw [parseTypeSystemExtension_branch]
  have s1 := shr_parseSchemaExtension pf n; have s2 := shr_parseTypeExtension pf n
  exact headEats_bind headEats_mustConsume1 (fun _ => shr_branch (by shr) (shr_branch (by shr) (shr_unexpectedCur _)))

/-- The keywords after a description. -/
def defWords (d : Bytes) : List Bytes := typeKeywords ++ [b!"directive"] ++ (if d = [] then [b!"schema"] else [])

theorem defWords_ne (d : Bytes) : defWords d ≠ [] := by
  unfold defWords; simp

/-- What is asked for when nothing fits. -/
def defWants : List Bytes := [expected .name [b!"query", b!"mutation", b!"fragment"], expected .punctuator [b!"{"]]

/-- A type system definition, after the description. -/
def described (n : Nat) (d : Bytes) : P Body := branch (isOneOf (defWords d)) (parseTypeSystemDefinition pf n d) (unexpectedCur defWants)

theorem parseDefinitionBody_branch (n : Nat) : parseDefinitionBody pf n =
    branch (isOneOf [b!"query", b!"mutation", b!"subscription"]) (parseOperationDefinition pf n false >>= fun o => pure (.op o))
    (branch (isTok .punctuator b!"{") (parseOperationDefinition pf n true >>= fun o => pure (.op o))
    (branch (isTok .name b!"fragment") (parseFragmentDefinition pf n >>= fun f => pure (.frag f))
    (branch (isTok .name b!"extend") (parseTypeSystemExtension pf n)
    (branch (isKind .stringValue) (took >>= fun t => described pf n t.lit) (described pf n []))))) := by
  funext ts
  unfold parseDefinitionBody
  rw [bind_eq (cur_eq ts), peek_branch ((peeks_peekn (by decide)).orP peeks_peek1), branch_or]
  have e : (consume0 .stringValue >>= fun desc => peekn .name (typeKeywords ++ [b!"directive"] ++ (if (desc.map (·.lit)).getD [] = [] then [b!"schema"] else [])) >>=
      fun b => if b = true then parseTypeSystemDefinition pf n ((desc.map (·.lit)).getD []) else unexpectedCur defWants) =
      branch (isKind .stringValue) (took >>= fun t => described pf n t.lit) (described pf n []) := by
    rw [consume0_took .stringValue]
    congr 1
    · congr 1
      funext t
      exact peek_branch (peeks_peekn (defWords_ne t.lit)) _ _
    · exact peek_branch (peeks_peekn (defWords_ne [])) _ _
  by_cases h1 : isOneOf [b!"query", b!"mutation", b!"subscription"] (hd ts) = true
  · rw [branch_pos h1, branch_pos h1]
    have : ((hd ts).lit == b!"{") = false := by
      have := (isOneOf_iff.1 h1).2
      simp only [List.mem_cons, List.not_mem_nil, or_false] at this
      rcases this with h | h | h <;> rw [h] <;> rfl
    rw [this]
  rw [branch_neg h1, branch_neg h1]
  by_cases h2 : isTok .punctuator b!"{" (hd ts) = true
  · rw [branch_pos h2, branch_pos h2]
    have : ((hd ts).lit == b!"{") = true := by rw [(isTok_iff.1 h2).2]; rfl
    rw [this]
  rw [branch_neg h2, branch_neg h2, peek_branch peeks_peek1]
  by_cases h3 : isTok .name b!"fragment" (hd ts) = true
  · rw [branch_pos h3, branch_pos h3]
  rw [branch_neg h3, branch_neg h3, peek_branch peeks_peek1]
  by_cases h4 : isTok .name b!"extend" (hd ts) = true
  · rw [branch_pos h4, branch_pos h4]
  rw [branch_neg h4, branch_neg h4]
  exact congrFun e ts

theorem shr_described (n : Nat) (d : Bytes) : Shr (described pf n d) := shr_branch (shr_parseTypeSystemDefinition pf n d) (shr_unexpectedCur _)

theorem defWants_tok {x : Bytes} {t : Token} (hx : x ∈ defWants) (hw : Wanted x t) :
    (t.kind = .name ∧ (t.lit = b!"query" ∨ t.lit = b!"mutation" ∨ t.lit = b!"fragment")) ∨ (t.kind = .punctuator ∧ t.lit = b!"{") := by
  simp only [defWants, List.mem_cons, List.not_mem_nil, or_false] at hx
  rcases hx with rfl | rfl
  · obtain ⟨h1, h2⟩ := wanted_names hw (by decide) (by decide)
    simp only [List.mem_cons, List.not_mem_nil, or_false] at h2
    exact .inl ⟨h1, h2⟩
  · exact .inr (wanted_one hw)

theorem locX_described {χ : Token → Prop} (n m : Nat) (d : Bytes) {ts : Toks} (ht : HasEnd ts)
    (h : ∀ x ∈ defWants, ∀ t', Wanted x t' → χ t') : LocAtX χ m (described pf n d) (described pf m d) ts :=
  locX_branch (fun _ => loc_parseTypeSystemDefinition pf n m d ts ht) (fun _ => locAtX_unexpectedCur ht (fun x hx t' hw => .inr (h x hx t' hw)))
    (headEats_parseTypeSystemDefinition pf n d _) (headEats_parseTypeSystemDefinition pf m d _) ht

theorem loc_parseDefinitionBody (n m : Nat) : Loc m (parseDefinitionBody pf n) (parseDefinitionBody pf m) := by
  rw [parseDefinitionBody_branch, parseDefinitionBody_branch]
  intro ts ht
  refine locX_branch (fun _ => loc_bind (loc_parseOperationDefinition pf n m false) (fun _ => shr_pure _) (fun _ => loc_pure _) ts ht) (fun _ => ?_)
    (headEats_bind (headEats_op pf n) (fun _ => shr_pure _)) (headEats_bind (headEats_op pf m) (fun _ => shr_pure _)) ht
  refine locX_branch (fun _ => loc_bind (loc_parseOperationDefinition pf n m true) (fun _ => shr_pure _) (fun _ => loc_pure _) ts ht) (fun _ => ?_)
    (headEats_bind (headEats_shorthand pf n) (fun _ => shr_pure _)) (headEats_bind (headEats_shorthand pf m) (fun _ => shr_pure _)) ht
  refine locX_branch (fun _ => loc_bind (loc_parseFragmentDefinition pf n m) (fun _ => shr_pure _) (fun _ => loc_pure _) ts ht) (fun _ => ?_)
    (headEats_bind (headEats_parseFragmentDefinition pf n) (fun _ => shr_pure _)) (headEats_bind (headEats_parseFragmentDefinition pf m) (fun _ => shr_pure _)) ht
  refine locX_branch (fun _ => loc_parseTypeSystemExtension pf n m ts ht) (fun _ => ?_)
    (headEats_parseTypeSystemExtension pf n) (headEats_parseTypeSystemExtension pf m) ht
  refine locX_branch (fun hs => ?_) (fun _ => ?_) (headEats_took fun t => shr_described pf n t.lit) (headEats_took fun t => shr_described pf m t.lit) ht
  · refine locAt_bindX (locAt_took ht (tn_kind hs)) (fun t => shr_described pf m t.lit) (fun t r e => ?_)
    cases ts with
    | nil => exact absurd rfl ht.ne_nil
    | cons t0 r0 =>
      cases e
      refine ⟨m, by omega, fun c ec => ?_⟩
      have hc : c = [t0] := List.append_cancel_right (ec.symm.trans (show t0 :: r0 = [t0] ++ r0 from rfl))
      refine locX_described pf n m _ (ht.drop_eaten (c := [t0]) (fun u hu => by rw [List.mem_singleton] at hu; subst hu; exact tn_kind hs)) (fun x hx t' hw => ?_)
      left
      refine ⟨⟨[], t0, hc, isKind_iff.1 hs⟩, ?_⟩
      rcases defWants_tok hx hw with ⟨-, h | h | h⟩ | ⟨-, h⟩
      · exact .inl h
      · exact .inr (.inl h)
      · exact .inr (.inr (.inl h))
      · exact .inr (.inr (.inr h))
  · refine locX_described pf n m _ ht (fun x hx t' hw => ?_)
    simp only [isTok_iff, isOneOf_iff, List.mem_cons, List.not_mem_nil, or_false]
    rcases defWants_tok hx hw with ⟨h0, h | h | h⟩ | ⟨h0, h⟩
    · exact .inr (.inr (.inr (.inr (.inl ⟨h0, .inl h⟩))))
    · exact .inr (.inr (.inr (.inr (.inl ⟨h0, .inr (.inl h)⟩))))
    · exact .inr (.inr (.inl ⟨h0, h⟩))
    · exact .inr (.inr (.inr (.inl ⟨h0, h⟩)))

/-- The first token gives the position. -/
theorem loc_parseDefinition (n m : Nat) : Loc m (parseDefinition pf n) (parseDefinition pf m) := by
  intro ts ht
  have hb := loc_parseDefinitionBody pf n m ts ht
  have hp : Progress (parseDefinitionBody pf n) := (parseDefinitionBody_sound n).progress fun _ _ _ => defn_eats
  have e : ∀ n ts, parseDefinition pf n ts = (parseDefinitionBody pf n >>= fun b => pure (⟨⟨(hd ts).line, (hd ts).col⟩, b⟩ : Definition)) ts := fun n ts => rfl
  constructor
  · intro a r h
    rw [e, bind_ok] at h
    obtain ⟨b, r1, h1, h2⟩ := h
    cases h2
    obtain ⟨c, e1, hc, l, x⟩ := hb.ok b r h1
    have hlt := hp _ _ _ h1
    cases c with
    | nil => have : ts.length = r.length := by rw [e1]; rfl
             omega
    | cons t c =>
      have e2 : hd ts = t := by rw [e1]; rfl
      refine ⟨t :: c, e1, hc, ?_, ?_⟩
      · intro r' hr hl hh
        rw [e, bind_eq (l r' hr hl hh), e2]; rfl
      · intro t' y htn hy hl
        rcases x t' y htn hy hl with h3 | h3
        · left
          refine went_congr (e m _) (went_bind h3 (fun _ => shr_pure _))
        · right
          rw [e, bind_eq h3, e2]; rfl
  · intro er r h
    rw [e, bind_err] at h
    rcases h with h | ⟨b, r1, -, h⟩
    · obtain ⟨c, s, h1, h2, h3, h4, h5⟩ := hb.err er r h
      refine ⟨c, s, h1, h2, h3, ?_, ?_⟩
      · intro ts' ht' hl hs
        obtain ⟨r', h6⟩ := h4 ts' ht' hl hs
        exact ⟨r', by rw [e]; exact bind_err_eq h6⟩
      · intro s0 t es t' ha hd hn y hy hl
        exact went_congr (e m _) (went_bind (h5 s0 t es t' ha hd hn y hy hl) (fun _ => shr_pure _))
    · cases h

/-- One round of the loop of `Parse`. -/
def round (n : Nat) : P Definition := do
  let d ← parseDefinition pf n
  if ← peek0 .illegal then unexpectedCur []
  else return d

theorem loc_round (n m : Nat) : Loc m (round pf n) (round pf m) := by
  have s : ∀ d : Definition, Shr (peek0 .illegal >>= fun b => if b = true then unexpectedCur [] else pure d : P Definition) := fun d =>
    shr_bind shr_peek0 fun _ => shr_ite (shr_unexpectedCur _) (shr_pure _)
  refine loc_bind (loc_parseDefinition pf n m) s (fun d => ?_)
  refine loc_head (fun t => if t.kind = .illegal then .refuse (.unexpected t []) else .keep d) (fun t r => ?_) (fun t a h => ?_) (fun t a h t' htn => ?_)
    (fun t e h => ?_)
  · by_cases hk : t.kind = .illegal
    · rw [if_pos hk, bind_eq (peek0_ok.2 ⟨rfl, (show ((hd (t :: r)).kind == .illegal) = true by simp [hd, hk]).symm⟩)]; rfl
    · rw [if_neg hk, bind_eq (peek0_ok.2 ⟨rfl, (show ((hd (t :: r)).kind == .illegal) = false by simp [hd, hk]).symm⟩)]; rfl
  · split at h <;> cases h
  · right
    split at h
    · cases h
    · rw [if_neg htn.2]; exact h
  · split at h
    · cases h
      exact ⟨⟨rfl, by decide⟩, by rintro t' ⟨x, hx, -⟩; cases hx⟩
    · cases h

theorem progress_round (n : Nat) : Progress (round pf n) := (step_sound n).progress fun _ _ _ h => locDefn_eats h.1
theorem shr_round (n : Nat) : Shr (round pf n) :=
  shr_bind (shr_parseDefinition pf n) fun _ => shr_bind shr_peek0 fun _ => shr_ite (shr_unexpectedCur _) (shr_pure _)

end

theorem errAt_eof {β : Type} {φ : Token → Prop} {m : Nat} {b : β} {Y Y' : P β} {ts : Toks} (h : ErrAtX φ m Y Y' ts) :
    ErrAtX φ m (branch isEof (pure b) Y) (branch isEof (pure b) Y') ts := by
  intro e r hb
  by_cases hk : isEof (hd ts) = true
  · rw [branch_pos hk] at hb; cases hb
  · rw [branch_neg hk] at hb
    obtain ⟨c, s, h1, h2, h3, h4, h5⟩ := h e r hb
    have hp : s <+: ts := h1 ▸ h3.prefix
    refine ⟨c, s, h1, h2, h3, ?_, ?_⟩
    · intro ts' ht hl hs
      obtain ⟨r', h6⟩ := h4 ts' ht hl hs
      refine ⟨r', ?_⟩
      rw [branch_neg (by rw [hd_of_prefix h3.ne_nil hp hs]; exact hk)]
      exact h6
    · intro s0 t es t' ha hd' hn y hy hl
      refine went_congr (branch_neg ?_) (h5 s0 t es t' ha hd' hn y hy hl)
      cases s0 with
      | nil =>
        have := (asked_tn ha).1
        show ¬ isEof t' = true
        simpa [isEof] using this
      | cons u s0 =>
        have : hd ts = u := by
          obtain ⟨z, rfl⟩ := hp
          rw [es]; rfl
        rw [this] at hk
        exact hk

theorem errAt_zero {α : Type} {φ : Token → Prop} {m : Nat} {p q q' : P α} {ts : Toks} (h : ErrAtX φ m p q ts) : ErrAtX φ 0 p q' ts := by
  intro e r hp
  obtain ⟨c, s, h1, h2, h3, -, -⟩ := h e r hp
  exact ⟨c, s, h1, h2, h3, fun _ _ hl => absurd hl (by omega), fun _ _ _ _ _ _ _ _ _ hl => absurd hl (by omega)⟩

theorem errAt_loop {α β : Type} {m : Nat} {body body' : P α} (h1 : Loc m body body') (hp : Progress body) (s1 : Shr body') (k : Nat) :
    ∀ (h : List α → β) (k' : Nat), k' ≤ m → ∀ (φ : Token → Prop) ts, HasEnd ts → ErrAtX φ k' (doWhileF body (peek0 .eof) k >>= fun as => pure (h as))
      (doWhileF body' (peek0 .eof) k' >>= fun as => pure (h as)) ts := by
  have pk : Peeks (peek0 .eof) isEof := fun _ => rfl
  induction k with
  | zero => intro h k' _ φ ts _ e r he; cases he
  | succ k ih =>
    have sh : ∀ (h : List α → β) k' a, Shr (branch isEof (pure (h [a]) : P β) (doWhileF body' (peek0 .eof) k' >>= fun as => pure (h (a :: as)))) := fun h k' a =>
      shr_branch (shr_pure _) (shr_bind (shr_doWhileF s1 shr_peek0 k') fun _ => shr_pure _)
    have key : ∀ (h : List α → β) (φ : Token → Prop) ts, HasEnd ts → ErrAtX φ 0 (doWhileF body (peek0 .eof) (k + 1) >>= fun as => pure (h as))
        (doWhileF body' (peek0 .eof) 1 >>= fun as => pure (h as)) ts := by
      intro h φ ts ht
      rw [doWhilePeek_branch pk, doWhilePeek_branch pk]
      refine errAt_bind ((h1.mono (Nat.zero_le _) ts ht).weaken) (sh h 0) (fun a r e => ⟨0, by omega, fun c ec => errAt_eof ?_⟩)
      exact ih (fun as => h (a :: as)) 0 (Nat.zero_le _) _ r (loc_hasEnd (h1 ts ht) ht e)
    intro h k' hk φ ts ht
    cases k' with
    | zero => exact errAt_zero (key h φ ts ht)
    | succ k' =>
      rw [doWhilePeek_branch pk, doWhilePeek_branch pk]
      refine errAt_bind ((h1.mono hk ts ht).weaken) (sh h k') (fun a r e => ⟨k', by have := hp _ _ _ e; omega, fun c ec => errAt_eof ?_⟩)
      exact ih (fun as => h (a :: as)) k' (by omega) _ r (loc_hasEnd (h1 ts ht) ht e)

theorem errAt_parseDefs (pf : Bytes → Option Nat) (n m : Nat) {ts : Toks} (ht : HasEnd ts) : ErrAtX never m (parseDefs pf n) (parseDefs pf m) ts := by
  have h := errAt_loop (loc_round pf n m) (progress_round pf n) (shr_round pf m) (ts.length + 1) (fun as => as) m (Nat.le_refl _) never ts ht
  have pb : ∀ {α : Type} (p : P α), (p >>= fun a => pure a) = p := fun p => by
    funext ts
    show P.bind p _ ts = _
    unfold P.bind
    cases p ts <;> rfl
  rw [pb, pb] at h
  have e2 : ∀ ts', ts'.length < m → parseDefs pf m ts' = doWhileF (round pf m) (peek0 .eof) m ts' := fun ts' hl =>
    doWhileF_fuel (progress_round pf m) shr_peek0 _ _ ts' (Nat.lt_succ_self _) hl
  intro e r hp
  obtain ⟨c, s, h1, h2, h3, h4, h5⟩ := h e r hp
  refine ⟨c, s, h1, h2, h3, ?_, ?_⟩
  · intro ts' ht' hl hs
    rw [e2 ts' hl]
    exact h4 ts' ht' hl hs
  · intro s0 t es t' ha hd hn y hy hl
    exact went_congr (e2 _ hl) (h5 s0 t es t' ha hd hn y hy hl)

end GQL
