/-
Printed values, arguments and directives are derived by the grammar.
-/
import Verif.Proofs.DumpLex
import Verif.Props.C60

namespace GQL
open Spec

/-! ### Tokens -/

/-- All names among the tokens are names. -/
def Names (ts : Toks) : Prop := ∀ t ∈ ts, t.kind = .name → NameText t.lit

theorem Names.go {ts r : Toks} (h : Names ts) (e : Eats ts r) : Names r := fun t ht => h t (e.mem ht)
theorem Names.go1 {ts r : Toks} (h : Names ts) (e : Eats1 ts r) : Names r := h.go e.eats
theorem Names.tok {k : TokenKind} {l : Bytes} {ts r : Toks} (h : Names ts) (e : Tok1 k l ts r) : Names r := by
  obtain ⟨t, rfl, -, -⟩ := e
  exact fun u hu => h u (by simp [hu])
theorem Names.nm {n : Bytes} {ts r : Toks} (h : Names ts) (e : Nm n ts r) : NameText n := by
  obtain ⟨t, rfl, h1, rfl⟩ := e
  exact h t (by simp) h1

theorem tok1_tk {k : TokenKind} {l : Bytes} {r : Toks} : Tok1 k l (tk k l :: r) r := ⟨_, rfl, rfl, rfl⟩

theorem notNext_tk {k k' : TokenKind} {l l' : Bytes} {r : Toks} (h : k ≠ k' ∨ l ≠ l') : NotNext1 k' l' (tk k l :: r) := by
  rintro r' ⟨t, e, h1, h2⟩
  cases e
  rcases h with h | h
  · exact h h1
  · exact h h2

theorem notKind_tk {k k' : TokenKind} {l : Bytes} {r : Toks} (h : k ≠ k') : NotKind k' (tk k l :: r) := by
  rintro l' r' ⟨t, e, h1, h2⟩
  cases e
  exact h h1

/-- The punctuators that go on with a construct. -/
def openers : List Bytes := [b!":", b!"(", b!"@", b!"{", b!"=", b!"|", b!"&", b!"!"]

/-- The next token begins something new. -/
def Fresh (rest : Toks) : Prop := ∀ l ∈ openers, NotNext1 .punctuator l rest

theorem fresh_kind {k : TokenKind} {l : Bytes} {r : Toks} (h : k ≠ .punctuator) : Fresh (tk k l :: r) := fun _ _ => notNext_tk (.inl h)
theorem fresh_pt {l : Bytes} {r : Toks} (h : l ∉ openers := by decide) : Fresh (pt l :: r) := fun _ hl => notNext_tk (.inr fun e => h (e ▸ hl))

/-- Tokens that are absent or begin with the punctuator `l`. -/
def Opt (l : Bytes) (x : Toks) : Prop := x = [] ∨ ∃ r, Tok1 .punctuator l x r

theorem Opt.notNext {l l' : Bytes} {k : TokenKind} {x rest : Toks} (h : Opt l x) (hl : k ≠ .punctuator ∨ l ≠ l') (hr : NotNext1 k l' rest) : NotNext1 k l' (x ++ rest) := by
  rcases h with rfl | ⟨r, t, rfl, h1, h2⟩
  · exact hr
  · rintro r' ⟨u, e, h3, h4⟩
    cases e
    rcases hl with h | h
    · exact h (h3.symm.trans h1)
    · exact h (h2.symm.trans h4)

theorem Opt.notKind {l : Bytes} {k : TokenKind} {x rest : Toks} (h : Opt l x) (hk : k ≠ .punctuator) (hr : NotKind k rest) : NotKind k (x ++ rest) := by
  rcases h with rfl | ⟨r, t, rfl, h1, h2⟩
  · exact hr
  · rintro l' r' ⟨u, e, h3, h4⟩
    cases e
    exact hk (h3.symm.trans h1)

/-! ### Lists -/

theorem many_mem {α : Type} {R : Toks → α → Toks → Prop} (hR : ∀ ts a r, R ts a r → Eats ts r) {ts rest : Toks} {as : List α} (h : Many R ts as rest) (hn : Names ts) :
    ∀ a ∈ as, ∃ ts' r, Names ts' ∧ R ts' a r := by
  induction h with
  | nil => intro a ha; cases ha
  | cons h1 _ ih =>
    intro a ha
    rcases List.mem_cons.1 ha with rfl | ha
    · exact ⟨_, _, hn, h1⟩
    · exact ih (hn.go (hR _ _ _ h1)) a ha

section
variable {α : Type} {R : Toks → α → Toks → Prop} {Q : Toks → Prop} {f : α → Out Bytes}


/-- Items, each but the last followed by a separator. -/
theorem many_after {sep : Bytes} (hsep : J true false (write sep) []) (n : Nat) : ∀ (l : List α) (i : Nat), i + l.length = n →
    (∀ a ∈ l, ∃ x, J false true (f a) x ∧ (∀ rest, Q (x ++ rest)) ∧ ∀ rest, Q rest → R (x ++ rest) a rest) →
    ∃ x, J false true (forEachFrom (fun a i => f a +++ (if i < n - 1 then write sep else skipOut)) i l) x ∧ (∀ rest, Q rest → Q (x ++ rest)) ∧
      ∀ rest, Q rest → Many R (x ++ rest) l rest
  | [], i, _, _ => ⟨[], J.skip'.weak, fun _ h => h, fun rest _ => .nil rest⟩
  | [a], i, hi, h => by
    obtain ⟨x, j, q, m⟩ := h a (by simp)
    refine ⟨x, ?_, fun rest _ => q rest, fun rest hr => .cons (m _ hr) (.nil _)⟩
    rw [forEachFrom, if_neg (by simp at hi; omega)]
    exact ((j.seq J.skip).seq J.skip).eqs rfl (by simp)
  | a :: b :: as, i, hi, h => by
    obtain ⟨x, j, q, m⟩ := h a (by simp)
    obtain ⟨y, j2, q2, m2⟩ := many_after hsep n (b :: as) (i + 1) (by simp at hi ⊢; omega) fun b hb => h b (by simp at hb ⊢; simp [hb])
    refine ⟨x ++ y, ?_, fun rest _ => by rw [List.append_assoc]; exact q _, fun rest hr => ?_⟩
    · rw [forEachFrom, if_pos (by simp at hi; omega)]
      exact ((j.seq hsep).seq j2).eqs rfl (by simp)
    · rw [List.append_assoc]
      exact .cons (m _ (q2 rest hr)) (m2 rest hr)

/-- Items, a separator before each but the first; `g i` is what is written before the item with index `i`. -/
theorem many_before {g : Nat → Out Bytes} (hsep : ∀ i, J true false (g (i + 1)) []) : ∀ (l : List α) (i : Nat),
    (∀ a ∈ l, ∃ x, J false true (f a) x ∧ (∀ rest, Q (x ++ rest)) ∧ ∀ rest, Q rest → R (x ++ rest) a rest) →
    ∃ x, J true true (forEachFrom (fun a i => g i +++ f a) (i + 1) l) x ∧ (∀ rest, Q rest → Q (x ++ rest)) ∧
      ∀ rest, Q rest → Many R (x ++ rest) l rest
  | [], i, _ => ⟨[], J.skip, fun _ h => h, fun rest _ => .nil rest⟩
  | a :: as, i, h => by
    obtain ⟨x, j, q, m⟩ := h a (by simp)
    obtain ⟨y, j2, q2, m2⟩ := many_before hsep as (i + 1) fun b hb => h b (by simp [hb])
    refine ⟨x ++ y, ?_, fun rest _ => by rw [List.append_assoc]; exact q _, fun rest hr => ?_⟩
    · rw [forEachFrom]
      exact (((hsep i).seq j).seq j2).eqs rfl (by simp)
    · rw [List.append_assoc]
      exact .cons (m _ (q2 rest hr)) (m2 rest hr)

/-- Items, a separator before each but the first, from the first. -/
theorem many_before0 {g : Nat → Out Bytes} (h0 : g 0 = skipOut) (hsep : ∀ i, J true false (g (i + 1)) []) {l : List α} (hl : l ≠ [])
    (h : ∀ a ∈ l, ∃ x, J false true (f a) x ∧ (∀ rest, Q (x ++ rest)) ∧ ∀ rest, Q rest → R (x ++ rest) a rest) :
    ∃ x, J false true (forEach (fun a i => g i +++ f a) l) x ∧ (∀ rest, Q (x ++ rest)) ∧ ∀ rest, Q rest → Many R (x ++ rest) l rest := by
  cases l with
  | nil => exact absurd rfl hl
  | cons a as =>
    obtain ⟨x, j, q, m⟩ := h a (by simp)
    obtain ⟨y, j2, q2, m2⟩ := many_before hsep as 0 fun b hb => h b (by simp [hb])
    refine ⟨x ++ y, ?_, fun rest => by rw [List.append_assoc]; exact q _, fun rest hr => ?_⟩
    · rw [forEach, forEachFrom, h0]
      exact ((J.skip'.seq j).seq j2).eqs rfl (by simp)
    · rw [List.append_assoc]
      exact .cons (m _ (q2 rest hr)) (m2 rest hr)

/-- Items, a line feed after each. -/
theorem many_lines : ∀ (l : List α) (i : Nat),
    (∀ a ∈ l, ∃ x, J false true (f a) x ∧ (∀ rest, Q (x ++ rest)) ∧ ∀ rest, Q rest → R (x ++ rest) a rest) →
    ∃ x, J false false (forEachFrom (fun a _ => f a +++ write b!"\n") i l) x ∧ (∀ rest, Q rest → Q (x ++ rest)) ∧
      ∀ rest, Q rest → Many R (x ++ rest) l rest
  | [], i, _ => ⟨[], J.skip', fun _ h => h, fun rest _ => .nil rest⟩
  | a :: as, i, h => by
    obtain ⟨x, j, q, m⟩ := h a (by simp)
    obtain ⟨y, j2, q2, m2⟩ := many_lines as (i + 1) fun b hb => h b (by simp [hb])
    refine ⟨x ++ y, ?_, fun rest _ => by rw [List.append_assoc]; exact q _, fun rest hr => ?_⟩
    · rw [forEachFrom]
      exact ((j.seq (J.blank c!"\n" rfl (by decide) (by decide))).seq j2).eqs rfl (by simp)
    · rw [List.append_assoc]
      exact .cons (m _ (q2 rest hr)) (m2 rest hr)

end

/-! ### Literals -/

theorem J.space : J true false (write b!" ") [] := J.blank c!" " rfl (by decide) (by decide)
theorem J.comma : J true false (write b!", ") [] := J.blank c!", " rfl (by decide) (by decide)
theorem J.newline : J true false (write b!"\n") [] := J.blank c!"\n" rfl (by decide) (by decide)
theorem J.indent (d : Nat) : J false false (write (indentOf d)) [] :=
  J.blanks _ (indentOf_eq d) fun c hc => by rw [List.eq_of_mem_replicate hc]; decide
theorem J.colon : J true false (write b!": ") [pt b!":"] := ((J.punct ':').seq J.space).eqs rfl rfl
theorem J.equals : J true false (write b!" = ") [pt b!"="] := (J.space.seq ((J.punct '=').seq J.space)).eqs rfl rfl

theorem nameText_of {n : Bytes} (c : Char) (w : List Char) (e : n = utf8 (c :: w) := by decide) (h1 : nameStart c = true := by decide)
    (h2 : ∀ d ∈ w, nameCont d = true := by decide) : NameText n := ⟨c, w, e, h1, h2⟩

/-! ### Numbers -/

theorem digits_chars : ∀ {t : Bytes}, (∀ b ∈ t, 48 ≤ b ∧ b ≤ 57) → ∃ cs : List Char, t = utf8 cs ∧ cs.map Char.toNat = t ∧ ∀ c ∈ cs, c.isDigit = true
  | [], _ => ⟨[], rfl, rfl, by simp⟩
  | b :: t, h => by
    have one : ∀ b, b < 58 → 48 ≤ b → (Char.ofNat b).toNat = b ∧ (Char.ofNat b).isDigit = true := by decide
    obtain ⟨cs, h1, h2, h3⟩ := digits_chars (t := t) fun x hx => h x (by simp [hx])
    have hb := h b (by simp)
    obtain ⟨o1, o2⟩ := one b (by omega) hb.1
    refine ⟨Char.ofNat b :: cs, ?_, by simp [h2, o1], ?_⟩
    · rw [utf8_cons, utf8Char_ascii _ (by omega), o1, ← h1]; rfl
    · intro c hc
      rcases List.mem_cons.1 hc with rfl | hc
      · exact o2
      · exact h3 c hc

theorem digit_not_nul {cs : List Char} (h : ∀ c ∈ cs, c.isDigit = true) : '\x00' ∉ cs := fun h0 => absurd (h _ h0) (by decide)

theorem decimal_lexeme (n : Nat) : ∃ cs, decimal n = utf8 cs ∧ (∀ c ∈ cs, c.isDigit = true) ∧ IsIntegerPart cs ∧ IsIntegerPart ('-' :: cs) := by
  obtain ⟨⟨h1, h2⟩, h3⟩ := decimal_natural n
  obtain ⟨cs, e1, e2, e3⟩ := digits_chars h2
  refine ⟨cs, e1, e3, ?_⟩
  cases cs with
  | nil => rw [e1] at h1; exact absurd rfl h1
  | cons c cs =>
    by_cases hc : c = '0'
    · subst hc
      have := h3 (by rw [← e2]; rfl)
      rw [← e2] at this
      cases cs with
      | nil => exact ⟨.zero, .negZero⟩
      | cons d cs => simp at this
    · have hd := e3 c (by simp)
      exact ⟨.pos c cs hd hc fun d hd => e3 d (by simp [hd]), .neg c cs hd hc fun d hd => e3 d (by simp [hd])⟩

theorem decimal_decVal (n : Nat) : AllDigits (decimal n) ∧ (n : Int) = decVal (decimal n) := by
  have h := (decimal_natural n).1
  refine ⟨h, ?_⟩
  have := decimal_value n
  unfold digitsValue at this
  rw [foldl_dec] at this
  omega

/-- An integer. -/
theorem J.int (i : Int) : J false true (write (itoa i)) [tk .intValue (itoa i)] ∧ IntLit (itoa i) i := by
  obtain ⟨cs, e, hd, p1, p2⟩ := decimal_lexeme i.natAbs
  obtain ⟨a1, a2⟩ := decimal_decVal i.natAbs
  have nn : ∀ rest, Soft rest → notNext (fun c => c.isDigit || c == '.' || c == 'e' || c == 'E') rest := by
    intro rest hr
    refine hr.notNext fun c hc => ?_
    obtain ⟨-, h1, h2, h3, h4, -⟩ := soft_name c hc
    simp [h1, h2, h3, h4]
  unfold itoa
  split
  · have e' : (45 :: decimal i.natAbs) = utf8 ('-' :: cs) := by rw [utf8_cons, ← e]; rfl
    refine ⟨?_, .inr (.inr ⟨_, rfl, a1, by omega⟩)⟩
    have := J.token (e := true) ('-' :: cs) .int ('-' :: cs) e' (by simp [digit_not_nul hd]) fun rest hr => .int _ rest p2 (nn rest (hr rfl))
    rwa [← e'] at this
  · refine ⟨?_, .inl ⟨a1, by omega⟩⟩
    have := J.token (e := true) cs .int cs e (digit_not_nul hd) fun rest hr => .int _ rest p1 (nn rest (hr rfl))
    rwa [← e] at this

section
variable {pf : Bytes → Option Nat} {fmtG : Nat → Bytes}

/-- A float. -/
theorem J.float {f : Nat} (h : FloatOk fmtG pf f) : J false true (write (fmtG f)) [tk .floatValue (fmtG f)] := by
  obtain ⟨cs, e, hl, hz, -⟩ := h
  have nn : ∀ rest, Soft rest → notNext (fun c => c.isDigit || c == 'e' || c == 'E') rest := by
    intro rest hr
    refine hr.notNext fun c hc => ?_
    obtain ⟨-, h1, h2, h3, h4, -⟩ := soft_name c hc
    simp [h1, h3, h4]
  have nd : ∀ rest, Soft rest → notNext Char.isDigit rest := fun rest hr => hr.notNext fun c hc => (soft_name c hc).2.1
  have := J.token (e := true) cs .float cs e hz fun rest hr => by
    have hr := hr rfl
    generalize htok : (⟨.float, cs⟩ : Tok) = tok at hl
    generalize hcs : cs = text at hl
    generalize hnil : ([] : List Char) = r at hl
    cases hl with
    | fraction i f _ h1 h2 _ =>
      cases hnil; cases htok
      rw [show i ++ f ++ [] = i ++ f by simp]
      exact .fraction i f rest h1 h2 (nn rest hr)
    | exponent i f _ h1 h2 _ =>
      cases hnil; cases htok
      rw [show i ++ f ++ [] = i ++ f by simp]
      exact .exponent i f rest h1 h2 (nd rest hr)
    | fracExp i f g _ h1 h2 h3 _ =>
      cases hnil; cases htok
      rw [show i ++ f ++ g ++ [] = i ++ f ++ g by simp]
      exact .fracExp i f g rest h1 h2 h3 (nd rest hr)
    | _ => cases htok
  rwa [← e] at this

/-- A string. -/
theorem J.str {cs : List Char} (d : Nat) (hz : '\x00' ∉ cs) (h : StrOk cs) : J false true (write (dumpString d (utf8 cs))) [st (utf8 cs)] := by
  unfold StrOk at h
  split at h
  · rename_i hn
    refine (J.token (e := false) _ .string cs (dumpString_block d hn) ?_ fun rest _ => ?_).weak
    · exact block_not_nul d hz
    · have := block_lexeme (esc := true) (k := 2 * d + 2) (m := 2 * d) (by omega) h.1 h.2 rest
      simpa [escIf] using this
  · rename_i hn
    refine J.token (e := true) _ .string cs (dumpString_quoted d hn) ?_ fun rest hr => ?_
    · exact quoted_not_nul hz
    · have := quoted_lexeme (cs := cs) (rest := rest) h ((hr rfl).notNext fun c hc => by simpa using (soft_name c hc).2.2.2.2.2)
      simpa using this

/-! ### Values -/

mutual
theorem val_dump {c : Bool} {ts : Toks} {v : Value} {rest : Toks} (d : Nat) : Val pf true c ts v rest → Names ts → ValOk fmtG pf v →
    ∃ x, J false true (dumpValue fmtG d v) x ∧ ∀ rest', Val pf true c (x ++ rest') v rest'
  | .var h0 h1 h2, hn, _ =>
    ⟨[pt b!"$", nt _], ((J.punct '$').hard.seq (J.name ((hn.tok h1).nm h2))).eqs rfl rfl, fun _ => .var h0 tok1_tk tok1_tk⟩
  | .int _ _ h3, _, _ => ⟨_, (J.int _).1, fun _ => .int tok1_tk (J.int _).2 h3⟩
  | .float _ _, _, ho => ⟨_, J.float ho, fun _ => .float tok1_tk ho.choose_spec.2.2.2⟩
  | .str _, _, ho => by
    obtain ⟨cs, rfl, hz, h⟩ := ho
    exact ⟨_, J.str d hz h, fun _ => .str tok1_tk⟩
  | .tru _, _, _ => ⟨_, J.name (nameText_of 't' c!"rue"), fun _ => .tru tok1_tk⟩
  | .fls _, _, _ => ⟨_, J.name (nameText_of 'f' c!"alse"), fun _ => .fls tok1_tk⟩
  | .null _, _, _ => ⟨_, J.name (nameText_of 'n' c!"ull"), fun _ => .null tok1_tk⟩
  | .enum h1 h2 h3 h4, hn, _ => ⟨_, J.name (hn.nm h1), fun _ => .enum tok1_tk h2 h3 h4⟩
  | .list (vs := vs) h1 h2 h3, hn, ho => by
    obtain ⟨x, j, g⟩ := vals_dump d h2 (hn.tok h1) ho vs.length 0 (by simp)
    refine ⟨[pt b!"["] ++ (x ++ [pt b!"]"]), ((J.punct '[').hard.seq (j.seq (J.punct ']'))).weak, fun rest' => ?_⟩
    refine .list (r1 := (x ++ [pt b!"]"]) ++ rest') (r2 := pt b!"]" :: rest') tok1_tk ?_ tok1_tk
    rw [List.append_assoc]; exact g _
  | .obj (fs := fs) h1 h2 h3, hn, ho => by
    obtain ⟨x, j, g⟩ := flds_dump d h2 (hn.tok h1) ho fs.length 0 (by simp)
    refine ⟨[pt b!"{"] ++ (x ++ [pt b!"}"]), ?_, fun rest' => ?_⟩
    · have a : J false false (write b!"{ ") [pt b!"{"] := ((J.punct '{').hard.seq J.space).eqs rfl rfl
      have b : J true false (write b!" }") [pt b!"}"] := (J.space.seq (J.punct '}')).eqs rfl rfl
      exact (a.seq (j.seq b)).weak
    · refine .obj (r1 := (x ++ [pt b!"}"]) ++ rest') (r2 := pt b!"}" :: rest') tok1_tk ?_ tok1_tk
      rw [List.append_assoc]; exact g _
theorem vals_dump {c : Bool} {ts : Toks} {vs : List Value} {rest : Toks} (d : Nat) : Vals pf true c ts vs rest → Names ts → ValsOk fmtG pf vs →
    ∀ n i, i + vs.length = n → ∃ x, J false true (dumpValues fmtG d n i vs) x ∧ ∀ rest', Vals pf true c (x ++ rest') vs rest'
  | .nil _, _, _ => fun n i _ => ⟨[], J.skip'.weak, fun _ => .nil _⟩
  | .cons h1 (.nil _), hn, ho => fun n i hi => by
    obtain ⟨x, j, g⟩ := val_dump d h1 hn ho.1
    refine ⟨x, ?_, fun rest' => .cons (g _) (.nil _)⟩
    rw [dumpValues, dumpValues, if_neg (by simp at hi; omega)]
    exact (j.seq (J.skip.seq J.skip)).eqs rfl (by simp)
  | .cons h1 (.cons h2 h3), hn, ho => fun n i hi => by
    obtain ⟨x, j, g⟩ := val_dump d h1 hn ho.1
    obtain ⟨y, j2, g2⟩ := vals_dump d (.cons h2 h3) (hn.go1 (val_eats h1)) ho.2 n (i + 1) (by simp at hi ⊢; omega)
    refine ⟨x ++ y, ?_, fun rest' => .cons (by rw [List.append_assoc]; exact g _) (g2 rest')⟩
    rw [dumpValues, if_pos (by simp at hi; omega)]
    exact (j.seq (J.comma.seq j2)).eqs rfl (by simp)
theorem flds_dump {c : Bool} {ts : Toks} {fs : List (Bytes × Value)} {rest : Toks} (d : Nat) : Flds pf true c ts fs rest → Names ts → FldsOk fmtG pf fs →
    ∀ n i, i + fs.length = n → ∃ x, J false true (dumpObjFields fmtG d n i fs) x ∧ ∀ rest', Flds pf true c (x ++ rest') fs rest'
  | .nil _, _, _ => fun n i _ => ⟨[], J.skip'.weak, fun _ => .nil _⟩
  | .cons h0 h0' h1 (.nil _), hn, ho => fun n i hi => by
    obtain ⟨x, j, g⟩ := val_dump d h1 ((hn.tok h0).tok h0') ho.1
    refine ⟨[nt _] ++ ([pt b!":"] ++ x), ?_, fun rest' => .cons tok1_tk tok1_tk (g _) (.nil _)⟩
    rw [dumpObjFields, dumpObjFields, if_neg (by simp at hi; omega)]
    exact ((J.name (hn.nm h0)).seq (J.colon.seq (j.seq (J.skip.seq J.skip)))).eqs rfl (by simp)
  | .cons h0 h0' h1 (.cons h2 h2' h3 h4), hn, ho => fun n i hi => by
    obtain ⟨x, j, g⟩ := val_dump d h1 ((hn.tok h0).tok h0') ho.1
    obtain ⟨y, j2, g2⟩ := flds_dump d (.cons h2 h2' h3 h4) (((hn.tok h0).tok h0').go1 (val_eats h1)) ho.2 n (i + 1) (by simp at hi ⊢; omega)
    refine ⟨[nt _] ++ ([pt b!":"] ++ (x ++ y)), ?_, fun rest' => .cons (r2 := (x ++ y) ++ rest') tok1_tk tok1_tk (by rw [List.append_assoc]; exact g _) (g2 rest')⟩
    rw [dumpObjFields, if_pos (by simp at hi; omega)]
    exact ((J.name (hn.nm h0)).seq (J.colon.seq (j.seq (J.comma.seq j2)))).eqs rfl (by simp)
end

/-- A default value, with what is before it. -/
theorem default_dump {ts : Toks} {v : Option Value} {rest : Toks} (h : Default pf true ts v rest) (hn : Names ts) (ho : DefaultOk fmtG pf v) :
    ∃ x, J true true (match v with
      | some x => write b!" = " +++ dumpValue fmtG 0 x
      | none => skipOut) x ∧ Opt b!"=" x ∧ ∀ rest', NotNext1 .punctuator b!"=" rest' → Default pf true (x ++ rest') v rest' := by
  cases h with
  | none _ => exact ⟨[], J.skip, .inl rfl, fun _ h => .none h⟩
  | some h1 h2 =>
    obtain ⟨x, j, g⟩ := val_dump 0 h2 (hn.tok h1) (ho _ rfl)
    exact ⟨[pt b!"="] ++ x, J.equals.seq j, .inr ⟨_, tok1_tk⟩, fun rest' _ => .some tok1_tk (g _)⟩

theorem arg_dump {c : Bool} {ts : Toks} {a : Argument} {rest : Toks} (d : Nat) (h : Arg pf true c ts a rest) (hn : Names ts) (ho : ValOk fmtG pf a.value) :
    ∃ x, J false true (dumpArgument fmtG d a) x ∧ ∀ rest', Arg pf true c (x ++ rest') a rest' := by
  cases h with
  | mk h1 h2 h3 =>
    obtain ⟨x, j, g⟩ := val_dump d h3 ((hn.tok h1).tok h2) ho
    exact ⟨[nt _] ++ ([pt b!":"] ++ x), (J.name (hn.nm h1)).seq (J.colon.seq j), fun rest' => .mk tok1_tk tok1_tk (g _)⟩

/-- Arguments; without any nothing is printed, in particular not for `()`. -/
theorem args_dump {c : Bool} {ts : Toks} {as : List Argument} {rest : Toks} (d : Nat) (h : Args pf true c ts as rest) (hn : Names ts) (ho : ArgsOk fmtG pf as) :
    ∃ x, J true true (dumpArguments fmtG d as) x ∧ Opt b!"(" x ∧ ∀ rest', NotNext1 .punctuator b!"(" rest' → Args pf true c (x ++ rest') as rest' := by
  unfold dumpArguments
  by_cases hl : as.length = 0
  · rw [if_pos hl]
    have := List.length_eq_zero_iff.1 hl
    subst this
    exact ⟨[], J.skip, .inl rfl, fun rest' hr => .none hr⟩
  · rw [if_neg hl]
    cases h with
    | none _ => exact absurd rfl hl
    | some h1 h2 h3 h4 =>
      have mem := many_mem (fun _ _ _ h => (arg_eats h).1) h2 (hn.tok h1)
      obtain ⟨x, j, -, m⟩ := many_after (R := Arg pf true c) (Q := fun _ => True) (f := dumpArgument fmtG d) J.comma as.length as 0 (by simp) fun a ha => by
        obtain ⟨ts', r, hn', ha'⟩ := mem a ha
        obtain ⟨x, j, g⟩ := arg_dump d ha' hn' (ho a ha)
        exact ⟨x, j, fun _ => trivial, fun rest _ => g rest⟩
      refine ⟨[pt b!"("] ++ (x ++ [pt b!")"]), ((J.punct '(').seq (j.seq (J.punct ')'))).weak, .inr ⟨_, tok1_tk⟩, fun rest' _ => ?_⟩
      refine .some (r1 := (x ++ [pt b!")"]) ++ rest') (r2 := pt b!")" :: rest') tok1_tk ?_ tok1_tk h4
      rw [List.append_assoc]; exact m _ trivial

theorem dir_dump {c : Bool} {loc : DirLoc} {ts : Toks} {a : Directive} {rest : Toks} (d : Nat) (h : Dir pf true c loc ts a rest) (hn : Names ts) (ho : ArgsOk fmtG pf a.args) :
    ∃ x, J false true (dumpDirective fmtG d a) (pt b!"@" :: x) ∧ ∀ rest', NotNext1 .punctuator b!"(" rest' → Dir pf true c loc (pt b!"@" :: x ++ rest') a rest' := by
  cases h with
  | mk h1 h2 h3 =>
    obtain ⟨x, j, -, g⟩ := args_dump d h3 ((hn.tok h1).tok h2) ho
    exact ⟨[nt _] ++ x, ((J.punct '@').hard.seq ((J.name ((hn.tok h1).nm h2)).seq j)), fun rest' hr => .mk tok1_tk tok1_tk (g _ hr)⟩

/-- Directives, with the space before them. -/
theorem dirs_dump {c : Bool} {loc : DirLoc} {ts : Toks} {ds : List Directive} {rest : Toks} (d : Nat) (h : Dirs pf true c loc ts ds rest) (hn : Names ts) (ho : DirsOk fmtG pf ds) :
    ∃ x, J true true (dumpOptDirectives fmtG d ds) x ∧ Opt b!"@" x ∧
      ∀ rest', NotNext1 .punctuator b!"@" rest' → NotNext1 .punctuator b!"(" rest' → Dirs pf true c loc (x ++ rest') ds rest' := by
  unfold dumpOptDirectives
  by_cases hl : ds = []
  · subst hl
    exact ⟨[], J.skip, .inl rfl, fun rest' hr _ => ⟨.nil _, hr⟩⟩
  · rw [if_pos hl]
    have mem := many_mem (fun _ _ _ h => (dir_eats h).1) h.1 hn
    obtain ⟨x, j, q, m⟩ := many_before0 (R := Dir pf true c loc) (Q := NotNext1 .punctuator b!"(") (f := dumpDirective fmtG d)
      (g := fun i => if i ≠ 0 then write b!" " else skipOut) rfl (fun i => J.space) hl fun a ha => by
        obtain ⟨ts', r, hn', ha'⟩ := mem a ha
        obtain ⟨x, j, g⟩ := dir_dump d ha' hn' (ho a ha)
        exact ⟨_, j, fun _ => notNext_tk (.inr (by decide)), g⟩
    refine ⟨x, (J.space.seq j).eqs rfl (by simp), ?_, fun rest' h1 h2 => ⟨m _ h2, h1⟩⟩
    have := m [] (by rintro r ⟨t, e, -⟩; cases e)
    rw [List.append_nil] at this
    cases this with
    | nil => exact absurd rfl hl
    | cons h1 _ =>
      cases h1 with
      | mk h1 _ _ => exact .inr ⟨_, h1⟩

end

end GQL
