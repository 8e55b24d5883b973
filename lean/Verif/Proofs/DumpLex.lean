/-
Printed text as a sequence of tokens.

`J s e out x`: the output `out` reads as the tokens `x`.  `e`: this needs a soft rest (end, ignored character or punctuator), because the last token may be a name or a number.
`s`: together with the rest it begins softly.
-/
import Verif.Proofs.DumpStr
import Verif.Props.C11Doc

namespace GQL
open Spec

/-- A token at an unknown position. -/
def tk (k : TokenKind) (l : Bytes) : Token := ⟨k, l, 0, 0⟩
/-- A punctuator. -/
abbrev pt (l : Bytes) : Token := tk .punctuator l
/-- A name. -/
abbrev nt (l : Bytes) : Token := tk .name l
/-- A string. -/
abbrev st (l : Bytes) : Token := tk .stringValue l

/-- A token may end before this text. -/
def Soft (cs : List Char) : Prop := ∀ c t, cs = c :: t → ignored c = true ∨ c ∈ punctuators

theorem Soft.notNext {p : Char → Bool} {cs : List Char} (h : Soft cs) (hp : ∀ c, ignored c = true ∨ c ∈ punctuators → p c = false) : notNext p cs :=
  fun c t e => hp c (h c t e)

theorem soft_cons {c : Char} {t : List Char} (h : ignored c = true ∨ c ∈ punctuators) : Soft (c :: t) := by
  intro d u e
  cases e; exact h

theorem soft_name (c : Char) (h : ignored c = true ∨ c ∈ punctuators) : nameCont c = false ∧ c.isDigit = false ∧ c ≠ '.' ∧ c ≠ 'e' ∧ c ≠ 'E' ∧ c ≠ '"' := by
  have : c ∈ ['\uFEFF', '\t', ' ', '\n', '\r', ','] ++ punctuators := by
    rcases h with h | h
    · simp only [ignored, lineTerm, Bool.or_eq_true, beq_iff_eq] at h
      rcases h with (((h | h) | h) | (h | h)) | h <;> subst h <;> decide
    · exact List.mem_append_right _ h
  have all : ∀ c ∈ ['\uFEFF', '\t', ' ', '\n', '\r', ','] ++ punctuators, nameCont c = false ∧ c.isDigit = false ∧ c ≠ '.' ∧ c ≠ 'e' ∧ c ≠ 'E' ∧ c ≠ '"' := by decide
  exact all c this

/-- The text `cs` before `rest` reads as `x`. -/
def Reads (cs rest : List Char) (x : Toks) : Prop := ∀ pre, ∃ items, Lex GoBlock pre (cs ++ rest) items rest ∧ itemToks items = x

/-- See the head of the file. -/
def J (s e : Bool) (out : Out Bytes) (x : Toks) : Prop :=
  ∃ cs, out = .ret (utf8 cs) ∧ '\x00' ∉ cs ∧ ∀ rest, (e = true → Soft rest) → (s = true → Soft (cs ++ rest)) ∧ Reads cs rest x

theorem Spec.Lex.trans {B : List Char → List Char → List Char → Prop} {pre a b c : List Char} {i1 i2 : List Item} (h1 : Lex B pre a i1 b) :
    ∀ {lx}, a = lx ++ b → Lex B (pre ++ lx) b i2 c → Lex B pre a (i1 ++ i2) c := by
  have split : ∀ {pre a i b}, Lex B pre a i b → ∃ lx, a = lx ++ b := by
    intro pre a i b h
    induction h with
    | done => exact ⟨[], rfl⟩
    | ignore _ _ ih => obtain ⟨lx, rfl⟩ := ih; exact ⟨_ :: lx, rfl⟩
    | @comment _ body _ _ _ _ _ _ ih => obtain ⟨lx, rfl⟩ := ih; exact ⟨'#' :: (body ++ lx), by simp⟩
    | @token _ ly _ _ _ _ _ _ ih => obtain ⟨lx, rfl⟩ := ih; exact ⟨ly ++ lx, by simp⟩
  induction h1 with
  | done pre text =>
    intro lx e h2
    have : lx = [] := by simpa using e
    subst this
    simpa using h2
  | @ignore pre d text items rest hc h ih =>
    intro lx e h2
    obtain ⟨ly, e2⟩ := split h
    subst e2
    have : lx = d :: ly := by
      have : d :: ly ++ rest = lx ++ rest := e
      exact (List.append_cancel_right this).symm
    subst this
    exact .ignore hc (ih rfl (by simpa using h2))
  | @comment pre body text items rest h0 h1 h ih =>
    intro lx e h2
    obtain ⟨ly, e2⟩ := split h
    subst e2
    have : lx = '#' :: (body ++ ly) := by
      have : '#' :: (body ++ ly) ++ rest = lx ++ rest := by rw [← e]; simp
      exact (List.append_cancel_right this).symm
    subst this
    exact .comment h0 h1 (ih rfl (by simpa using h2))
  | @token pre lx0 text tok items rest h0 h ih =>
    intro lx e h2
    obtain ⟨ly, e2⟩ := split h
    subst e2
    have : lx = lx0 ++ ly := by
      have : lx0 ++ ly ++ rest = lx ++ rest := by rw [← e]; simp
      exact (List.append_cancel_right this).symm
    subst this
    exact .token h0 (ih rfl (by simpa using h2))

/-- One output after the other. -/
theorem J.seq {s1 e1 s2 e2 : Bool} {o1 o2 : Out Bytes} {x1 x2 : Toks} (h1 : J s1 e1 o1 x1) (h2 : J s2 e2 o2 x2) (h : e1 = true → s2 = true := by decide) :
    J s1 e2 (o1 +++ o2) (x1 ++ x2) := by
  obtain ⟨c1, rfl, z1, r1⟩ := h1
  obtain ⟨c2, rfl, z2, r2⟩ := h2
  refine ⟨c1 ++ c2, by rw [utf8_append]; rfl, by simp [z1, z2], ?_⟩
  intro rest hr
  obtain ⟨a2, b2⟩ := r2 rest hr
  obtain ⟨a1, b1⟩ := r1 (c2 ++ rest) fun he => a2 (h he)
  rw [List.append_assoc]
  refine ⟨a1, ?_⟩
  intro pre
  rw [List.append_assoc]
  obtain ⟨i1, l1, rfl⟩ := b1 pre
  obtain ⟨i2, l2, rfl⟩ := b2 (pre ++ c1)
  exact ⟨i1 ++ i2, l1.trans rfl l2, by simp [itemToks]⟩

theorem J.weak {s e : Bool} {o : Out Bytes} {x : Toks} (h : J s e o x) : J s true o x := by
  obtain ⟨c, e0, z, r⟩ := h
  exact ⟨c, e0, z, fun rest hr => r rest fun _ => hr rfl⟩

theorem J.hard {s e : Bool} {o : Out Bytes} {x : Toks} (h : J s e o x) : J false e o x := by
  obtain ⟨c, e0, z, r⟩ := h
  exact ⟨c, e0, z, fun rest hr => ⟨fun h => (by cases h), (r rest hr).2⟩⟩

theorem J.eqs {s e : Bool} {o o' : Out Bytes} {x x' : Toks} (h : J s e o x) (ho : o' = o) (hx : x' = x) : J s e o' x' := by
  subst ho hx; exact h

/-- Nothing. -/
theorem J.skip : J true true skipOut [] :=
  ⟨[], rfl, by simp, fun rest hr => ⟨fun _ => hr rfl, fun pre => ⟨[], .done _ _, rfl⟩⟩⟩

/-- Nothing, before anything. -/
theorem J.skip' : J false false skipOut [] :=
  ⟨[], rfl, by simp, fun rest _ => ⟨fun h => (by cases h), fun pre => ⟨[], .done _ _, rfl⟩⟩⟩

theorem lex_blanks {B : List Char → List Char → List Char → Prop} {w : List Char} (h : ∀ c ∈ w, ignored c = true) (pre rest : List Char) : Lex B pre (w ++ rest) [] rest := by
  induction w generalizing pre with
  | nil => exact .done _ _
  | cons c w ih => exact .ignore (h c (by simp)) (ih (fun d hd => h d (by simp [hd])) _)

/-- White space. -/
theorem J.blank {w : Bytes} (cs : List Char) (e : w = utf8 cs) (h : ∀ c ∈ cs, ignored c = true) (hn : cs ≠ []) : J true false (write w) [] := by
  subst e
  refine ⟨cs, rfl, (fun h0 => absurd (h _ h0) (by decide)), fun rest _ => ⟨fun _ => ?_, fun pre => ⟨[], lex_blanks h _ _, rfl⟩⟩⟩
  cases cs with
  | nil => exact absurd rfl hn
  | cons c cs => exact soft_cons (.inl (h c (by simp)))

/-- White space, or nothing. -/
theorem J.blanks {w : Bytes} (cs : List Char) (e : w = utf8 cs) (h : ∀ c ∈ cs, ignored c = true) : J false false (write w) [] := by
  subst e
  exact ⟨cs, rfl, (fun h0 => absurd (h _ h0) (by decide)), fun rest _ => ⟨fun h => (by cases h), fun pre => ⟨[], lex_blanks h _ _, rfl⟩⟩⟩

/-- A token, if what follows is soft where needed. -/
theorem J.token {e : Bool} {w : Bytes} (cs : List Char) (k : Kind) (v : List Char) (ew : w = utf8 cs) (hz : '\x00' ∉ cs)
    (h : ∀ rest, (e = true → Soft rest) → Lexeme GoBlock (cs ++ rest) ⟨k, v⟩ rest) : J false e (write w) [tk (goKind k) (utf8 v)] := by
  subst ew
  refine ⟨cs, rfl, hz, fun rest hr => ⟨fun h => (by cases h), fun pre => ⟨[⟨⟨k, v⟩, pre, cs⟩], .token (h rest hr) (.done _ _), rfl⟩⟩⟩

/-- A punctuator. -/
theorem J.punct {w : Bytes} (c : Char) (h : c ∈ punctuators := by decide) (e : w = utf8 [c] := by decide) : J true false (write w) [pt w] := by
  have hz : '\x00' ∉ [c] := by
    intro h0; rw [List.mem_singleton] at h0; subst h0; exact absurd h (by decide)
  have := J.token (e := false) [c] .punctuator [c] e hz fun rest _ => .punct c rest h
  obtain ⟨cs, e1, z, r⟩ := this
  refine ⟨[c], by rw [← e], hz, fun rest hr => ⟨fun _ => soft_cons (.inr h), ?_⟩⟩
  have hcs : cs = [c] := utf8_inj (by rw [← e]; exact (Out.ret.inj e1).symm)
  subst hcs
  have := (r rest hr).2
  rwa [← e] at this

/-- A punctuator of three dots. -/
theorem J.dots : J false false (write b!"...") [pt b!"..."] :=
  J.token (e := false) c!"..." .punctuator c!"..." rfl (by decide) fun rest _ => .spread rest

/-- A text that is a GraphQL name. -/
def NameText (n : Bytes) : Prop := ∃ c w, n = utf8 (c :: w) ∧ nameStart c = true ∧ ∀ d ∈ w, nameCont d = true

/-- A name. -/
theorem J.name {n : Bytes} (h : NameText n) : J false true (write n) [nt n] := by
  obtain ⟨c, w, e, h1, h2⟩ := h
  have hz : '\x00' ∉ c :: w := by
    intro h0
    rcases List.mem_cons.1 h0 with rfl | h0
    · exact absurd h1 (by decide)
    · exact absurd (h2 _ h0) (by decide)
  have := J.token (e := true) (c :: w) .name (c :: w) e hz fun rest hr => .name c w rest h1 h2 ((hr rfl).notNext fun c hc => (soft_name c hc).1)
  rwa [← e] at this

end GQL
