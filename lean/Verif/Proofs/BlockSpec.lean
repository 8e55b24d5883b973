/-
Block strings as the code reads them and as the specification has them.
-/
import Verif.Proofs.LexRun

namespace GQL
open Spec

/-- Text without CR, without control characters and without two consecutive backslashes. -/
structure Plain (s : List Char) : Prop where
  chars : ∀ c ∈ s, printable c = true ∨ c = '\n'
  slashes : ¬ ['\\', '\\'] <:+: s

theorem Plain.tail {c : Char} {s : List Char} (h : Plain (c :: s)) : Plain s :=
  ⟨fun d hd => h.chars d (List.mem_cons_of_mem _ hd), fun hh => h.slashes (hh.trans (List.suffix_cons c s).isInfix)⟩

theorem Plain.right {a b : List Char} (h : Plain (a ++ b)) : Plain b := by
  induction a with
  | nil => exact h
  | cons c a ih => exact ih h.tail

theorem Plain.second {c : Char} {s : List Char} (h : Plain ('\\' :: c :: s)) : c ≠ '\\' := by
  rintro rfl
  exact h.slashes (List.IsPrefix.isInfix ⟨s, rfl⟩)

theorem Plain.noCR {s : List Char} (h : Plain s) : CRfree s := by
  intro c hc hcr
  subst hcr
  rcases h.chars _ hc with h | h
  · revert h; decide
  · cases h

theorem Spec.BlockText.split {s v rest : List Char} (h : BlockText s v rest) : ∃ lx, s = lx ++ rest := by
  induction h with
  | close rest => exact ⟨quotes3, rfl⟩
  | esc _ ih => obtain ⟨lx, rfl⟩ := ih; exact ⟨'\\' :: quotes3 ++ lx, by simp⟩
  | char c _ _ _ _ ih => obtain ⟨lx, rfl⟩ := ih; exact ⟨c :: lx, rfl⟩

theorem slash_pref {c : Char} {s : List Char} : ('\\' :: quotes3) <+: (c :: s) ↔ c = '\\' ∧ quotes3 <+: s := by
  rw [List.cons_prefix_cons]; constructor <;> (rintro ⟨h, h2⟩; exact ⟨h.symm, h2⟩)

theorem block_of_go {s raw rest lx : List Char} (h : GoBlockText s raw rest) (hs : s = lx ++ rest)
    (hp : Plain lx) : BlockText s raw rest := by
  induction h generalizing lx with
  | close rest => exact .close rest
  | @esc s v rest h ih =>
    obtain ⟨lx', e'⟩ := h.split
    have hlx : lx = '\\' :: quotes3 ++ lx' := by
      rw [e', ← List.append_assoc] at hs; exact (List.append_cancel_right hs).symm
    subst hlx
    exact .esc (ih e' hp.right)
  | @pair c s v rest hq h ih =>
    obtain ⟨lx', e'⟩ := h.split
    have hlx : lx = '\\' :: c :: lx' := by
      rw [e', ← List.cons_append, ← List.cons_append] at hs; exact (List.append_cancel_right hs).symm
    subst hlx
    refine .char '\\' (fun hh => absurd (pref3' hh) (by decide)) (fun hh => hq (slash_pref.1 hh).2)
      (.inl (by decide)) (.char c hq (fun hh => hp.second (slash_pref.1 hh).1) ?_ (ih e' hp.tail.tail))
    rcases hp.tail.chars c (List.mem_cons_self ..) with h | h
    · exact .inl h
    · subst h; exact .inr rfl
  | @cr s v rest h ih =>
    obtain ⟨lx', e'⟩ := h.split
    have hlx : lx = '\r' :: lx' := by
      rw [e', ← List.cons_append] at hs; exact (List.append_cancel_right hs).symm
    subst hlx
    exact absurd rfl (hp.noCR.head)
  | @char c s v rest h1 h2 h3 h4 h ih =>
    obtain ⟨lx', e'⟩ := h.split
    have hlx : lx = c :: lx' := by
      rw [e', ← List.cons_append] at hs; exact (List.append_cancel_right hs).symm
    subst hlx
    refine .char c h3 (fun hh => h1 (slash_pref.1 hh).1) ?_ (ih e' hp.tail)
    rcases h4 with h | h
    · exact .inl h
    · subst h; exact .inr rfl

theorem go_of_block {n : Nat} {s raw rest lx : List Char} (hn : s.length ≤ n) (h : BlockText s raw rest)
    (hs : s = lx ++ rest) (hp : Plain lx) : GoBlockText s raw rest := by
  induction n generalizing s raw rest lx with
  | zero =>
    cases h with
    | close => simp [quotes3] at hn
    | esc => simp [quotes3] at hn
    | char => simp at hn
  | succ n ih =>
    cases h with
    | close => exact .close _
    | @esc s v rest h =>
      obtain ⟨lx', e'⟩ := h.split
      have hlx : lx = '\\' :: quotes3 ++ lx' := by
        rw [e', ← List.append_assoc] at hs; exact (List.append_cancel_right hs).symm
      subst hlx
      exact .esc (ih (by simp at hn; omega) h e' hp.right)
    | @char c s v rest h1 h2 h3 h =>
      obtain ⟨lx', e'⟩ := h.split
      have hlx : lx = c :: lx' := by
        rw [e', ← List.cons_append] at hs; exact (List.append_cancel_right hs).symm
      subst hlx
      by_cases hc : c = '\\'
      · subst hc
        have h2' : ¬ quotes3 <+: s := fun hh => h2 (slash_pref.2 ⟨rfl, hh⟩)
        cases h with
        | close => exact absurd (List.prefix_append ..) h2'
        | esc h =>
          exfalso
          rename_i s2 v2
          obtain _ | ⟨x, lx''⟩ := lx'
          · rw [List.nil_append] at e'
            have := congrArg List.length e'
            obtain ⟨y, hy⟩ := h.split
            rw [hy] at this; simp [quotes3] at this; omega
          · rw [List.cons_append, List.cons_append] at e'
            have := (List.cons.inj e').1
            subst this
            exact hp.second rfl
        | @char d s2 v2 _ g1 g2 g3 g =>
          obtain ⟨lx'', e''⟩ := g.split
          have hlx' : lx' = d :: lx'' := by
            rw [e'', ← List.cons_append] at e'; exact (List.append_cancel_right e').symm
          subst hlx'
          exact .pair d h2' (ih (by simp at hn; omega) g e'' hp.tail.tail)
      · refine .char c hc hp.noCR.head h1 (hp.chars c (List.mem_cons_self ..)) (ih (by simp at hn; omega) h e' hp.tail)

theorem splitLines_eq {s : List Char} (h : CRfree s) : splitLines s = splitLF s := by
  induction s with
  | nil => rfl
  | cons c s ih =>
    have hc := h.head
    have : splitLines (c :: s) = if lineTerm c then [] :: splitLines s
        else match splitLines s with
          | [] => [[c]]
          | l :: ls => (c :: l) :: ls := by
      rw [splitLines]
      · rfl
      · rintro t rfl _; exact hc rfl
    rw [this, splitLF, ih h.tail]
    simp only [lineTerm, hc, Bool.or_eq_true, beq_iff_eq, or_false]
    rfl

theorem raw_noCR {s raw rest lx : List Char} (h : BlockText s raw rest) (hs : s = lx ++ rest)
    (hp : CRfree lx) : CRfree raw := by
  induction h generalizing lx with
  | close => intro c hc; cases hc
  | @esc s v rest h ih =>
    obtain ⟨lx', e'⟩ := h.split
    have hlx : lx = '\\' :: quotes3 ++ lx' := by
      rw [e', ← List.append_assoc] at hs; exact (List.append_cancel_right hs).symm
    subst hlx
    exact CRfree.append (by intro c hc; revert c hc; decide) (ih e' hp.right)
  | @char c s v rest h1 h2 h3 h ih =>
    obtain ⟨lx', e'⟩ := h.split
    have hlx : lx = c :: lx' := by
      rw [e', ← List.cons_append] at hs; exact (List.append_cancel_right hs).symm
    subst hlx
    exact CRfree.append (a := [c]) (by intro d hd; simp only [List.mem_singleton] at hd; subst hd; exact hp.head)
      (ih e' hp.tail)

/-- On plain text both notions of block string agree. -/
theorem goBlock_iff_spec {v rest lx : List Char} (hp : Plain lx) :
    GoBlock (lx ++ rest) v rest ↔ SpecBlock (lx ++ rest) v rest := by
  constructor
  · rintro ⟨raw, h, rfl⟩
    have h2 := block_of_go h rfl hp
    refine ⟨raw, h2, ?_⟩
    rw [blockStringValue, splitLines_eq (raw_noCR h2 rfl hp.noCR)]
  · rintro ⟨raw, h, rfl⟩
    refine ⟨raw, go_of_block (Nat.le_refl _) h rfl hp, ?_⟩
    rw [blockStringValue, splitLines_eq (raw_noCR h rfl hp.noCR)]

/-- The block strings among the tokens are plain. -/
def PlainBlocks (items : List Item) : Prop := ∀ i ∈ items, quotes3 <+: i.chars → Plain i.chars

theorem lexeme_mono {B B' : List Char → List Char → List Char → Prop} {lx rest : List Char} {tok : Tok}
    (hB : ∀ s v r, B s v r → ∃ x, s = x ++ r)
    (hBB : ∀ x v, quotes3 ++ x = lx → B (x ++ rest) v rest → B' (x ++ rest) v rest)
    (h : Lexeme B (lx ++ rest) tok rest) : Lexeme B' (lx ++ rest) tok rest := by
  generalize hs : lx ++ rest = s at h
  cases h with
  | punct c rest h => exact .punct c rest h
  | spread rest => exact .spread rest
  | name c w rest a b d => exact .name c w rest a b d
  | int i rest a b => exact .int i rest a b
  | fraction i f rest a b d => exact .fraction i f rest a b d
  | exponent i f rest a b d => exact .exponent i f rest a b d
  | fracExp i f e rest a b d g => exact .fracExp i f e rest a b d g
  | string a b => exact .string a b
  | @block s v rest a =>
    obtain ⟨x, rfl⟩ := hB _ _ _ a
    have : lx = quotes3 ++ x := by
      rw [← List.append_assoc] at hs; exact List.append_cancel_right hs
    exact .block (hBB x v this.symm a)

theorem specBlock_split {s v r : List Char} (h : SpecBlock s v r) : ∃ x, s = x ++ r := by
  obtain ⟨raw, h, -⟩ := h; exact h.split
theorem goBlock_split {s v r : List Char} (h : GoBlock s v r) : ∃ x, s = x ++ r := by
  obtain ⟨raw, h, -⟩ := h; exact h.split

theorem lex_mono {B B' : List Char → List Char → List Char → Prop} {pre s rest : List Char} {items}
    (hB : ∀ s v r, B s v r → ∃ x, s = x ++ r)
    (hBB : ∀ x v r, Plain (quotes3 ++ x) → B (x ++ r) v r → B' (x ++ r) v r)
    (h : Lex B pre s items rest) (hp : PlainBlocks items) : Lex B' pre s items rest := by
  induction h with
  | done => exact .done _ _
  | ignore a _ ih => exact .ignore a (ih hp)
  | comment a b _ ih => exact .comment a b (ih hp)
  | @token pre lx text tok items rest a _ ih =>
    refine .token (lexeme_mono hB ?_ a) (ih (fun i hi => hp i (List.mem_cons_of_mem _ hi)))
    rintro x v rfl hb
    exact hBB x v _ (hp _ (List.mem_cons_self ..) (List.prefix_append ..)) hb

theorem lex_spec_iff {pre s rest : List Char} {items} (hp : PlainBlocks items) :
    Lex SpecBlock pre s items rest ↔ Lex GoBlock pre s items rest :=
  ⟨fun h => lex_mono (fun _ _ _ => specBlock_split) (fun _ _ _ hx hb => (goBlock_iff_spec hx.right).2 hb) h hp,
   fun h => lex_mono (fun _ _ _ => goBlock_split) (fun _ _ _ hx hb => (goBlock_iff_spec hx.right).1 hb) h hp⟩

end GQL
