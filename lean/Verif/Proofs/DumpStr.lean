/-
The printed form of a string, read back.
-/
import Verif.Model.Dumper
import Verif.Spec.Dump
import Verif.Props.C03

namespace GQL
open Spec

/-! ### Between quotes -/

theorem runes_utf8 (cs : List Char) : runes (utf8 cs) = cs.map Char.toNat := by
  unfold runes
  have : ∀ (n : Nat) (cs : List Char), (utf8 cs).length < n → runesF n (utf8 cs) = cs.map Char.toNat := by
    intro n
    induction n with
    | zero => intro cs h; omega
    | succ n ih =>
      intro cs h
      cases cs with
      | nil => rfl
      | cons c cs =>
        have hd := decode_encode c.toNat c.valid (utf8 cs)
        rw [← utf8Char_eq] at hd
        rw [utf8_cons] at h ⊢
        have hne := utf8Char_ne_nil c
        cases e : utf8Char c with
        | nil => exact absurd e hne
        | cons b bs =>
          rw [e] at hd h
          rw [List.cons_append] at hd h ⊢
          rw [runesF, hd]
          have : (b :: (bs ++ utf8 cs)).drop (b :: bs).length = utf8 cs := by
            rw [← List.cons_append]; exact List.drop_left
          simp only [List.length_cons, List.length_append] at h
          rw [this, ih _ (by omega)]
          rfl
  exact this _ _ (by omega)

/-- The character of a lower-case hexadecimal digit. -/
def hexChar (n : Nat) : Char := Char.ofNat (hexDigit n)

theorem hexChar_val : ∀ n, n < 16 → hexVal (hexChar n) = some n := by decide

theorem hexChar_nat : ∀ n, n < 16 → (hexChar n).toNat = hexDigit n := by decide

theorem hexDigit_ascii : ∀ n, n < 16 → hexDigit n < 128 := by decide

/-- The escaped form of a character. -/
def escChar (c : Char) : List Char :=
  if 0x80 ≤ c.toNat ∧ c.toNat ≤ 0xFFFF then
    ['\\', 'u', hexChar (c.toNat / 4096), hexChar (c.toNat / 256 % 16), hexChar (c.toNat / 16 % 16), hexChar (c.toNat % 16)]
  else if c = '"' then c!"\\\""
  else if c = '\\' then c!"\\\\"
  else if c = '/' then c!"\\/"
  else if c = '\x08' then c!"\\b"
  else if c = '\x0c' then c!"\\f"
  else if c = '\t' then c!"\\t"
  else [c]

theorem char_eq_iff (c d : Char) : c = d ↔ c.toNat = d.toNat := by
  constructor
  · rintro rfl; rfl
  · intro h; exact Char.toNat_inj.1 h

theorem hexOf_pad {n : Nat} (h : 0x80 ≤ n) (h2 : n ≤ 0xFFFF) :
    repeatStr b!"0" (4 - (hexOf n).length) ++ hexOf n = [hexDigit (n / 4096), hexDigit (n / 256 % 16), hexDigit (n / 16 % 16), hexDigit (n % 16)] := by
  have step : ∀ f m, hexLoop (f + 1) m = if m < 16 then [hexDigit m] else hexLoop f (m / 16) ++ [hexDigit (m % 16)] := fun _ _ => rfl
  unfold hexOf
  obtain ⟨k, rfl⟩ : ∃ k, n = k + 4 := ⟨n - 4, by omega⟩
  generalize hn : k + 4 = n at *
  rw [show n + 1 = k + 1 + 1 + 1 + 1 + 1 by omega]
  simp only [step]
  rw [if_neg (by omega)]
  have e1 : n / 16 / 16 = n / 256 := by omega
  have e2 : n / 256 / 16 = n / 4096 := by omega
  rw [e1, e2]
  by_cases h3 : n / 16 < 16
  · have a1 : n / 4096 = 0 := by omega
    have a2 : n / 256 % 16 = 0 := by omega
    have a3 : n / 16 % 16 = n / 16 := by omega
    rw [if_pos h3, a1, a2, a3]; rfl
  · rw [if_neg h3]
    by_cases h4 : n / 256 < 16
    · have a1 : n / 4096 = 0 := by omega
      have a2 : n / 256 % 16 = n / 256 := by omega
      rw [if_pos h4, a1, a2]; rfl
    · rw [if_neg h4, if_pos (by omega)]
      rfl

theorem utf8_ascii {cs : List Char} (h : ∀ c ∈ cs, c.toNat < 128) : utf8 cs = cs.map Char.toNat := by
  induction cs with
  | nil => rfl
  | cons c cs ih =>
    rw [utf8_cons, utf8Char_ascii c (h c (by simp)), ih fun d hd => h d (by simp [hd])]; rfl

theorem escapeRune_char (c : Char) : escapeRune c.toNat = utf8 (escChar c) := by
  unfold escapeRune escChar
  by_cases h : 0x80 ≤ c.toNat ∧ c.toNat ≤ 0xFFFF
  · rw [if_pos h, if_pos h]
    dsimp only
    rw [hexOf_pad h.1 h.2]
    have l1 : c.toNat / 4096 < 16 := by omega
    have l2 : c.toNat / 256 % 16 < 16 := by omega
    have l3 : c.toNat / 16 % 16 < 16 := by omega
    have l4 : c.toNat % 16 < 16 := by omega
    rw [utf8_ascii]
    · simp only [List.map_cons, List.map_nil, hexChar_nat _ l1, hexChar_nat _ l2, hexChar_nat _ l3, hexChar_nat _ l4]; rfl
    · intro d hd
      simp only [List.mem_cons, List.not_mem_nil, or_false] at hd
      rcases hd with rfl | rfl | rfl | rfl | rfl | rfl
      · decide
      · decide
      · rw [hexChar_nat _ l1]; exact hexDigit_ascii _ l1
      · rw [hexChar_nat _ l2]; exact hexDigit_ascii _ l2
      · rw [hexChar_nat _ l3]; exact hexDigit_ascii _ l3
      · rw [hexChar_nat _ l4]; exact hexDigit_ascii _ l4
  · rw [if_neg h, if_neg h]
    simp only [char_eq_iff, show ('"' : Char).toNat = 34 from rfl, show ('\\' : Char).toNat = 92 from rfl, show ('/' : Char).toNat = 47 from rfl,
      show ('\x08' : Char).toNat = 8 from rfl, show ('\x0c' : Char).toNat = 12 from rfl, show ('\t' : Char).toNat = 9 from rfl]
    repeat' split
    all_goals first | rfl | (rw [← utf8Char_eq, utf8_cons]; simp [utf8])

theorem escapeString_utf8 (cs : List Char) : escapeString (utf8 cs) = utf8 (cs.flatMap escChar) := by
  unfold escapeString
  rw [runes_utf8]
  induction cs with
  | nil => rfl
  | cons c cs ih =>
    rw [List.map_cons, List.flatMap_cons, List.flatMap_cons, utf8_append, ih, escapeRune_char]

/-- One escaped character, read. -/
theorem strText_escChar {c : Char} {s v rest : List Char} (hc : printable c = true ∨ c = '\x08' ∨ c = '\x0c') (h : StrText s v rest) :
    StrText (escChar c ++ s) (c :: v) rest := by
  unfold escChar
  split
  · rename_i hr
    have l1 : c.toNat / 4096 < 16 := by omega
    have l2 : c.toNat / 256 % 16 < 16 := by omega
    have l3 : c.toNat / 16 % 16 < 16 := by omega
    have l4 : c.toNat % 16 < 16 := by omega
    have := StrText.unicode (hexChar_val _ l1) (hexChar_val _ l2) (hexChar_val _ l3) (hexChar_val _ l4) h
    have e : ((c.toNat / 4096 * 16 + c.toNat / 256 % 16) * 16 + c.toNat / 16 % 16) * 16 + c.toNat % 16 = c.toNat := by omega
    rw [e] at this
    have e2 : codePoint c.toNat = c := by
      unfold codePoint
      exact (if_pos (char_valid c)).trans (Char.ofNat_toNat c)
    rw [e2] at this
    exact this
  · repeat' split
    all_goals first
      | (subst_vars; exact StrText.esc _ _ (by decide) h)
      | skip
    rename_i h1 h2 h3 h4 h5 h6
    refine .char c h1 h2 ?_ h
    rcases hc with hc | hc | hc
    · exact hc
    · exact absurd hc h4
    · exact absurd hc h5

theorem strText_esc {cs s v rest : List Char} (hc : QuoteOk cs) (h : StrText s v rest) : StrText (cs.flatMap escChar ++ s) (cs ++ v) rest := by
  induction cs with
  | nil => exact h
  | cons c cs ih =>
    rw [List.flatMap_cons, List.append_assoc]
    exact strText_escChar (hc c (by simp)) (ih fun d hd => hc d (by simp [hd]))

/-- A quoted string, read back. -/
theorem quoted_lexeme {cs rest : List Char} (hc : QuoteOk cs) (hr : notNext (· == '"') rest) :
    Lexeme GoBlock ('"' :: (cs.flatMap escChar ++ '"' :: rest)) ⟨.string, cs⟩ rest :=
  .string (by simpa using strText_esc hc (.close rest)) fun _ => hr

/-! ### Block strings -/

/-- `"""` becomes `\"""`. -/
def escQ : List Char → List Char
  | '"' :: '"' :: '"' :: t => '\\' :: '"' :: '"' :: '"' :: escQ t
  | c :: t => c :: escQ t
  | [] => []

theorem escQ_quotes (t : List Char) : escQ (quotes3 ++ t) = '\\' :: (quotes3 ++ escQ t) := rfl

theorem escQ_char {c : Char} {t : List Char} (h : ¬ quotes3 <+: (c :: t)) : escQ (c :: t) = c :: escQ t := by
  rw [escQ]
  rintro t' rfl rfl
  exact h ⟨t', rfl⟩

theorem quotes_prefix_utf8 (cs : List Char) : (b!"\"\"\"").isPrefixOf (utf8 cs) = true ↔ quotes3 <+: cs := by
  have key : ∀ (n : Nat) (cs : List Char), (List.replicate n 34).isPrefixOf (utf8 cs) = true ↔ List.replicate n '"' <+: cs := by
    intro n
    induction n with
    | zero => intro cs; simp
    | succ n ih =>
      intro cs
      cases cs with
      | nil => simp [utf8, List.replicate_succ]
      | cons c cs =>
        rw [List.replicate_succ, List.replicate_succ, List.cons_prefix_cons, utf8_cons]
        by_cases h : c.toNat < 128
        · rw [utf8Char_ascii c h]
          simp only [List.cons_append, List.nil_append, List.isPrefixOf, Bool.and_eq_true, beq_iff_eq]
          rw [ih, eq_comm, eq_comm (a := '"'), char_eq_iff]; rfl
        · obtain ⟨b, b', t, e, hb, -⟩ := utf8Char_wide c h
          rw [e]
          simp only [List.cons_append, List.isPrefixOf, Bool.and_eq_true, beq_iff_eq]
          constructor
          · rintro ⟨rfl, -⟩; omega
          · rintro ⟨rfl, -⟩; exact absurd (by decide) h
  exact key 3 cs

theorem replaceAll_char {c : Char} {t : List Char} (h : ¬ quotes3 <+: (c :: t)) :
    replaceAll b!"\"\"\"" b!"\\\"\"\"" 0 (utf8 (c :: t)) = utf8Char c ++ replaceAll b!"\"\"\"" b!"\\\"\"\"" 0 (utf8 t) := by
  have step : ∀ b bs, (b!"\"\"\"").isPrefixOf (b :: bs) = false → replaceAll b!"\"\"\"" b!"\\\"\"\"" 0 (b :: bs) = b :: replaceAll b!"\"\"\"" b!"\\\"\"\"" 0 bs := by
    intro b bs h
    rw [replaceAll, if_neg (by rw [h]; simp)]
  have hp : (b!"\"\"\"").isPrefixOf (utf8 (c :: t)) = false := by
    cases e : (b!"\"\"\"").isPrefixOf (utf8 (c :: t)) with
    | true => exact absurd ((quotes_prefix_utf8 _).1 e) h
    | false => rfl
  rw [utf8_cons] at hp ⊢
  by_cases hx : c.toNat < 128
  · rw [utf8Char_ascii c hx] at hp ⊢
    exact step _ _ hp
  · have hall : ∀ b ∈ utf8Char c, b ≠ 34 := by
      intro b hb e
      subst e
      rw [utf8Char_eq, encodeRune_eq _ (char_valid c), if_neg hx] at hb
      repeat' split at hb
      all_goals simp at hb; omega
    generalize utf8Char c = bs at hall
    clear hp
    induction bs with
    | nil => rfl
    | cons b bs ih =>
      rw [List.cons_append, step, ih fun x hx => hall x (by simp [hx])]
      · rfl
      · have := hall b (by simp)
        simp only [List.isPrefixOf, Bool.and_eq_false_iff, beq_eq_false_iff_ne, ne_eq]
        exact .inl (fun h => this h.symm)

theorem escapeBlock_utf8 (cs : List Char) : escapeBlock (utf8 cs) = utf8 (escQ cs) := by
  unfold escapeBlock
  have : ∀ (n : Nat) (cs : List Char), cs.length ≤ n → replaceAll b!"\"\"\"" b!"\\\"\"\"" 0 (utf8 cs) = utf8 (escQ cs) := by
    intro n
    induction n with
    | zero => intro cs h; rw [List.length_eq_zero_iff.1 (Nat.le_zero.1 h)]; rfl
    | succ n ih =>
      intro cs h
      cases cs with
      | nil => rfl
      | cons c t =>
        by_cases hq : quotes3 <+: (c :: t)
        · obtain ⟨t', e⟩ := hq
          rw [← e] at h ⊢
          rw [escQ_quotes]
          have hq : utf8 (quotes3 ++ t') = 34 :: 34 :: 34 :: utf8 t' := by
            rw [utf8_append]; rfl
          rw [hq, replaceAll, if_pos (by simp [List.isPrefixOf])]
          simp only [List.length_cons, List.length_nil, List.length_append, quotes3] at h
          show b!"\\\"\"\"" ++ replaceAll _ _ 2 (34 :: 34 :: utf8 t') = _
          rw [replaceAll, replaceAll, ih _ (by omega), utf8_cons, utf8_append]; rfl
        · rw [replaceAll_char hq, escQ_char hq, utf8_cons]
          rw [ih _ (by simpa using h)]
  exact this _ cs (Nat.le_refl _)

theorem contains_utf8 (cs : List Char) : (utf8 cs).contains 10 = true ↔ '\n' ∈ cs := by
  induction cs with
  | nil => simp [utf8]
  | cons c cs ih =>
    rw [utf8_cons, List.contains_iff_mem, List.mem_append, ← List.contains_iff_mem (as := utf8 cs), ih, List.mem_cons]
    constructor
    · rintro (h | h)
      · by_cases hc : c = '\n'
        · exact .inl hc.symm
        · exact absurd rfl (utf8Char_not10 hc _ h)
      · exact .inr h
    · rintro (h | h)
      · subst h; exact .inl (by decide)
      · exact .inr h

/-- `n` spaces. -/
abbrev spaces (n : Nat) : List Char := List.replicate n ' '

theorem indentOf_eq (d : Nat) : indentOf d = utf8 (spaces (2 * d)) := by
  induction d with
  | zero => rfl
  | succ d ih =>
    rw [show 2 * (d + 1) = 2 * d + 1 + 1 by omega, spaces, List.replicate_succ, List.replicate_succ, utf8_cons, utf8_cons]
    show indentation ++ indentOf d = _
    rw [ih]; rfl

/-- Every line feed is followed by an indentation. -/
def indentAfter (w : List Char) : List Char → List Char
  | [] => []
  | c :: t => if c = '\n' then c :: (w ++ indentAfter w t) else c :: indentAfter w t

theorem indentAfter_nil (s : List Char) : indentAfter [] s = s := by
  induction s with
  | nil => rfl
  | cons c s ih => rw [indentAfter]; split <;> simp [ih]

theorem intercalate_lines (w : List Char) (s : List Char) :
    ['\n'].intercalate ((splitLF s).map (w ++ ·)) = w ++ indentAfter w s := by
  induction s with
  | nil => simp [splitLF, indentAfter]
  | cons c s ih =>
    rw [splitLF, indentAfter]
    have hn := splitLF_ne_nil s
    split
    · rename_i h; subst h
      cases e : splitLF s with
      | nil => exact absurd e hn
      | cons a r =>
        rw [e] at ih
        rw [List.map_cons, List.intercalate_cons_of_ne_nil (by simp), ih]
        simp
    · cases e : splitLF s with
      | nil => exact absurd e hn
      | cons a r =>
        rw [e] at ih
        dsimp only
        rw [List.map_cons] at ih ⊢
        cases r with
        | nil => simp at ih ⊢; exact ih
        | cons b r =>
          rw [List.intercalate_cons_of_ne_nil (by simp)] at ih ⊢
          simp only [List.append_assoc, List.cons_append, List.append_cancel_left_eq, List.nil_append] at ih ⊢
          rw [ih]

theorem indentLines_eq (ind : List Char) : ∀ (n i : Nat) (ls : List (List Char)), i + ls.length = n → ls ≠ [] →
    indentLines (utf8 ind) n i (ls.map utf8) = utf8 (['\n'].intercalate (ls.map (ind ++ c!"  " ++ ·)))
  | n, i, [], _, h => absurd rfl h
  | n, i, [l], h, _ => by
    have : i = n - 1 := by simp at h; omega
    simp only [List.map_cons, List.map_nil, indentLines, List.append_nil, List.intercalate_singleton, this, ne_eq, not_true_eq_false, if_false]
    rw [utf8_append, utf8_append]; rfl
  | n, i, l :: m :: ls, h, _ => by
    have ih := indentLines_eq ind n (i + 1) (m :: ls) (by simp at h ⊢; omega) (by simp)
    have : i ≠ n - 1 := by simp at h; omega
    rw [List.map_cons, indentLines, ih, List.map_cons (l := m :: ls), List.intercalate_cons_of_ne_nil (by simp), if_pos this]
    simp only [utf8_append]; rfl

/-- The printed form of a string with line feeds. -/
theorem dumpString_block {cs : List Char} (d : Nat) (h : '\n' ∈ cs) : dumpString d (utf8 cs) =
    utf8 (quotes3 ++ '\n' :: (spaces (2 * d + 2) ++ indentAfter (spaces (2 * d + 2)) (escQ cs) ++ '\n' :: (spaces (2 * d) ++ quotes3))) := by
  unfold dumpString
  rw [if_pos ((contains_utf8 cs).2 h)]
  dsimp only
  rw [escapeBlock_utf8, splitOn_utf8, List.length_map, indentOf_eq, indentLines_eq _ _ _ _ (by omega) (splitLF_ne_nil _)]
  have : (fun l => spaces (2 * d) ++ c!"  " ++ l) = (spaces (2 * d + 2) ++ ·) := by
    funext l
    rw [spaces, spaces, ← List.replicate_append_replicate]; rfl
  rw [this, intercalate_lines]
  simp only [utf8_append, utf8_cons, List.append_assoc]; rfl

theorem dumpString_quoted {cs : List Char} (d : Nat) (h : '\n' ∉ cs) : dumpString d (utf8 cs) = utf8 ('"' :: (cs.flatMap escChar ++ ['"'])) := by
  unfold dumpString
  rw [if_neg (fun h2 => h ((contains_utf8 cs).1 h2)), escapeString_utf8, utf8_cons, utf8_append]; rfl

theorem noQuotes {c : Char} {t : List Char} (h : '"' ≠ c) : ¬ quotes3 <+: (c :: t) := by
  rw [quotes3, List.cons_prefix_cons]; exact fun h2 => h h2.1

/-- Escaped or not. -/
def escIf (esc : Bool) (s : List Char) : List Char := if esc then escQ s else s

theorem escIf_char {esc : Bool} {c : Char} {t : List Char} (h : ¬ quotes3 <+: (c :: t)) : escIf esc (c :: t) = c :: escIf esc t := by
  cases esc
  · rfl
  · exact escQ_char h

/-- The printed text does not begin with more quotes than the string. -/
theorem prefix_back {esc : Bool} {w x : List Char} : ∀ (n : Nat) (s : List Char), n ≤ 3 → List.replicate n '"' <+: indentAfter w (escIf esc s) ++ '\n' :: x →
    List.replicate n '"' <+: s
  | 0, _, _, _ => by simp
  | n + 1, s, hn, h => by
    cases s with
    | nil =>
      have h : List.replicate (n + 1) '"' <+: '\n' :: x := by cases esc <;> exact h
      rw [List.replicate_succ, List.cons_prefix_cons] at h
      exact absurd h.1 (by decide)
    | cons c t =>
      by_cases hq : quotes3 <+: (c :: t)
      · refine List.IsPrefix.trans ?_ hq
        rw [show quotes3 = List.replicate 3 '"' from rfl]
        exact List.prefix_replicate_iff.2 ⟨by simpa using hn, by simp⟩
      · rw [escIf_char hq, indentAfter] at h
        have h : List.replicate (n + 1) '"' <+: c :: (if c = '\n' then w ++ indentAfter w (escIf esc t) else indentAfter w (escIf esc t)) ++ '\n' :: x := by
          split at h <;> simpa [*] using h
        rw [List.replicate_succ, List.cons_append, List.cons_prefix_cons] at h
        rw [List.replicate_succ, List.cons_prefix_cons]
        obtain ⟨rfl, h⟩ := h
        rw [if_neg (by decide)] at h
        exact ⟨rfl, prefix_back n t (by omega) h⟩

theorem goText_spaces {s v rest : List Char} (n : Nat) (h : GoBlockText s v rest) : GoBlockText (spaces n ++ s) (spaces n ++ v) rest := by
  induction n with
  | zero => exact h
  | succ n ih =>
    rw [spaces, List.replicate_succ]
    exact .char ' ' (by decide) (by decide) (noQuotes (by decide)) (.inl (by decide)) ih

/-- The indented text is read as the indented string. -/
theorem goText_body {esc : Bool} {k : Nat} {s : List Char} (h : BlockOk esc s) {x v rest : List Char} (hx : GoBlockText x v rest) :
    GoBlockText (indentAfter (spaces k) (escIf esc s) ++ '\n' :: x) (indentAfter (spaces k) s ++ '\n' :: v) rest := by
  have nl : ∀ {x v}, GoBlockText x v rest → GoBlockText ('\n' :: x) ('\n' :: v) rest := fun h =>
    .char '\n' (by decide) (by decide) (noQuotes (by decide)) (.inr rfl) h
  have notq : ∀ {c : Char} {t : List Char}, ¬ quotes3 <+: (c :: t) → c ≠ '\n' → ¬ quotes3 <+: c :: (indentAfter (spaces k) (escIf esc t) ++ '\n' :: x) := by
    intro c t h hc h2
    rw [quotes3, List.cons_prefix_cons] at h2
    obtain ⟨rfl, h2⟩ := h2
    refine h ?_
    rw [quotes3, List.cons_prefix_cons]
    exact ⟨rfl, prefix_back 2 t (by omega) h2⟩
  induction h with
  | nil => cases esc <;> exact nl hx
  | last =>
    have : escIf esc ['\\'] = ['\\'] := by cases esc <;> rfl
    rw [this]
    exact .pair '\n' (noQuotes (by decide)) hx
  | @pair c s hq hs ih =>
    rw [escIf_char (noQuotes (by decide)), escIf_char hq]
    by_cases hc : c = '\n'
    · subst hc
      simp only [indentAfter, if_true, if_false, List.cons_append, List.append_assoc, show ('\\' = '\n') = False from eq_false (by decide)]
      exact .pair '\n' (noQuotes (by decide)) (goText_spaces k ih)
    · simp only [indentAfter, if_neg hc, if_false, List.cons_append, show ('\\' = '\n') = False from eq_false (by decide)]
      exact .pair c (notq hq hc) ih
  | @quotes s he hs ih =>
    subst he
    have : escIf true (quotes3 ++ s) = '\\' :: (quotes3 ++ escIf true s) := rfl
    rw [this]
    exact .esc ih
  | @char c s h1 h2 h3 h4 hs ih =>
    rw [escIf_char h3]
    by_cases hc : c = '\n'
    · subst hc
      simp only [indentAfter, if_true, List.cons_append, List.append_assoc]
      exact nl (goText_spaces k ih)
    · simp only [indentAfter, if_neg hc, List.cons_append]
      exact .char c h1 h2 (notq h3 hc) h4 ih

/-! ### The lines -/

theorem splitLF_append (a b : List Char) : splitLF (a ++ '\n' :: b) = splitLF a ++ splitLF b := by
  induction a with
  | nil => simp [splitLF]
  | cons c a ih =>
    rw [List.cons_append, splitLF, splitLF, ih]
    split
    · rfl
    · cases e : splitLF a with
      | nil => exact absurd e (splitLF_ne_nil a)
      | cons x xs => rfl

theorem splitLF_noLF {a : List Char} (h : '\n' ∉ a) : splitLF a = [a] := by
  induction a with
  | nil => rfl
  | cons c a ih =>
    rw [List.mem_cons, not_or] at h
    rw [splitLF, if_neg (fun e => h.1 e.symm), ih h.2]

theorem splitLF_prefix {w : List Char} (hw : '\n' ∉ w) (s : List Char) : ∀ l ls, splitLF s = l :: ls → splitLF (w ++ s) = (w ++ l) :: ls := by
  induction w with
  | nil => intro l ls h; exact h
  | cons c w ih =>
    rw [List.mem_cons, not_or] at hw
    intro l ls h
    rw [List.cons_append, splitLF, if_neg (fun e => hw.1 e.symm), ih hw.2 l ls h]; rfl

theorem splitLF_indent {w : List Char} (hw : '\n' ∉ w) (s : List Char) : splitLF (w ++ indentAfter w s) = (splitLF s).map (w ++ ·) := by
  induction s with
  | nil => rw [indentAfter, List.append_nil, splitLF_noLF hw]; simp [splitLF]
  | cons c s ih =>
    rw [indentAfter, splitLF]
    split
    · rename_i h; subst h
      rw [splitLF_append, ih, splitLF_noLF hw]; simp
    · rename_i h
      cases e : splitLF s with
      | nil => exact absurd e (splitLF_ne_nil s)
      | cons l ls =>
        rw [e] at ih
        have : splitLF (indentAfter w s) = l :: ls.map (w ++ ·) := by
          cases e2 : splitLF (indentAfter w s) with
          | nil => exact absurd e2 (splitLF_ne_nil _)
          | cons x xs =>
            rw [splitLF_prefix hw _ _ _ e2] at ih
            simpa using ih
        have h2 : splitLF (c :: indentAfter w s) = (c :: l) :: ls.map (w ++ ·) := by
          rw [splitLF, if_neg h, this]
        rw [splitLF_prefix hw _ _ _ h2]; rfl

theorem join_splitLF (s : List Char) : ['\n'].intercalate (splitLF s) = s := by
  have := intercalate_lines [] s
  simpa [indentAfter_nil] using this

theorem indent_spaces (k : Nat) (l : List Char) : indent (spaces k ++ l) = (indent l).map (k + ·) := by
  unfold indent
  have h1 : (spaces k ++ l).all whiteSpace = l.all whiteSpace := by
    rw [List.all_append, show (spaces k).all whiteSpace = true from by simp [List.all_replicate, whiteSpace]]; simp
  rw [h1]
  split
  · rfl
  · have : (spaces k ++ l).takeWhile whiteSpace = spaces k ++ l.takeWhile whiteSpace := by
      rw [List.takeWhile_append_of_pos]
      intro c hc
      rw [List.eq_of_mem_replicate hc]; decide
    rw [this]; simp

theorem min_zero {l : List Nat} {k : Nat} (h : k ∈ l) (h2 : ∀ x ∈ l, k ≤ x) : l.min? = some k :=
  List.min?_eq_some_iff.2 ⟨h, h2⟩

theorem trim_ok {ls : List (List Char)} (h1 : ∀ l, ls.head? = some l → blank l = false) (h2 : ∀ l, ls.getLast? = some l → blank l = false) (hn : ls ≠ []) :
    trimLines ([] :: (ls ++ [[]])) = ls := by
  unfold trimLines
  have d1 : ([] :: (ls ++ [[]])).dropWhile (fun l : List Char => l.all whiteSpace) = ls ++ [[]] := by
    rw [List.dropWhile_cons, if_pos (by rfl)]
    cases ls with
    | nil => exact absurd rfl hn
    | cons l ls =>
      have := h1 l rfl
      rw [blank] at this
      rw [List.cons_append, List.dropWhile_cons, if_neg (by rw [this]; simp)]
  dsimp only
  rw [d1, List.reverse_append]
  have d2 : ([[]].reverse ++ ls.reverse).dropWhile (fun l : List Char => l.all whiteSpace) = ls.reverse := by
    show ([] :: ls.reverse).dropWhile _ = _
    rw [List.dropWhile_cons, if_pos (by rfl)]
    cases e : ls.reverse with
    | nil => rfl
    | cons l r =>
      have hl : ls.getLast? = some l := by rw [← List.head?_reverse, e]; rfl
      have := h2 l hl
      rw [blank] at this
      rw [List.dropWhile_cons, if_neg (by rw [this]; simp)]
  rw [d2, List.reverse_reverse]

/-- The raw value of a printed block string has the string as its value. -/
theorem formatBlock_ok {k m : Nat} (hm : m ≤ k) {s : List Char} (h : LinesOk (splitLF s)) :
    formatBlock (splitLF ('\n' :: (spaces k ++ indentAfter (spaces k) s ++ '\n' :: spaces m))) = s := by
  obtain ⟨h1, h2, c, l, hl, hc⟩ := h
  have nsp : ∀ n, '\n' ∉ spaces n := by
    intro n hn; exact absurd (List.eq_of_mem_replicate hn) (by decide)
  have e : splitLF ('\n' :: (spaces k ++ indentAfter (spaces k) s ++ '\n' :: spaces m)) = [] :: ((splitLF s).map (spaces k ++ ·) ++ [spaces m]) := by
    have := splitLF_append [] (spaces k ++ indentAfter (spaces k) s ++ '\n' :: spaces m)
    rw [List.nil_append] at this
    rw [this, splitLF_append, splitLF_indent (nsp k), splitLF_noLF (nsp m)]; rfl
  rw [e]
  have hci : commonIndent ([] :: ((splitLF s).map (spaces k ++ ·) ++ [spaces m])) = some k := by
    unfold commonIndent
    rw [List.tail_cons]
    apply min_zero
    · rw [List.mem_filterMap]
      refine ⟨spaces k ++ c :: l, by simp [hl], ?_⟩
      rw [indent_spaces]
      simp [indent, hc]
    · intro x hx
      obtain ⟨y, hy, e⟩ := List.mem_filterMap.1 hx
      rcases List.mem_append.1 hy with hy | hy
      · obtain ⟨z, -, rfl⟩ := List.mem_map.1 hy
        rw [indent_spaces] at e
        cases hi : indent z with
        | none => rw [hi] at e; cases e
        | some i => rw [hi] at e; simp at e; omega
      · rw [List.mem_singleton] at hy
        subst hy
        have := indent_spaces m []
        rw [List.append_nil] at this
        rw [this] at e; cases e
  unfold formatBlock
  rw [hci]
  dsimp only
  have e2 : ((splitLF s).map (spaces k ++ ·) ++ [spaces m]).map (List.drop k) = splitLF s ++ [[]] := by
    rw [List.map_append, List.map_map]
    have a1 : (List.drop k ∘ fun x => spaces k ++ x) = id := by
      funext x
      show List.drop k (spaces k ++ x) = x
      exact List.drop_left' (by simp)
    have a2 : List.drop k (spaces m) = [] := List.drop_eq_nil_of_le (by simpa using hm)
    rw [a1]; simp [a2]
  rw [e2, trim_ok h1 h2 (splitLF_ne_nil s), join_splitLF]

/-- A block string as the dumper prints it, read back. -/
theorem block_lexeme {esc : Bool} {k m : Nat} (hm : m ≤ k) {s : List Char} (h : BlockOk esc s) (h2 : LinesOk (splitLF s)) (rest : List Char) :
    Lexeme GoBlock (quotes3 ++ ('\n' :: (spaces k ++ indentAfter (spaces k) (escIf esc s) ++ '\n' :: (spaces m ++ (quotes3 ++ rest))))) ⟨.string, s⟩ rest := by
  refine .block ⟨_, ?_, (formatBlock_ok hm h2).symm⟩
  refine .char '\n' (by decide) (by decide) (noQuotes (by decide)) (.inr rfl) ?_
  rw [List.append_assoc, List.append_assoc]
  refine goText_spaces k (goText_body h ?_)
  have := goText_spaces m (.close rest)
  rwa [List.append_nil] at this

/-! ### NUL -/

theorem block_not_nul {cs : List Char} (d : Nat) (hz : '\x00' ∉ cs) :
    '\x00' ∉ quotes3 ++ '\n' :: (spaces (2 * d + 2) ++ indentAfter (spaces (2 * d + 2)) (escQ cs) ++ '\n' :: (spaces (2 * d) ++ quotes3)) := by
  have hi : ∀ (w s : List Char), '\x00' ∉ w → '\x00' ∉ s → '\x00' ∉ indentAfter w s := by
    intro w s hw
    induction s with
    | nil => simp [indentAfter]
    | cons c s ih =>
      intro hs
      rw [List.mem_cons, not_or] at hs
      rw [indentAfter]
      split <;> simp [hs.1, hw, ih hs.2]
  have he : ∀ (n : Nat) (s : List Char), s.length ≤ n → '\x00' ∉ s → '\x00' ∉ escQ s := by
    intro n
    induction n with
    | zero => intro s h h2; rw [List.length_eq_zero_iff.1 (Nat.le_zero.1 h)]; simp [escQ]
    | succ n ih =>
      intro s hl h2
      cases s with
      | nil => simp [escQ]
      | cons c s =>
        rw [List.mem_cons, not_or] at h2
        by_cases hq : quotes3 <+: (c :: s)
        · obtain ⟨u, e⟩ := hq
          rw [← e, escQ_quotes]
          have hu : '\x00' ∉ u := by
            intro h0
            have : '\x00' ∈ c :: s := by rw [← e]; simp [h0]
            rcases List.mem_cons.1 this with h | h
            · exact h2.1 h
            · exact h2.2 h
          have : u.length ≤ n := by
            have := congrArg List.length e
            simp [quotes3] at this hl; omega
          simp [quotes3, ih u this hu]
        · rw [escQ_char hq]
          simp [h2.1, ih s (by simpa using hl) h2.2]
  have hs : ∀ n, '\x00' ∉ spaces n := fun n h0 => absurd (List.eq_of_mem_replicate h0) (by decide)
  simp [hs, hi _ _ (hs _) (he _ cs (Nat.le_refl _) hz), quotes3]

theorem quoted_not_nul {cs : List Char} (hz : '\x00' ∉ cs) : '\x00' ∉ '"' :: (cs.flatMap escChar ++ ['"']) := by
  have nesc : ∀ c : Char, c ≠ '\x00' → '\x00' ∉ escChar c := by
    intro c hc
    unfold escChar
    have hx : ∀ n, n < 16 → '\x00' ≠ hexChar n := by decide
    split
    · have l1 : c.toNat / 4096 < 16 := by omega
      have l2 : c.toNat / 256 % 16 < 16 := by omega
      have l3 : c.toNat / 16 % 16 < 16 := by omega
      have l4 : c.toNat % 16 < 16 := by omega
      simp only [List.mem_cons, List.not_mem_nil, or_false, not_or]
      exact ⟨by decide, by decide, hx _ l1, hx _ l2, hx _ l3, hx _ l4⟩
    · repeat' split
      all_goals first | decide | (simpa using fun h => hc h.symm)
  simp only [List.mem_cons, List.mem_append, List.mem_flatMap, List.not_mem_nil, or_false, not_or, not_exists, not_and]
  exact ⟨by decide, fun c hc => nesc c fun e => hz (e ▸ hc), by decide⟩

end GQL
