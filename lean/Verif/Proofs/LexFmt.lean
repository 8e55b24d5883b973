/-
`blockStringLiteral` on UTF-8 text is `formatBlock` of its lines.
-/
import Verif.Proofs.LexBlock

namespace GQL
open Spec

theorem utf8Char_not10 {c : Char} (h : c ≠ '\n') : ∀ b ∈ utf8Char c, b ≠ 10 := by
  by_cases hx : c.toNat < 128
  · rw [utf8Char_ascii c hx]
    intro b hb
    simp only [List.mem_singleton] at hb
    subst hb
    exact toNat_ne (d := '\n') h
  · rw [utf8Char_eq, encodeRune_eq _ (char_valid c), if_neg hx]
    repeat' split
    all_goals (intro b hb; simp only [List.mem_cons, List.not_mem_nil, or_false] at hb; omega)

theorem splitOn_ne_nil (x : Nat) (b : Bytes) : splitOn x b ≠ [] := by
  cases b with
  | nil => simp [splitOn]
  | cons b t =>
    rw [splitOn]
    split
    · simp
    · split <;> simp

/-- Put `p` in front of the first line. -/
def pre1 (p : Bytes) : List Bytes → List Bytes
  | [] => [p]
  | h :: r => (p ++ h) :: r

theorem splitOn_app (x : Nat) (p t : Bytes) (hp : ∀ b ∈ p, b ≠ x) :
    splitOn x (p ++ t) = pre1 p (splitOn x t) := by
  induction p with
  | nil =>
    cases e : splitOn x t with
    | nil => exact absurd e (splitOn_ne_nil _ _)
    | cons h r => simp [pre1, e]
  | cons b p ih =>
    rw [List.cons_append, splitOn, if_neg (hp b (List.mem_cons_self ..)),
      ih (fun b hb => hp b (List.mem_cons_of_mem _ hb))]
    cases e : splitOn x t <;> simp [pre1]

theorem splitLF_ne_nil (s : List Char) : splitLF s ≠ [] := by
  cases s with
  | nil => simp [splitLF]
  | cons b t =>
    rw [splitLF]
    split
    · simp
    · split <;> simp

theorem splitOn_utf8 (s : List Char) : splitOn 10 (utf8 s) = (splitLF s).map utf8 := by
  induction s with
  | nil => rfl
  | cons c s ih =>
    rw [utf8_cons, splitLF]
    split
    · rename_i h; subst h
      rw [show utf8Char '\n' = [10] by decide]
      show splitOn 10 (10 :: utf8 s) = _
      rw [splitOn, if_pos rfl, ih]; rfl
    · rename_i h
      rw [splitOn_app _ _ _ (utf8Char_not10 h), ih]
      cases e : splitLF s with
      | nil => exact absurd e (splitLF_ne_nil _)
      | cons a r => simp [pre1, utf8_cons]

theorem whiteSpace_ascii {c : Char} (h : whiteSpace c = true) : c.toNat = 32 ∨ c.toNat = 9 := by
  simp only [whiteSpace, Bool.or_eq_true, beq_iff_eq] at h
  rcases h with rfl | rfl <;> simp

theorem leadingWhitespace_utf8 (ln : List Char) : leadingWhitespace (utf8 ln) = indent ln := by
  induction ln with
  | nil => rfl
  | cons c ln ih =>
    rw [utf8_cons]
    by_cases hw : whiteSpace c = true
    · have hc := whiteSpace_ascii hw
      rw [utf8Char_ascii c (by omega)]
      show leadingWhitespace (c.toNat :: utf8 ln) = _
      rw [leadingWhitespace, if_pos hc, ih]
      unfold indent
      simp only [List.all_cons, hw, Bool.true_and, List.takeWhile_cons, if_true]
      split <;> simp
    · have hi : indent (c :: ln) = some 0 := by
        unfold indent; simp [hw]
      rw [hi]
      by_cases hx : c.toNat < 128
      · rw [utf8Char_ascii c hx]
        show leadingWhitespace (c.toNat :: utf8 ln) = _
        rw [leadingWhitespace, if_neg]
        rintro (h | h)
        · exact hw (by rw [toNat_inj (c := c) (d := ' ') h]; rfl)
        · exact hw (by rw [toNat_inj (c := c) (d := '\t') h]; rfl)
      · obtain ⟨b, b', t, hc, hb, -⟩ := utf8Char_wide c hx
        rw [hc]
        show leadingWhitespace (b :: _) = _
        rw [leadingWhitespace, if_neg (by omega)]

theorem blankLine_utf8 (ln : List Char) : blankLine (utf8 ln) = ln.all whiteSpace := by
  unfold blankLine
  rw [leadingWhitespace_utf8]
  unfold indent
  split <;> simp_all

theorem length_utf8_le (ln : List Char) : ln.length ≤ (utf8 ln).length := by
  induction ln with
  | nil => simp
  | cons c cs ih =>
    have := utf8Char_length_pos c
    rw [utf8_cons, List.length_append, List.length_cons]; omega

theorem indent_lt {ln : List Char} {i : Nat} (h : indent ln = some i) : i < ln.length := by
  unfold indent at h
  split at h
  · cases h
  · rename_i ha
    cases h
    induction ln with
    | nil => simp at ha
    | cons c cs ih =>
      rw [List.takeWhile_cons]
      split
      · rename_i hw
        simp only [List.all_cons, hw, Bool.true_and] at ha
        simp only [List.length_cons]
        have := ih ha; omega
      · simp

/-- The smaller of two optional numbers. -/
def omin (a b : Option Nat) : Option Nat :=
  match a, b with
  | none, b => b
  | a, none => a
  | some a, some b => some (min a b)

theorem commonIndentLoop_eq (ci : Option Nat) (lns : List (List Char)) (hc : ci ≠ some 0) :
    commonIndentLoop ci (lns.map utf8) = (lns.filterMap indent).foldl (fun a i => omin a (some i)) ci := by
  induction lns generalizing ci with
  | nil => rfl
  | cons ln lns ih =>
    rw [List.map_cons, commonIndentLoop, leadingWhitespace_utf8]
    cases hi : indent ln with
    | none => simp only [List.filterMap_cons, hi]; exact ih ci hc
    | some i =>
      have h1 := indent_lt hi
      have h2 := length_utf8_le ln
      simp only [List.filterMap_cons, hi, List.foldl_cons]
      have hz : ∀ l : List Nat, l.foldl (fun a i => omin a (some i)) (some 0) = some 0 := by
        intro l; induction l with
        | nil => rfl
        | cons a l ih => simp only [List.foldl_cons, omin, Nat.zero_min]; exact ih
      cases ci with
      | none =>
        simp only [show decide (i < (utf8 ln).length) = true by simp; omega, Bool.true_and, if_true]
        split
        · subst_vars; rw [show omin none (some 0) = some 0 from rfl, hz]
        · rw [ih _ (by simp; omega)]; rfl
      | some c =>
        simp only [show decide (i < (utf8 ln).length) = true by simp; omega, Bool.true_and,
          decide_eq_true_eq]
        have : omin (some c) (some i) = some (min c i) := rfl
        rw [this]
        split
        · rename_i hlt
          rw [Nat.min_eq_right (by omega)]
          split
          · subst_vars; rw [hz]
          · rw [ih _ (by simp; omega)]
        · rw [Nat.min_eq_left (by omega), ih _ hc]

theorem foldl_omin (l : List Nat) : l.foldl (fun a i => omin a (some i)) none = l.min? := by
  cases l with
  | nil => rfl
  | cons a l =>
    rw [List.min?_cons']
    simp only [List.foldl_cons, omin]
    induction l generalizing a with
    | nil => rfl
    | cons b l ih => simp only [List.foldl_cons, omin]; exact ih _

theorem drop_utf8 (ln : List Char) (n : Nat) (h : ∀ i, indent ln = some i → n ≤ i) :
    (if (utf8 ln).length < n then [] else (utf8 ln).drop n) = utf8 (ln.drop n) := by
  have key : ∀ (ln : List Char) (n : Nat), (∀ i, indent ln = some i → n ≤ i) →
      (utf8 ln).drop n = utf8 (ln.drop n) := by
    intro ln
    induction ln with
    | nil => intro n _; simp [utf8]
    | cons c ln ih =>
      intro n h
      obtain _ | n := n
      · rfl
      by_cases hw : whiteSpace c = true
      · have hc := whiteSpace_ascii hw
        rw [utf8_cons, utf8Char_ascii c (by omega)]
        show (utf8 ln).drop n = _
        rw [List.drop_succ_cons]
        apply ih
        intro i hi
        have := h (i + 1) (by
          unfold indent at hi ⊢
          simp only [List.all_cons, hw, Bool.true_and, List.takeWhile_cons, if_true, List.length_cons]
          split at hi
          · cases hi
          · rename_i hh; cases hi; rw [if_neg hh])
        omega
      · have := h 0 (by unfold indent; simp [hw])
        omega
  split
  · have hl := length_utf8_le ln
    rw [List.drop_eq_nil_of_le (by omega)]; rfl
  · exact key ln n h

theorem joinWith_utf8 (ls : List (List Char)) :
    joinWith [10] (ls.map utf8) = utf8 (['\n'].intercalate ls) := by
  have h10 : utf8 ['\n'] = [10] := by decide
  induction ls with
  | nil => rfl
  | cons a ls ih =>
    cases ls with
    | nil => simp [joinWith, List.intercalate]
    | cons b ls =>
      simp only [List.map_cons, joinWith] at ih ⊢
      rw [ih]
      have : ['\n'].intercalate (a :: b :: ls) = a ++ ['\n'] ++ ['\n'].intercalate (b :: ls) := by
        simp [List.intercalate, List.intersperse]
      rw [this, utf8_append, utf8_append, h10]

theorem map_dropWhile_utf8 (ls : List (List Char)) :
    (ls.map utf8).dropWhile blankLine = (ls.dropWhile (fun l => l.all whiteSpace)).map utf8 := by
  rw [List.dropWhile_map]
  congr 2
  funext l
  exact blankLine_utf8 l

theorem trimBlank_utf8 (ls : List (List Char)) : trimBlank (ls.map utf8) = (trimLines ls).map utf8 := by
  unfold trimBlank trimLines
  rw [map_dropWhile_utf8, ← List.map_reverse, map_dropWhile_utf8, ← List.map_reverse]

/-- `blockStringLiteral` formats the lines of the raw value. -/
theorem blockStringLiteral_utf8 (raw : List Char) :
    blockStringLiteral (utf8 raw) = (utf8 (formatBlock (splitLF raw)), (splitLF raw).length) := by
  unfold blockStringLiteral
  rw [splitOn_utf8]
  simp only [List.length_map]
  generalize hls : splitLF raw = ls
  have hne : ls ≠ [] := hls ▸ splitLF_ne_nil raw
  rw [Prod.mk.injEq]
  refine ⟨?_, rfl⟩
  unfold formatBlock
  rw [← joinWith_utf8, ← trimBlank_utf8]
  congr 2
  obtain _ | ⟨f, ls⟩ := ls
  · exact absurd rfl hne
  cases ls with
  | nil =>
    simp only [List.map_cons, List.map_nil, List.length_cons, List.length_nil]
    rw [if_neg (by omega)]
    unfold stripIndent commonIndent
    simp only [List.tail_cons, List.filterMap_nil]
    cases commonIndentLoop none [utf8 f] <;> simp
  | cons g ls =>
    rw [if_pos (by simp)]
    have : ((f :: g :: ls).map utf8).drop 1 = (g :: ls).map utf8 := rfl
    rw [this, commonIndentLoop_eq none _ (by simp), foldl_omin]
    have hci : commonIndent (f :: g :: ls) = ((g :: ls).filterMap indent).min? := rfl
    rw [hci]
    cases hm : ((g :: ls).filterMap indent).min? with
    | none => rfl
    | some n =>
      have e1 : (f :: g :: ls).map utf8 = utf8 f :: (g :: ls).map utf8 := rfl
      rw [e1]
      simp only [stripIndent]
      rw [List.map_cons (a := f), List.map_map, List.map_map]
      congr 1
      apply List.map_congr_left
      intro ln hln
      apply drop_utf8
      intro i hi
      have := List.min?_getD_le_of_mem (k := 0) (List.mem_filterMap.2 ⟨ln, hln, hi⟩)
      rw [hm] at this; exact this

/-- `scanBlockString` on a block string. -/
theorem scanBlock_complete {l : Lexer} {s raw rest lx : List Char} (h : GoBlockText s raw rest)
    (hs : s = lx ++ rest) (ha : At l s) (hz : NoNul s) :
    scanBlockString l = .ret (⟨.stringValue, utf8 (formatBlock (splitLF raw)), l.line, (l.lpos : Int) - 2⟩,
      { l.advs lx with line := l.line + ((splitLF raw).length - 1) }) := by
  have hn : s.length < l.fuel := fuel_length ha
  obtain ⟨cr, e, h1, -, -, h2⟩ := bpass1_complete h hs ha hz hn false false
  unfold scanBlockString
  rw [h1]; dsimp only
  split
  · rename_i hh
    simp only [Bool.and_eq_true, Bool.not_eq_true'] at hh
    have hlx := h2 hh.1 hh.2
    subst hlx
    have hq : (utf8 quotes3).length = 3 := by decide
    have hp : (l.advs (raw ++ quotes3)).pos - 3 = l.pos + (utf8 raw).length := by
      rw [advs_pos, utf8_append, List.length_append]; omega
    rw [hp, advs_input]
    have hat : At l (raw ++ (quotes3 ++ rest)) := by rw [hs] at ha; simpa using ha
    rw [slice_at hat]; dsimp only
    rw [blockStringLiteral_utf8]; rfl
  · rw [bpass2_complete h hs ha hz hn]; dsimp only
    rw [List.nil_append, blockStringLiteral_utf8]; rfl

/-- `scanBlockString` yields an Illegal token or the text is a block string. -/
theorem scanBlock_sound {l : Lexer} {s : List Char} (ha : At l s) (hz : NoNul s) :
    (∃ raw rest, GoBlockText s raw rest) ∨
    ∃ t l', scanBlockString l = .ret (t, l') ∧ t.kind = .illegal := by
  cases h1 : blockPass1 l.fuel false false l with
  | panic =>
    have := blockPass1_total l.fuel false false l ha.le (by unfold Lexer.fuel; omega)
    rw [h1] at this; simp at this
  | oof =>
    have := blockPass1_total l.fuel false false l ha.le (by unfold Lexer.fuel; omega)
    rw [h1] at this; simp at this
  | ret r =>
    cases r with
    | error e => right; unfold scanBlockString; rw [h1]; exact ⟨_, _, rfl, rfl⟩
    | ok r => left; exact bpass1_sound ha hz h1

end GQL
