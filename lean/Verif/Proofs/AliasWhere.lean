/-
Which tokens are windows on the input buffer, and where (for property C83).
-/
import Verif.Proofs.AliasTouch
import Verif.Proofs.LexRun
import Verif.Proofs.LexFmt
import Verif.Spec.Shared

namespace GQL
open Spec

/-- A quoted string without escapes is found as it is. -/
theorem strText_length {s v rest lx : List Char} (h : StrText s v rest) (hs : s = lx ++ rest) : v.length + 1 ≤ lx.length := by
  have : s.length = lx.length + rest.length := by rw [hs, List.length_append]
  suffices v.length + 1 + rest.length ≤ s.length by omega
  clear this hs lx
  induction h with
  | close => simp only [List.length_cons, List.length_nil]; omega
  | char c _ _ _ _ ih => simp only [List.length_cons]; omega
  | esc e x _ _ ih => simp only [List.length_cons]; omega
  | unicode _ _ _ _ _ ih => simp only [List.length_cons]; omega

theorem pass1_plain {s v rest lx : List Char} (h : StrText s v rest) (hs : s = lx ++ rest) (hp : lx = v ++ ['"'])
    {l : Lexer} (ha : At l s) {n : Nat} (hn : s.length < n) (esc : Bool) :
    stringPass1 n esc l = .ret (.ok (esc, l.advs lx)) := by
  induction h generalizing lx l n esc with
  | close rest =>
    obtain _ | n := n
    · simp at hn
    subst hp
    unfold stringPass1
    rw [rd_cons ha]; dsimp only
    rw [if_pos (show ('"').toNat = 34 by decide)]; rfl
  | @char c s v rest h1 h2 h3 h4 ih =>
    obtain _ | n := n
    · simp at hn
    subst hp
    unfold stringPass1
    rw [rd_cons ha]; dsimp only
    rw [if_neg (show ¬ c.toNat = 34 from toNat_ne (d := '"') h1), if_neg (printable_nat h3), if_neg (show ¬ c.toNat = 92 from toNat_ne (d := '\\') h2)]
    have hs' : s = (v ++ ['"']) ++ rest := List.tail_eq_of_cons_eq hs
    rw [ih hs' rfl ha.adv1 (by simp only [List.length_cons] at hn; omega) esc, ← advs_append]; rfl
  | @esc e x s v rest h1 h2 ih =>
    exfalso
    obtain ⟨lx', e'⟩ := h2.split
    have := strText_length h2 e'
    have := congrArg List.length hs
    rw [hp, e'] at this
    simp only [List.length_cons, List.length_append, List.length_nil] at this
    omega
  | @unicode a b c d i j k m s v rest h1 h2 h3 h4 h5 ih =>
    exfalso
    obtain ⟨lx', e'⟩ := h5.split
    have := strText_length h5 e'
    have := congrArg List.length hs
    rw [hp, e'] at this
    simp only [List.length_cons, List.length_append, List.length_nil] at this
    omega

/-- No backslash: the characters are the value and the quote. -/
theorem strText_plain {s v rest lx : List Char} (h : StrText s v rest) (hs : s = lx ++ rest) : '\\' ∉ lx ↔ lx = v ++ ['"'] := by
  induction h generalizing lx with
  | close rest =>
    have : lx = ['"'] := (List.append_cancel_right (show ['"'] ++ rest = lx ++ rest from hs)).symm
    subst this
    simp
  | @char c s v rest h1 h2 h3 h4 ih =>
    obtain ⟨lx', e⟩ := h4.split
    have : lx = c :: lx' := by
      rw [e, ← List.cons_append] at hs; exact (List.append_cancel_right hs).symm
    subst this
    have := ih e
    simp only [List.mem_cons, List.cons_append, List.cons.injEq, true_and, not_or, ← this]
    exact ⟨fun h => h.2, fun h => ⟨fun e => h2 e.symm, h⟩⟩
  | @esc e x s v rest h1 h2 ih =>
    obtain ⟨lx', e'⟩ := h2.split
    have : lx = '\\' :: e :: lx' := by
      rw [e', ← List.cons_append, ← List.cons_append] at hs; exact (List.append_cancel_right hs).symm
    subst this
    have := strText_length h2 e'
    refine ⟨fun h => absurd (List.mem_cons_self ..) h, fun h => ?_⟩
    have := congrArg List.length h
    simp only [List.length_cons, List.length_append, List.length_nil] at this
    omega
  | @unicode a b c d i j k m s v rest h1 h2 h3 h4 h5 ih =>
    obtain ⟨lx', e'⟩ := h5.split
    have : lx = '\\' :: 'u' :: a :: b :: c :: d :: lx' := by
      rw [e'] at hs; simp only [← List.cons_append] at hs; exact (List.append_cancel_right hs).symm
    subst this
    have := strText_length h5 e'
    refine ⟨fun h => absurd (List.mem_cons_self ..) h, fun h => ?_⟩
    have := congrArg List.length h
    simp only [List.length_cons, List.length_append, List.length_nil] at this
    omega

theorem goBlock_length {s v rest lx : List Char} (h : GoBlockText s v rest) (hs : s = lx ++ rest) : v.length + 3 ≤ lx.length := by
  have : s.length = lx.length + rest.length := by rw [hs, List.length_append]
  suffices v.length + 3 + rest.length ≤ s.length by omega
  clear this hs lx
  induction h with
  | close => simp [quotes3]; omega
  | esc _ ih => simp [quotes3]; omega
  | pair c _ _ ih => simp only [List.length_cons]; omega
  | @cr s v rest h ih => split <;> simp only [List.length_cons] <;> omega
  | char c _ _ _ _ _ ih => simp only [List.length_cons]; omega

/-- A block string in which nothing has to be rewritten is found as it is. -/
theorem bpass1_plain {s raw rest lx : List Char} (h : GoBlockText s raw rest) (hs : s = lx ++ rest) (hp : lx = raw ++ quotes3)
    {l : Lexer} (ha : At l s) (hz : NoNul s) {n : Nat} (hn : s.length < n) (cr e : Bool) :
    blockPass1 n cr e l = .ret (.ok (cr, e, l.advs lx)) := by
  induction h generalizing lx l n cr e with
  | close rest =>
    obtain _ | n := n
    · simp at hn
    subst hp
    have ha' : At l ('"' :: '"' :: '"' :: rest) := ha
    unfold blockPass1
    rw [rd_cons ha']; dsimp only
    rw [if_neg (by decide), if_neg (by decide), if_neg (by decide), if_neg (by decide),
      if_pos (show ('"').toNat = 34 by decide), isTrip_yes ha'.adv1]
    dsimp only
    rw [if_pos rfl, ← advs_append]; rfl
  | @esc s v rest h ih =>
    exfalso
    obtain ⟨lx', e'⟩ := h.split
    have := goBlock_length h e'
    have := congrArg List.length hs
    rw [hp, e'] at this
    simp only [List.length_cons, List.length_append, List.length_nil, quotes3] at this
    omega
  | @pair c s v rest hq h ih =>
    obtain _ | n := n
    · simp at hn
    subst hp
    unfold blockPass1
    rw [rd_cons ha]; dsimp only
    rw [if_pos (show ('\\').toNat = 92 by decide), rd_cons ha.adv1]; dsimp only
    have hs' : s = (v ++ quotes3) ++ rest := List.tail_eq_of_cons_eq (List.tail_eq_of_cons_eq hs)
    have p1 := ih (n := n) hs' rfl ha.adv1.adv1 hz.tail.tail
      (by simp only [List.length_cons] at hn; omega) cr e
    have fin : blockPass1 n cr e ((l.advs ['\\']).advs [c]) =
        .ret (.ok (cr, e, l.advs ('\\' :: c :: v ++ quotes3))) := by
      rw [p1]; simp only [← advs_append]; rfl
    split
    · rename_i hc
      have := toNat_inj (c := c) (d := '"') hc; subst this
      obtain ⟨x, y, z, t, rfl⟩ := h.three
      rw [isTrip_no ha.adv1.adv1 hz.tail.tail (fun hh => hq (pref3.2 hh))]
      simpa using fin
    · exact fin
  | @cr s v rest h ih =>
    exfalso
    obtain ⟨lx', e'⟩ := h.split
    have := goBlock_length h e'
    subst hp
    split at hs
    · have := congrArg List.length hs
      rw [e'] at this
      simp only [List.length_cons, List.length_append, List.length_nil, quotes3] at this
      omega
    · have := (List.cons.inj hs).1
      revert this; decide
  | @char c s v rest h1 h2 h3 h4 h ih =>
    obtain _ | n := n
    · simp at hn
    subst hp
    unfold blockPass1
    rw [rd_cons ha]; dsimp only
    rw [if_neg (show ¬ c.toNat = 92 from toNat_ne (d := '\\') h1),
      if_neg (show ¬ c.toNat = 13 from toNat_ne (d := '\r') h2), if_neg hz.head]
    rw [if_neg (by
      rcases h4 with h4 | rfl
      · have := printable_nat h4; omega
      · decide)]
    have hs' : s = (v ++ quotes3) ++ rest := List.tail_eq_of_cons_eq hs
    have p1 := ih (n := n) hs' rfl ha.adv1 hz.tail
      (by simp only [List.length_cons] at hn; omega) cr e
    have fin : blockPass1 n cr e (l.advs [c]) = .ret (.ok (cr, e, l.advs (c :: v ++ quotes3))) := by
      rw [p1]; simp only [← advs_append]; rfl
    split
    · rename_i hc
      have := toNat_inj (c := c) (d := '"') hc; subst this
      obtain ⟨x, y, z, t, rfl⟩ := h.three
      rw [isTrip_no ha.adv1 hz.tail (fun hh => h3 (pref3.2 hh))]
      simpa using fin
    · exact fin

theorem verbatim_pair {c : Char} {s : List Char} (h : ¬ quotes3 <+: (c :: s)) : verbatim ('\\' :: c :: s) = verbatim s := by
  rw [verbatim]
  intro s' e1 e2
  apply h
  rw [e1, e2]
  exact ⟨_, rfl⟩

theorem verbatim_char {c : Char} {s : List Char} (h1 : c ≠ '\\') (h2 : c ≠ '\r') : verbatim (c :: s) = verbatim s := by
  rw [verbatim]
  · rintro s' rfl; exact absurd rfl h1
  · rintro d s' rfl; exact absurd rfl h1
  · rintro rfl; exact absurd rfl h2

/-- Nothing had to be rewritten: the characters are the raw value and the quotes. -/
theorem goBlock_verbatim {s raw rest lx : List Char} (h : GoBlockText s raw rest) (hs : s = lx ++ rest) : verbatim lx = true ↔ lx = raw ++ quotes3 := by
  induction h generalizing lx with
  | close rest =>
    have : lx = quotes3 := (List.append_cancel_right (show quotes3 ++ rest = lx ++ rest from hs)).symm
    subst this
    exact ⟨fun _ => rfl, fun _ => by decide⟩
  | @esc s v rest h ih =>
    obtain ⟨lx', e'⟩ := h.split
    have hlx : lx = '\\' :: quotes3 ++ lx' := by
      rw [e', ← List.append_assoc] at hs; exact (List.append_cancel_right hs).symm
    subst hlx
    have := goBlock_length h e'
    refine ⟨fun h => ?_, fun h => ?_⟩
    · simp [quotes3, verbatim] at h
    · have := congrArg List.length h
      simp only [List.length_cons, List.length_append, List.length_nil, quotes3] at this
      omega
  | @pair c s v rest hq h ih =>
    obtain ⟨lx', e'⟩ := h.split
    have hlx : lx = '\\' :: c :: lx' := by
      rw [e', ← List.cons_append, ← List.cons_append] at hs; exact (List.append_cancel_right hs).symm
    subst hlx
    have hq' : ¬ quotes3 <+: (c :: lx') := fun hh => hq (by rw [e', ← List.cons_append]; exact hh.trans (List.prefix_append ..))
    rw [verbatim_pair hq', ih e']
    simp
  | @cr s v rest h ih =>
    obtain ⟨lx', e'⟩ := h.split
    have hlx : lx = '\r' :: lx' := by
      rw [e', ← List.cons_append] at hs; exact (List.append_cancel_right hs).symm
    subst hlx
    have := goBlock_length h e'
    refine ⟨fun h => ?_, fun h => ?_⟩
    · simp [verbatim] at h
    · split at h
      · have := congrArg List.length h
        simp only [List.length_cons, List.length_append, List.length_nil, quotes3] at this
        omega
      · exact absurd (List.cons.inj h).1 (by decide)
  | @char c s v rest h1 h2 h3 h4 h ih =>
    obtain ⟨lx', e'⟩ := h.split
    have hlx : lx = c :: lx' := by
      rw [e', ← List.cons_append] at hs; exact (List.append_cancel_right hs).symm
    subst hlx
    rw [verbatim_char h1 h2, ih e']
    simp

theorem splitOn_mem_sep (sep : Nat) : ∀ (s : Bytes), ∀ ln ∈ splitOn sep s, sep ∉ ln
  | [], ln, h => by simp [splitOn] at h; subst h; simp
  | b :: t, ln, h => by
    have ih := splitOn_mem_sep sep t
    rw [splitOn] at h
    split at h
    · rcases List.mem_cons.1 h with rfl | h
      · simp
      · exact ih ln h
    · rename_i hb
      split at h
      · simp at h; subst h
        simp; exact fun e => hb e.symm
      · rename_i hd r e
        rcases List.mem_cons.1 h with rfl | h
        · simp only [List.mem_cons, not_or]
          exact ⟨fun e => hb e.symm, ih hd (by rw [e]; exact List.mem_cons_self ..)⟩
        · exact ih ln (by rw [e]; exact List.mem_cons_of_mem _ h)

/-- The window lies between two places. -/
def Within (lo hi : Nat) (ln : Nat × Bytes) : Prop := lo ≤ ln.1 ∧ ln.1 + ln.2.length ≤ hi

theorem splitOnA_within (sep : Nat) : ∀ (s : Bytes) (off : Nat), ∀ ln ∈ splitOnA sep off s, Within off (off + s.length) ln
  | [], off, ln, h => by simp [splitOnA] at h; subst h; exact ⟨Nat.le_refl _, Nat.le_refl _⟩
  | b :: t, off, ln, h => by
    have ih := splitOnA_within sep t (off + 1)
    have key : ∀ ln, Within (off + 1) (off + 1 + t.length) ln → Within off (off + (b :: t).length) ln := by
      intro ln h
      exact ⟨by have := h.1; omega, by have := h.2; simp only [List.length_cons]; omega⟩
    by_cases hb : b = sep
    · rw [splitOnA, if_pos hb] at h
      rcases List.mem_cons.1 h with rfl | h
      · exact ⟨Nat.le_refl _, by simp⟩
      · exact key ln (ih ln h)
    · obtain ⟨hd, r, e⟩ := splitOnA_head sep (off + 1) t
      rw [splitOnA, if_neg hb, e] at h
      rw [e] at ih
      rcases List.mem_cons.1 h with rfl | h
      · have := (ih _ (List.mem_cons_self ..)).2
        exact ⟨Nat.le_refl _, by simp only [List.length_cons] at this ⊢; omega⟩
      · exact key ln (ih ln (List.mem_cons_of_mem _ h))

theorem stripIndentA_within {lo hi : Nat} (ci : Option Nat) {ls : List (Nat × Bytes)} (h : ∀ ln ∈ ls, Within lo hi ln) :
    ∀ ln ∈ stripIndentA ci ls, Within lo hi ln := by
  unfold stripIndentA
  split
  · rename_i c hd t
    intro ln hl
    rcases List.mem_cons.1 hl with rfl | hl
    · exact h _ (List.mem_cons_self ..)
    · obtain ⟨x, hx, rfl⟩ := List.mem_map.1 hl
      have := h x (List.mem_cons_of_mem _ hx)
      split
      · exact ⟨this.1, by have := this.2; simp only [List.length_nil]; omega⟩
      · exact ⟨by have := this.1; simp only; omega, by have := this.2; simp only [List.length_drop]; omega⟩
  · exact h

theorem stripIndent_noLF {ls : List Bytes} (ci : Option Nat) (h : ∀ ln ∈ ls, 10 ∉ ln) : ∀ ln ∈ stripIndent ci ls, 10 ∉ ln := by
  unfold stripIndent
  split
  · rename_i c hd t
    intro ln hl
    rcases List.mem_cons.1 hl with rfl | hl
    · exact h _ (List.mem_cons_self ..)
    · obtain ⟨x, hx, rfl⟩ := List.mem_map.1 hl
      have := h x (List.mem_cons_of_mem _ hx)
      split
      · simp
      · exact fun hm => this (List.mem_of_mem_drop hm)
  · exact h

theorem trimBlank_mem {ls : List Bytes} {ln} (h : ln ∈ trimBlank ls) : ln ∈ ls := by
  unfold trimBlank at h
  have h1 := List.mem_reverse.1 h
  have h2 := List.mem_reverse.1 ((List.dropWhile_suffix _).subset h1)
  exact (List.dropWhile_suffix _).subset h2

/-- The last line that is left is not blank. -/
theorem trimBlank_one {ls : List Bytes} {ln : Bytes} (h : trimBlank ls = [ln]) : ln ≠ [] := by
  unfold trimBlank at h
  have h1 : List.dropWhile blankLine (List.dropWhile blankLine ls).reverse = [ln] := by
    have := congrArg List.reverse h
    simpa using this
  have := List.head?_dropWhile_not blankLine (List.dropWhile blankLine ls).reverse
  rw [h1] at this
  rintro rfl
  simp [blankLine, leadingWhitespace] at this

theorem joinWith_two (a b : Bytes) (t : List Bytes) : 10 ∈ joinWith [10] (a :: b :: t) := by
  simp [joinWith]

/-- Where the text of a block string is. -/
theorem blockStringLiteralA_where (off : Nat) (raw : Bytes) :
    ((blockStringLiteral raw).1 ≠ [] ∧ 10 ∉ (blockStringLiteral raw).1 →
      ∃ lo len, (blockStringLiteralA off raw).1 = .view lo len ∧ off ≤ lo ∧ lo + len ≤ off + raw.length) ∧
    (¬ ((blockStringLiteral raw).1 ≠ [] ∧ 10 ∉ (blockStringLiteral raw).1) →
      (blockStringLiteralA off raw).1 = .own (blockStringLiteral raw).1) := by
  have hsnd := splitOnA_snd 10 off raw
  have hw := splitOnA_within 10 raw off
  have hlf := splitOn_mem_sep 10 raw
  unfold blockStringLiteral blockStringLiteralA
  dsimp only
  rw [← hsnd] at hlf ⊢
  have hci : (if ((splitOnA 10 off raw).map (·.2)).length > 1 then ((splitOnA 10 off raw).map (·.2)).drop 1 else (splitOnA 10 off raw).map (·.2)) =
      ((if (splitOnA 10 off raw).length > 1 then (splitOnA 10 off raw).drop 1 else splitOnA 10 off raw)).map (·.2) := by
    rw [List.length_map]
    split
    · rw [List.map_drop]
    · rfl
  rw [hci]
  generalize commonIndentLoop none _ = ci
  generalize splitOnA 10 off raw = ls at hw hlf
  have hw2 : ∀ ln ∈ trimBlankA (stripIndentA ci ls), Within off (off + raw.length) ln :=
    fun ln h => stripIndentA_within ci hw ln (trimBlankA_mem h)
  have hlf2 : ∀ ln ∈ trimBlank (stripIndent ci (ls.map (·.2))), 10 ∉ ln := fun ln h => stripIndent_noLF ci hlf ln (trimBlank_mem h)
  have hone : ∀ ln, trimBlank (stripIndent ci (ls.map (·.2))) = [ln] → ln ≠ [] := fun ln h => trimBlank_one h
  rw [← stripIndentA_snd, ← trimBlankA_snd] at hlf2 hone ⊢
  generalize trimBlankA (stripIndentA ci ls) = ms at hw2 hlf2 hone
  match ms, hw2, hlf2, hone with
  | [], _, _, _ => exact ⟨fun h => absurd rfl h.1, fun _ => rfl⟩
  | [ln], hw2, hlf2, hone =>
    have := hw2 ln (List.mem_cons_self ..)
    refine ⟨fun _ => ⟨ln.1, ln.2.length, rfl, this.1, this.2⟩, fun h => absurd ⟨?_, ?_⟩ h⟩
    · exact hone ln.2 rfl
    · exact hlf2 ln.2 (List.mem_cons_self ..)
  | a :: b :: t, _, _, _ =>
    refine ⟨fun h => absurd (joinWith_two _ _ _) h.2, fun _ => rfl⟩

/-- `Scan` after ignored characters and comments. -/
def scanTokA (r w : Nat) (l0 : Lexer) : Out (ATok × Lexer) :=
  if isNameStart r then scanNameA l0
  else if isPunct r then scanPunctuatorA l0 r w
  else if isDigit r ∨ r = 45 then scanNumberA l0 r
  else if r = 34 then
    let (r1, w1, l1) := l0.rd
    let (r2, w2, l2) := l1.rd
    if r1 = 34 ∧ r2 = 34 then scanBlockStringA l2
    else scanStringA ((l2.unread w2).unread w1)
  else if r = 0 then .ret (⟨.eof, .own [], l0.line, l0.lpos + 1⟩, l0)
  else .ret (⟨.illegal, .own (encodeRune r), l0.line, l0.lpos⟩, l0)

theorem scanTokA_read (r w : Nat) (l0 : Lexer) (h : l0.pos ≤ l0.input.length) : (scanTokA r w l0).readAs l0.input = scanTok r w l0 := by
  unfold scanTokA scanTok
  split
  · exact scanNameA_read l0 h
  · split
    · exact scanPunctuatorA_read l0 r w
    · split
      · exact scanNumberA_read l0 r h
      · split
        · rcases e1 : l0.rd with ⟨r1, w1, l1⟩
          obtain ⟨a1, hw1, p1⟩ := rd_adv' e1 h
          dsimp only
          rcases e2 : l1.rd with ⟨r2, w2, l2⟩
          obtain ⟨a2, hw2, p2⟩ := rd_adv' e2 a1.inv
          dsimp only
          split
          · rw [← (a1.trans a2).input]
            exact scanBlockStringA_read l2 (a1.trans a2).inv
          · have h3 : Adv l1 (l2.unread w2) := a2.unread hw2
            have h4 : Adv l0 ((l2.unread w2).unread w1) := (a1.trans h3).unread (by have := h3.le; omega)
            rw [← h4.input]
            exact scanStringA_read _ h4.inv
        · split <;> rfl

theorem scanTokA_placed {r w : Nat} {l0 l' : Lexer} {t : ATok} (h : scanTokA r w l0 = .ret (t, l')) : Placed t l' := by
  unfold scanTokA at h
  split at h
  · exact scanNameA_placed h
  · split at h
    · exact scanPunctuatorA_placed h
    · split at h
      · exact scanNumberA_placed h
      · split at h
        · dsimp only at h
          split at h
          · exact scanBlockStringA_placed h
          · exact scanStringA_placed h
        · split at h
          · cases h; exact .ofOwn (.inr (.inl rfl))
          · cases h; exact .ofOwn (.inl rfl)

/-- `Scan` skips ignored characters and comments and then scans a token. -/
theorem scanFA_skip {n : Nat} {l : Lexer} {cs : List Char} (h : At l cs) (hz : NoNul cs)
    (hn : cs.length < n) :
    ∃ ign cs' lS, cs = ign ++ cs' ∧
      (∀ pre items rest, Lex GoBlock (pre ++ ign) cs' items rest → Lex GoBlock pre cs items rest) ∧
      (∀ c t, cs' = c :: t → ignored c = false ∧ c ≠ '#') ∧
      At lS cs' ∧ lS.input = l.input ∧
      scanFA n l = scanTokA (nxt cs') (nxtW cs') (lS.step cs') := by
  induction n generalizing l cs with
  | zero => omega
  | succ n ih =>
    unfold scanFA
    obtain ⟨ign, cs', lS, p1, p2, p3, p4, p5, p6, -⟩ :=
      rns_at (n := l.fuel) (wasCR := false) h hz (fuel_length h)
    subst p1
    rw [p6]; dsimp only
    have hz' : NoNul cs' := hz.right
    by_cases hc : nxt cs' = 35
    · obtain _ | ⟨c, cs'⟩ := cs'
      · cases hc
      have := toNat_inj (c := c) (d := '#') hc; subst this
      rw [show nxt ('#' :: cs') = 35 from rfl, if_neg (by decide), if_neg (by decide),
        if_neg (by decide), if_pos rfl]
      have a1 : At (lS.step ('#' :: cs')) cs' := p4.step
      obtain ⟨body, term, text, l', q1, q2, q3, q4, q5, q6, -⟩ :=
        comment_at (n := (lS.step ('#' :: cs')).fuel) a1 hz'.tail (fuel_length a1)
      rw [q6]; dsimp only
      subst q1
      have hzt : NoNul text := (hz'.tail.right (a := body)).right
      obtain ⟨ign2, cs'', lT, r1, r2, r3, r4, r5, r6⟩ := ih (l := l') (cs := text) q4 hzt
        (by simp at hn; omega)
      refine ⟨ign ++ ('#' :: body ++ (term ++ ign2)), cs'', lT, ?_, ?_, r3, r4, ?_, r6⟩
      · rw [r1]; simp
      · intro pre items rest hl
        apply Lex.ignAll p2
        have : '#' :: (body ++ (term ++ text)) = '#' :: body ++ (term ++ text) := rfl
        rw [this]
        apply Lex.comment q2 (term_head q3)
        apply Lex.ignAll (term_ignored q3)
        apply r2
        simpa using hl
      · rw [r5, q5]; exact p5
    · refine ⟨ign, cs', lS, rfl, ?_, ?_, p4, p5, ?_⟩
      · intro pre items rest hl; exact Lex.ignAll p2 hl
      · rintro c t rfl
        exact ⟨p3 c t rfl, fun hh => hc (by rw [hh]; rfl)⟩
      · unfold scanTokA; rw [if_neg hc]

theorem scanTokA_ret {r w : Nat} {l0 l' : Lexer} {t : Token} (h : l0.pos ≤ l0.input.length) (e : scanTok r w l0 = .ret (t, l')) :
    ∃ ta, scanTokA r w l0 = .ret (ta, l') ∧ ta.read l0.input = t := by
  have := scanTokA_read r w l0 h
  rw [e] at this
  cases e2 : scanTokA r w l0 with
  | panic => rw [e2] at this; cases this
  | oof => rw [e2] at this; cases this
  | ret x =>
    rw [e2] at this
    obtain ⟨h1, h2⟩ := Prod.mk.inj (Out.ret.inj this)
    exact ⟨x.1, by rw [← h2], h1⟩

/-- The place of the text of a token. -/
def Whereabouts (lo : Nat) (lx : List Char) (tok : Tok) (s : Str) : Prop :=
  (shared ⟨tok, [], lx⟩ = true → ∃ off len, s = .view off len ∧ lo ≤ off ∧ off + len ≤ lo + (utf8 lx).length) ∧
  (shared ⟨tok, [], lx⟩ = false → s = .own (utf8 tok.value))

theorem utf8_nil_iff {v : List Char} : utf8 v = [] ↔ v = [] := by
  constructor
  · intro h
    have := length_utf8_le v
    rw [h] at this
    exact List.length_eq_zero_iff.1 (by simpa using this)
  · rintro rfl; rfl

theorem utf8_LF_iff {v : List Char} : 10 ∈ utf8 v ↔ '\n' ∈ v := by
  induction v with
  | nil => simp [utf8]
  | cons c v ih =>
    rw [utf8_cons, List.mem_append, List.mem_cons, ih]
    have : 10 ∈ utf8Char c ↔ '\n' = c := by
      by_cases h : c.toNat < 128
      · rw [utf8Char_ascii c h, List.mem_singleton]
        exact ⟨fun e => (toNat_inj (c := c) (d := '\n') e.symm).symm, fun e => by rw [← e]; rfl⟩
      · refine ⟨fun hm => ?_, fun e => absurd (by rw [← e]; decide) h⟩
        exact Decidable.byContradiction fun hn => utf8Char_not10 (fun e => hn e.symm) _ hm rfl
    rw [this]

theorem word_where {lS l' : Lexer} {lx rest : List Char} {tok : Tok} {ta : ATok} (ha : At lS (lx ++ rest))
    (hS : Scanned lS lx rest tok (ta.read lS.input) l') (hv : tok.value = lx) (hp : ∃ off len, ta.lit = .view off len ∧ off + len = l'.pos) :
    ∃ off len, ta.lit = .view off len ∧ lS.pos ≤ off ∧ off + len ≤ lS.pos + (utf8 lx).length := by
  obtain ⟨off, len, h1, h2⟩ := hp
  refine ⟨off, len, h1, ?_⟩
  have e1 := hS.at'.length
  rw [hS.input] at e1
  have e2 := ha.length
  rw [utf8_append, List.length_append] at e2
  have e3 : ((lS.input.drop off).take len).length = (utf8 lx).length := by
    have := hS.lit
    rw [hv] at this
    rw [← this]
    show _ = (ta.lit.value lS.input).length
    rw [h1]; rfl
  rw [List.length_take, List.length_drop] at e3
  omega

theorem spreadA_own {w : Nat} {l l' : Lexer} {t : ATok} (h : scanTokA 46 w l = .ret (t, l')) : ∃ x, t.lit = .own x := by
  unfold scanTokA at h
  rw [if_neg (by decide), if_pos (by decide)] at h
  unfold scanPunctuatorA at h
  rw [if_pos rfl] at h
  dsimp only at h
  split at h <;> cases h <;> exact ⟨_, rfl⟩

theorem scanStringA_where {l : Lexer} {s v rest lx : List Char} (h : StrText s v rest) (hs : s = lx ++ rest) (ha : At l s) {ta : ATok} {l' : Lexer}
    (e : scanStringA l = .ret (ta, l')) :
    ('\\' ∉ lx → ta.lit = .view l.pos (utf8 v).length) ∧ ('\\' ∈ lx → ta.lit = .own (utf8 v)) := by
  have hn : s.length < l.fuel := fuel_length ha
  constructor
  · intro hp
    have hlx := (strText_plain h hs).1 hp
    have h1 := pass1_plain h hs hlx ha hn false
    unfold scanStringA at e
    rw [h1] at e
    dsimp only at e
    rw [if_neg (by decide)] at e
    have hq : utf8Char '"' = [34] := utf8Char_ascii _ (by decide)
    have hp1 : (l.advs lx).pos - 1 = l.pos + (utf8 v).length := by
      rw [advs_pos, hlx, utf8_append]
      simp [utf8, hq]
    rw [hp1] at e
    unfold btosSlice at e
    split at e
    · cases e
    · rename_i e2
      cases e
      split at e2
      · cases e2
        show Str.view _ _ = _
        congr 1; omega
      · cases e2
  · intro hp
    obtain ⟨b, e1, hb⟩ := pass1_complete h hs ha hn false
    have hbt : b = true := by
      rcases hb with ⟨rfl, hb⟩ | hb
      · exact absurd ((strText_plain h hs).2 hb) (fun hh => hh hp)
      · exact hb
    subst hbt
    unfold scanStringA at e
    rw [e1] at e
    dsimp only at e
    rw [if_pos rfl, pass2_complete h hs ha hn] at e
    cases e
    show Str.own _ = _
    simp

theorem scanBlockStringA_where {l : Lexer} {s raw rest lx : List Char} (h : GoBlockText s raw rest) (hs : s = lx ++ rest) (ha : At l s) (hz : NoNul s)
    {ta : ATok} {l' : Lexer} (e : scanBlockStringA l = .ret (ta, l')) :
    let v := formatBlock (splitLF raw)
    (verbatim lx = true ∧ v ≠ [] ∧ '\n' ∉ v → ∃ off len, ta.lit = .view off len ∧ l.pos ≤ off ∧ off + len ≤ l.pos + (utf8 lx).length) ∧
    (¬ (verbatim lx = true ∧ v ≠ [] ∧ '\n' ∉ v) → ta.lit = .own (utf8 v)) := by
  dsimp only
  have hn : s.length < l.fuel := fuel_length ha
  have hv := blockStringLiteral_utf8 raw
  by_cases hp : verbatim lx = true
  · have hlx := (goBlock_verbatim h hs).1 hp
    have h1 := bpass1_plain h hs hlx ha hz hn false false
    unfold scanBlockStringA at e
    rw [h1] at e
    dsimp only at e
    rw [if_pos (by decide)] at e
    have hq : (utf8 quotes3).length = 3 := by decide
    have hp1 : (l.advs lx).pos - 3 = l.pos + (utf8 raw).length := by
      rw [advs_pos, hlx, utf8_append, List.length_append]; omega
    rw [hp1, advs_input] at e
    have hat : At l (raw ++ (quotes3 ++ rest)) := by rw [hs, hlx] at ha; simpa using ha
    rw [slice_at hat] at e
    dsimp only at e
    cases e
    obtain ⟨k1, k2⟩ := blockStringLiteralA_where l.pos (utf8 raw)
    rw [hv] at k1 k2
    simp only [ne_eq, utf8_nil_iff, utf8_LF_iff] at k1 k2
    refine ⟨fun hh => ?_, fun hh => k2 (fun hh2 => hh ⟨hp, hh2⟩)⟩
    obtain ⟨lo, len, j1, j2, j3⟩ := k1 hh.2
    refine ⟨lo, len, j1, j2, ?_⟩
    rw [hlx, utf8_append, List.length_append]; omega
  · refine ⟨fun hh => absurd hh.1 hp, fun _ => ?_⟩
    obtain ⟨cr, es, h1, -, -, h2⟩ := bpass1_complete h hs ha hz hn false false
    unfold scanBlockStringA at e
    rw [h1] at e
    dsimp only at e
    rw [if_neg (by
      intro hh
      simp only [Bool.and_eq_true, Bool.not_eq_true'] at hh
      exact hp ((goBlock_verbatim h hs).2 (h2 hh.1 hh.2)))] at e
    rw [bpass2_complete h hs ha hz hn] at e
    dsimp only at e
    cases e
    show Str.own _ = _
    rw [List.nil_append, hv]

theorem scanTokA_quote_block {w : Nat} {l : Lexer} {s : List Char} (h : At l ('"' :: '"' :: s)) :
    scanTokA 34 w l = scanBlockStringA (l.advs ['"', '"']) := by
  unfold scanTokA
  rw [if_neg (by decide), if_neg (by decide), if_neg (by decide), if_pos rfl]
  rw [rd_cons h]; dsimp only
  rw [rd_cons h.adv1]; dsimp only
  rw [if_pos (show ('"').toNat = 34 ∧ ('"').toNat = 34 by decide), ← advs_append]; rfl

theorem scanTokA_quote_string {w : Nat} {l : Lexer} {s : List Char} (h : At l s)
    (hn : ∀ t, s ≠ '"' :: '"' :: t) :
    ∃ lp, scanTokA 34 w l = scanStringA { l with lpos := lp } := by
  unfold scanTokA
  rw [if_neg (by decide), if_neg (by decide), if_neg (by decide), if_pos rfl]
  rw [rd_at h]; dsimp only
  rw [rd_at h.step]; dsimp only
  obtain _ | ⟨a, _ | ⟨b, s⟩⟩ := s
  · rw [if_neg (by rintro ⟨h, -⟩; cases h)]
    exact ⟨l.lpos - 1 - 1, rfl⟩
  · rw [if_neg (by rintro ⟨-, h⟩; cases h)]
    refine ⟨l.lpos + 1 - 1 - 1, ?_⟩
    show scanStringA (((l.advs [a]).unread 0).unread (cw a)) = _
    rw [advs_one]; simp [Lexer.unread]
  · rw [if_neg (by
      rintro ⟨h1, h2⟩
      have e1 := toNat_inj (c := a) (d := '"') h1
      have e2 := toNat_inj (c := b) (d := '"') h2
      subst e1 e2; exact hn s rfl)]
    refine ⟨l.lpos, ?_⟩
    show scanStringA ((((l.advs [a]).advs [b]).unread (cw b)).unread (cw a)) = _
    rw [unread_adv, unread_adv]

/-- `Scan` returns the token at which the lexer stands, and where its text is. -/
theorem lexemeA_complete {lS : Lexer} {lx rest : List Char} {tok : Tok}
    (h : Lexeme GoBlock (lx ++ rest) tok rest) (ha : At lS (lx ++ rest)) (hz : NoNul (lx ++ rest)) :
    ∃ ta l', scanTokA (nxt (lx ++ rest)) (nxtW (lx ++ rest)) (lS.step (lx ++ rest)) = .ret (ta, l') ∧
      Scanned lS lx rest tok (ta.read lS.input) l' ∧ Whereabouts lS.pos lx tok ta.lit := by
  obtain ⟨t, l', e, hS⟩ := lexeme_complete h ha hz
  obtain ⟨ta, eA, er⟩ := scanTokA_ret ha.step.le e
  have hi : (lS.step (lx ++ rest)).input = lS.input := by cases lx ++ rest <;> rfl
  rw [hi] at er
  subst er
  refine ⟨ta, l', eA, hS, ?_⟩
  have hP := scanTokA_placed eA
  have hk : ta.kind = goKind tok.kind := hS.kind
  have word : tok.value = lx → (tok.kind = .name ∨ tok.kind = .int ∨ tok.kind = .float) → Whereabouts lS.pos lx tok ta.lit := by
    intro hv hkk
    have hsh : shared ⟨tok, [], lx⟩ = true := by
      unfold shared
      rcases hkk with h | h | h <;> simp only [h]
    refine ⟨fun _ => word_where ha hS hv (hP.word ?_), fun hh => by rw [hsh] at hh; cases hh⟩
    rw [hk]
    rcases hkk with h | h | h <;> rw [h] <;> simp [goKind]
  generalize hs : lx ++ rest = s at h
  cases h with
  | punct c rest hc =>
    have hlx : lx = [c] := List.append_cancel_right (show lx ++ rest = [c] ++ rest from hs)
    subst hlx
    refine ⟨fun _ => word_where ha hS rfl ?_, fun hh => ?_⟩
    · have hne : c ≠ '.' := by rintro rfl; revert hc; decide
      rcases hP.punct hk with h1 | h1
      · exfalso
        have := hS.lit
        have h2 : ta.lit.value lS.input = utf8 [c] := this
        rw [h1] at h2
        have : b!"..." = utf8 [c] := h2
        have h3 : utf8 ['.', '.', '.'] = utf8 [c] := this
        have := utf8_inj h3
        cases this
      · exact h1
    · simp [shared] at hh
  | spread rest =>
    have hlx : lx = ['.', '.', '.'] := List.append_cancel_right (show lx ++ rest = ['.', '.', '.'] ++ rest from hs)
    subst hlx
    refine ⟨fun hh => by simp [shared] at hh, fun _ => ?_⟩
    obtain ⟨x, hx⟩ := spreadA_own (w := nxtW (['.', '.', '.'] ++ rest)) (l := lS.step (['.', '.', '.'] ++ rest)) (t := ta) (l' := l') eA
    have h2 : ta.lit.value lS.input = utf8 ['.', '.', '.'] := hS.lit
    rw [hx] at h2 ⊢
    have : x = utf8 ['.', '.', '.'] := h2
    rw [this]
  | name c w rest =>
    have hlx : lx = c :: w := List.append_cancel_right (show lx ++ rest = (c :: w) ++ rest from hs)
    exact word hlx.symm (.inl rfl)
  | int i rest hi =>
    have hlx : lx = i := List.append_cancel_right hs
    exact word hlx.symm (.inr (.inl rfl))
  | fraction i f rest hi =>
    have hlx : lx = i ++ f := List.append_cancel_right hs
    exact word hlx.symm (.inr (.inr rfl))
  | exponent i f rest hi =>
    have hlx : lx = i ++ f := List.append_cancel_right hs
    exact word hlx.symm (.inr (.inr rfl))
  | fracExp i f e rest hi =>
    have hlx : lx = i ++ f ++ e := List.append_cancel_right hs
    exact word hlx.symm (.inr (.inr rfl))
  | @string s v rest hst hv =>
    obtain ⟨lx', e'⟩ := hst.split
    have hlx : lx = '"' :: lx' := by
      rw [e', ← List.cons_append] at hs; exact List.append_cancel_right hs
    subst hlx
    rw [hs] at ha eA
    have a1 : At (lS.step ('"' :: s)) s := ha.step
    have hnb : ∀ t, s ≠ '"' :: '"' :: t := by
      rintro t rfl
      cases hst with
      | close => have := hv rfl _ _ rfl; revert this; decide
      | char c h => exact h rfl
    obtain ⟨lp, e1⟩ := scanTokA_quote_string (w := nxtW ('"' :: s)) a1 hnb
    have e2 : scanStringA { lS.step ('"' :: s) with lpos := lp } = .ret (ta, l') := e1.symm.trans eA
    obtain ⟨k1, k2⟩ := scanStringA_where (l := { lS.step ('"' :: s) with lpos := lp }) hst e' ⟨a1.le, a1.eq⟩ e2
    have hq : quotes3.isPrefixOf ('"' :: lx') = false := by
      cases hh : quotes3.isPrefixOf ('"' :: lx') with
      | false => rfl
      | true =>
        exfalso
        obtain ⟨t, ht⟩ := List.isPrefixOf_iff_prefix.1 hh
        have : lx' = '"' :: '"' :: t := by
          have := List.tail_eq_of_cons_eq ht
          exact this.symm
        exact hnb (t ++ rest) (by rw [e', this]; rfl)
    have hpos : (lS.step ('"' :: s)).pos = lS.pos + 1 := by
      show lS.pos + (utf8 ['"']).length = _
      rfl
    have hlen := a1.length
    refine ⟨fun hh => ?_, fun hh => ?_⟩
    · simp only [shared, hq] at hh
      have hh' : '\\' ∉ lx' := by
        intro hm
        simp [hm] at hh
      have hlit := k1 hh'
      refine ⟨_, _, hlit, ?_, ?_⟩
      · show lS.pos ≤ (lS.step ('"' :: s)).pos
        omega
      · show (lS.step ('"' :: s)).pos + _ ≤ _
        rw [(strText_plain hst e').1 hh', hpos, utf8_cons, utf8_append]
        simp only [List.length_append]
        have : (utf8Char '"').length = 1 := by decide
        omega
    · simp only [shared, hq] at hh
      have hh' : '\\' ∈ lx' := by
        simp at hh
        exact hh
      exact k2 hh'
  | @block s v rest hb =>
    obtain ⟨raw, hgt, rfl⟩ := hb
    obtain ⟨lx', e'⟩ := hgt.split
    have hlx : lx = quotes3 ++ lx' := by
      rw [e', ← List.append_assoc] at hs; exact List.append_cancel_right hs
    subst hlx
    rw [hs] at ha eA hz
    have ha' : At lS ('"' :: '"' :: '"' :: s) := ha
    have a1 : At (lS.step ('"' :: '"' :: '"' :: s)) ('"' :: '"' :: s) := ha'.step
    have a3 : At ((lS.step ('"' :: '"' :: '"' :: s)).advs ['"', '"']) s := At.advs (a := ['"', '"']) a1
    have hzs : NoNul s := hz.right (a := quotes3)
    have e2 : scanBlockStringA ((lS.step ('"' :: '"' :: '"' :: s)).advs ['"', '"']) = .ret (ta, l') :=
      (scanTokA_quote_block (w := nxtW ('"' :: '"' :: '"' :: s)) a1).symm.trans eA
    obtain ⟨k1, k2⟩ := scanBlockStringA_where hgt e' a3 hzs e2
    have hq : quotes3.isPrefixOf (quotes3 ++ lx') = true := List.isPrefixOf_iff_prefix.2 ⟨lx', rfl⟩
    have hd : (quotes3 ++ lx').drop 3 = lx' := rfl
    have hpos : ((lS.step ('"' :: '"' :: '"' :: s)).advs ['"', '"']).pos = lS.pos + 3 := rfl
    have hsh : shared ⟨⟨.string, formatBlock (splitLF raw)⟩, [], quotes3 ++ lx'⟩ = true ↔
        (verbatim lx' = true ∧ formatBlock (splitLF raw) ≠ [] ∧ '\n' ∉ formatBlock (splitLF raw)) := by
      simp only [shared, hq, hd, if_true, Bool.and_eq_true, Bool.not_eq_true', List.isEmpty_eq_false_iff, List.contains_eq_mem, decide_eq_false_iff_not, and_assoc]
    refine ⟨fun hh => ?_, fun hh => k2 (fun h => by rw [hsh.2 h] at hh; cases hh)⟩
    obtain ⟨off, len, j1, j2, j3⟩ := k1 (hsh.1 hh)
    rw [hpos] at j2 j3
    refine ⟨off, len, j1, by omega, ?_⟩
    rw [utf8_append, List.length_append]
    have : (utf8 quotes3).length = 3 := by decide
    omega

/-- Scanning a text: where the text of every token is. -/
theorem tokensFA_at {n : Nat} {l : Lexer} {cs : List Char} (h : At l cs) (hz : NoNul cs)
    (hn : cs.length < n) (pre : List Char) (hpre : l.pos = (utf8 pre).length) :
    ∃ items rest toks last, Lex GoBlock pre cs items rest ∧ Final GoBlock rest ∧
      tokensFA n l = .ret (toks ++ [last]) ∧
      toks.map (fun t => (t.kind, t.lit.value l.input)) = items.map (fun i => (goKind i.tok.kind, utf8 i.tok.value)) ∧
      (∀ p ∈ toks.zip items, Whereabouts (utf8 p.2.before).length p.2.chars p.2.tok p.1.lit) ∧ (∃ x, last.lit = .own x) ∧
      (last.kind = if rest = [] then .eof else .illegal) := by
  induction n generalizing l cs pre with
  | zero => omega
  | succ n ih =>
    obtain ⟨ign, cs', lS, p1, p2, p3, p4, p5, p6⟩ := scanFA_skip (n := l.fuel) h hz (fuel_length h)
    subst p1
    unfold tokensFA scanA
    rw [p6]
    obtain _ | ⟨c, cs'⟩ := cs'
    · refine ⟨[], [], [], ⟨.eof, .own [], lS.line, lS.lpos + 1⟩, p2 _ _ _ (.done _ _), .inl rfl, ?_, rfl, fun p hp => (by cases hp), ⟨_, rfl⟩, rfl⟩
      have : scanTokA (nxt []) (nxtW []) (lS.step []) = .ret (⟨.eof, .own [], lS.line, lS.lpos + 1⟩, lS) := by
        show scanTokA 0 0 lS = _
        unfold scanTokA
        rw [if_neg (by decide), if_neg (by decide), if_neg (by decide), if_neg (by decide), if_pos rfl]
      rw [this]; rfl
    · have hz' : NoNul (c :: cs') := hz.right
      have hposS : lS.pos = (utf8 (pre ++ ign)).length := by
        have e1 := h.length
        have e2 := p4.length
        rw [p5] at e2
        rw [utf8_append, List.length_append] at e1 ⊢
        omega
      by_cases hex : ∃ tok rest, Lexeme GoBlock (c :: cs') tok rest
      · obtain ⟨tok, rest, hlx⟩ := hex
        obtain ⟨lx, e, hne⟩ := lexeme_split hlx
        rw [e] at hlx p4 hz' hn p2 h hz ⊢
        obtain ⟨ta, l', s1, s2, s3⟩ := lexemeA_complete hlx p4 hz'
        rw [s1]; dsimp only
        have hk0 : ta.kind = goKind tok.kind := s2.kind
        have hk : ¬ (ta.kind = .eof ∨ ta.kind = .illegal) := by
          rw [hk0]; cases tok.kind <;> simp [goKind]
        rw [if_neg hk]
        have hlen : rest.length < n := by
          have : 0 < lx.length := List.length_pos_iff.2 hne
          simp at hn; omega
        have hpos' : l'.pos = (utf8 (pre ++ ign ++ lx)).length := by
          have e1 := s2.at'.length
          have e2 := p4.length
          rw [s2.input] at e1
          rw [utf8_append, List.length_append] at e2 ⊢
          omega
        obtain ⟨items, rest', toks, last, q1, q2, q3, q4, q5, q6, q7⟩ :=
          ih (l := l') (cs := rest) s2.at' hz'.right hlen (pre ++ ign ++ lx) hpos'
        rw [q3]
        refine ⟨⟨tok, pre ++ ign, lx⟩ :: items, rest', ta :: toks, last, p2 _ _ _ (.token hlx q1), q2, rfl, ?_, ?_, q6, q7⟩
        · rw [s2.input, p5] at q4
          have hl : ta.lit.value lS.input = utf8 tok.value := s2.lit
          rw [p5] at hl
          simp only [List.map_cons, q4, hk0, hl]
        · intro p hp
          rw [List.zip_cons_cons] at hp
          rcases List.mem_cons.1 hp with rfl | hp
          · show Whereabouts (utf8 (pre ++ ign)).length lx tok ta.lit
            rw [← hposS]; exact s3
          · exact q5 p hp
      · rcases lexeme_sound p4 hz' with h' | ⟨tk, l', e, hk⟩
        · exact absurd h' hex
        · obtain ⟨ta, eA, er⟩ := scanTokA_ret (p4.step).le e
          have hka : ta.kind = .illegal := by rw [← hk, ← er]; rfl
          have hP := scanTokA_placed eA
          refine ⟨[], c :: cs', [], ta, p2 _ _ _ (.done _ _), ?_, ?_, rfl, fun p hp => (by cases hp), hP.none (.inl hka), by rw [if_neg (by simp)]; exact hka⟩
          · right
            exact ⟨c, cs', rfl, (p3 c cs' rfl).1, (p3 c cs' rfl).2, fun tok rest hh => hex ⟨tok, rest, hh⟩⟩
          · have e' : scanTokA (nxt (c :: cs')) (nxtW (c :: cs')) (lS.step (c :: cs')) = .ret (ta, l') := eA
            rw [e']; dsimp only
            rw [if_pos (.inr hka)]; rfl

end GQL
