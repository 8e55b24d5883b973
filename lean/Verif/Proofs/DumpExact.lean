/-
Which printed strings read back: the converse of DumpStr.
-/
import Verif.Proofs.DumpStr

namespace GQL
open Spec

/-! ### Between quotes -/

theorem strText_back {cs : List Char} : ∀ {v r rest : List Char}, StrText (cs.flatMap escChar ++ '"' :: r) v rest → QuoteOk cs := by
  induction cs with
  | nil => intro v r rest _ c hc; cases hc
  | cons c cs ih =>
    intro v r rest h
    rw [List.flatMap_cons, List.append_assoc] at h
    have key : (printable c = true ∨ c = '\x08' ∨ c = '\x0c') ∧ ∃ v', StrText (cs.flatMap escChar ++ '"' :: r) v' rest := by
      generalize cs.flatMap escChar ++ '"' :: r = s at h
      unfold escChar at h
      split at h
      · rename_i hr
        constructor
        · left
          simp only [printable, Bool.or_eq_true, decide_eq_true_eq]
          left; omega
        · simp only [List.cons_append, List.nil_append] at h
          cases h with
          | char _ _ h _ _ => exact absurd rfl h
          | esc _ _ h _ => exact absurd h (by intro h; simp [escapeTable] at h)
          | unicode _ _ _ _ h => exact ⟨_, h⟩
      · have esc : ∀ {e : Char}, e ≠ 'u' → StrText ('\\' :: e :: s) v rest → ∃ v', StrText s v' rest := by
          intro e he hx
          cases hx with
          | char _ _ hx _ _ => exact absurd rfl hx
          | esc _ _ _ hx => exact ⟨_, hx⟩
          | unicode => exact absurd rfl he
        split at h
        · subst_vars; exact ⟨.inl (by decide), esc (by decide) h⟩
        split at h
        · subst_vars; exact ⟨.inl (by decide), esc (by decide) h⟩
        split at h
        · subst_vars; exact ⟨.inl (by decide), esc (by decide) h⟩
        split at h
        · subst_vars; exact ⟨.inr (.inl rfl), esc (by decide) h⟩
        split at h
        · subst_vars; exact ⟨.inr (.inr rfl), esc (by decide) h⟩
        split at h
        · subst_vars; exact ⟨.inl (by decide), esc (by decide) h⟩
        rename_i h1 h2 h3 h4 h5 h6
        rw [List.singleton_append] at h
        cases h with
        | close => exact absurd rfl h1
        | char _ _ _ hp h => exact ⟨.inl hp, _, h⟩
        | esc => exact absurd rfl h2
        | unicode => exact absurd rfl h2
    obtain ⟨h1, v', h2⟩ := key
    intro d hd
    rcases List.mem_cons.1 hd with rfl | hd
    · exact h1
    · exact ih h2 d hd

/-! ### After an early end of the block string -/

/-- A text that ends with a line of spaces and three quotes. -/
def Leftover (s : List Char) : Prop := ∃ u m, s = u ++ '\n' :: (spaces m ++ quotes3)

theorem lex_quote {B : List Char → List Char → List Char → Prop} {t : List Char} : ∀ (m : Nat) {pre : List Char}, ¬ Lex B pre (spaces m ++ '"' :: t) [] []
  | 0, pre, h => by
    generalize e : spaces 0 ++ '"' :: t = s at h
    generalize e2 : ([] : List Item) = i at h
    generalize e3 : ([] : List Char) = r at h
    cases h with
    | done => subst e3; cases e
    | ignore h _ => cases e; exact absurd h (by decide)
    | comment => cases e
    | token => cases e2
  | m + 1, pre, h => by
    generalize e : spaces (m + 1) ++ '"' :: t = s at h
    rw [spaces, List.replicate_succ] at e
    generalize e2 : ([] : List Item) = i at h
    generalize e3 : ([] : List Char) = r at h
    cases h with
    | done => subst e3; cases e
    | ignore _ h => cases e; subst e2 e3; exact lex_quote m h
    | comment => cases e
    | token => cases e2

/-- Such a text is not ignorable. -/
theorem leftover_lex {B : List Char → List Char → List Char → Prop} {pre s : List Char} (h : Lex B pre s [] []) : ¬ Leftover s := by
  generalize e2 : ([] : List Item) = i at h
  generalize e3 : ([] : List Char) = r at h
  induction h with
  | done => subst e3; rintro ⟨u, m, e⟩; cases u <;> cases e
  | @ignore pre c text items rest hc h ih =>
    rintro ⟨u, m, e⟩
    cases u with
    | nil =>
      cases e
      subst e2 e3
      exact lex_quote m h
    | cons d u =>
      cases e
      exact ih e2 e3 ⟨u, m, rfl⟩
  | @comment pre body text items rest hb ht h ih =>
    rintro ⟨u, m, e⟩
    cases u with
    | nil => cases e
    | cons d u =>
      have e : body ++ text = u ++ '\n' :: (spaces m ++ quotes3) := (List.cons.inj e).2
      rcases List.append_eq_append_iff.1 e with ⟨a, e1, e2'⟩ | ⟨a, e1, e2'⟩
      · exact ih e2 e3 ⟨a, m, e2'⟩
      · cases a with
        | nil =>
          exact ih e2 e3 ⟨[], m, e2'.symm⟩
        | cons c a =>
          have e2' := (List.cons.inj e2').1
          subst e2'
          have := hb '\n' (by rw [e1]; simp)
          exact absurd this (by decide)
  | token => cases e2

/-! ### Block strings -/

theorem goText_cr {s v rest : List Char} (h : GoBlockText s v rest) : v.count '\r' ≤ s.count '\r' := by
  induction h with
  | close => simp
  | esc _ ih =>
    rw [List.cons_append, List.count_cons_of_ne (by decide), List.count_append, List.count_append]
    omega
  | pair c _ _ ih =>
    rw [List.count_cons_of_ne (b := '\\') (by decide), List.count_cons_of_ne (b := '\\') (by decide), List.count_cons, List.count_cons]
    omega
  | cr _ ih =>
    rw [List.count_cons]
    split
    · omega
    · rw [List.count_cons_of_ne (by decide)]; omega
  | char c _ _ _ _ _ ih =>
    rw [List.count_cons, List.count_cons]; omega

theorem escIf_cr (esc : Bool) : ∀ (n : Nat) (s : List Char), s.length ≤ n → (escIf esc s).count '\r' = s.count '\r'
  | 0, s, h => by
    rw [List.length_eq_zero_iff.1 (Nat.le_zero.1 h)]
    cases esc <;> rfl
  | n + 1, [], _ => by cases esc <;> rfl
  | n + 1, c :: s, h => by
    cases esc with
    | false => rfl
    | true =>
      by_cases hq : quotes3 <+: (c :: s)
      · obtain ⟨t, e⟩ := hq
        rw [← e]
        have : escIf true (quotes3 ++ t) = '\\' :: (quotes3 ++ escIf true t) := rfl
        have hl : t.length ≤ n := by
          have := congrArg List.length e
          simp [quotes3] at this h
          omega
        rw [this, List.count_cons_of_ne (by decide), List.count_append, List.count_append, escIf_cr true n t hl]
      · rw [escIf_char hq, List.count_cons, List.count_cons, escIf_cr true n s (by simpa using h)]

theorem indentAfter_cr (k : Nat) (s : List Char) : (indentAfter (spaces k) s).count '\r' = s.count '\r' := by
  induction s with
  | nil => rfl
  | cons c s ih =>
    rw [indentAfter]
    split
    · rw [List.count_cons, List.count_append, ih, List.count_cons, spaces, List.count_replicate]
      simp
    · rw [List.count_cons, List.count_cons, ih]

theorem spaces_back : ∀ (k : Nat) {s v rest : List Char}, GoBlockText (spaces k ++ s) v rest → ∃ v', v = spaces k ++ v' ∧ GoBlockText s v' rest
  | 0, _, v, _, h => ⟨v, rfl, h⟩
  | k + 1, s, v, rest, h => by
    rw [spaces, List.replicate_succ, List.cons_append] at h
    cases h with
    | char _ _ _ _ _ h =>
      obtain ⟨v', e, h⟩ := spaces_back k h
      exact ⟨v', by rw [e, spaces, spaces, List.replicate_succ]; rfl, h⟩

theorem nl_back {s v rest : List Char} (h : GoBlockText ('\n' :: s) v rest) : ∃ v', v = '\n' :: v' ∧ GoBlockText s v' rest := by
  cases h with
  | char _ _ _ _ _ h => exact ⟨_, rfl, h⟩

/-- If the printed text is a block string up to its end and no carriage return is lost, the string was fit for it. -/
theorem goText_back {k m : Nat} {rest : List Char} (hrest : ¬ Leftover rest) : ∀ (n : Nat) (cs : List Char), cs.length ≤ n → ∀ {v : List Char},
    GoBlockText (indentAfter (spaces k) (escIf true cs) ++ '\n' :: (spaces m ++ quotes3)) v rest → cs.count '\r' ≤ v.count '\r' →
    BlockOk true cs ∧ v = indentAfter (spaces k) cs ++ '\n' :: spaces m
  := by
  have last : ∀ {v}, GoBlockText (spaces m ++ quotes3) v rest → v = spaces m := by
    intro v h
    obtain ⟨v', e, h⟩ := spaces_back m h
    cases h with
    | close => simpa using e
    | char _ _ _ h => exact absurd ⟨[], rfl⟩ h
  intro n
  induction n with
  | zero =>
    intro cs hn v h hc
    rw [List.length_eq_zero_iff.1 (Nat.le_zero.1 hn)] at h ⊢
    replace h : GoBlockText ('\n' :: (spaces m ++ quotes3)) v rest := h
    obtain ⟨v', rfl, hx⟩ := nl_back h
    exact ⟨.nil, by rw [last hx]; rfl⟩
  | succ n ih =>
    intro cs hn v h hc
    cases cs with
    | nil => exact (by
        replace h : GoBlockText ('\n' :: (spaces m ++ quotes3)) v rest := h
        obtain ⟨v', rfl, hx⟩ := nl_back h
        exact ⟨.nil, by rw [last hx]; rfl⟩)
    | cons c s =>
      have hcnt : ∀ (t : List Char), (indentAfter (spaces k) (escIf true t) ++ '\n' :: (spaces m ++ quotes3)).count '\r' = t.count '\r' := by
        intro t
        rw [List.count_append, indentAfter_cr, escIf_cr true _ t (Nat.le_refl _), List.count_cons_of_ne (by decide), List.count_append, spaces, List.count_replicate]
        simp [quotes3]
      have left : ∀ t, Leftover (indentAfter (spaces k) (escIf true t) ++ '\n' :: (spaces m ++ quotes3)) := fun t => ⟨_, m, rfl⟩
      by_cases hq : quotes3 <+: (c :: s)
      · obtain ⟨t, e⟩ := hq
        rw [← e] at h hc hn ⊢
        have ht : t.length ≤ n := by simp [quotes3] at hn; omega
        replace h : GoBlockText ('\\' :: quotes3 ++ (indentAfter (spaces k) (escIf true t) ++ '\n' :: (spaces m ++ quotes3))) v rest := h
        generalize hT : indentAfter (spaces k) (escIf true t) ++ '\n' :: (spaces m ++ quotes3) = T at h
        cases h with
        | esc h =>
          subst hT
          obtain ⟨h1, h2⟩ := ih t ht h (by
            rw [List.count_append, List.count_append] at hc
            exact Nat.le_of_add_le_add_left hc)
          exact ⟨.quotes rfl h1, by rw [h2]; rfl⟩
        | pair _ h => exact absurd ⟨_, rfl⟩ h
        | char _ h => exact absurd rfl h
      · rw [escIf_char hq] at h
        have hs : s.length ≤ n := by simpa using hn
        by_cases hb : c = '\\'
        · subst hb
          cases s with
          | nil =>
            replace h : GoBlockText ('\\' :: '\n' :: (spaces m ++ quotes3)) v rest := h
            cases h with
            | pair _ _ h => exact ⟨.last, by rw [last h]; rfl⟩
            | char _ h => exact absurd rfl h
          | cons c2 s2 =>
            have hs2 : s2.length ≤ n := by simp at hs; omega
            rw [indentAfter, if_neg (by decide)] at h
            by_cases hq2 : quotes3 <+: (c2 :: s2)
            · exfalso
              obtain ⟨t, e⟩ := hq2
              rw [← e] at h
              replace h : GoBlockText ('\\' :: '\\' :: (quotes3 ++ (indentAfter (spaces k) (escIf true t) ++ '\n' :: (spaces m ++ quotes3)))) v rest := h
              cases h with
              | pair _ _ h =>
                cases h with
                | close => exact left t |> hrest
                | char _ _ _ h => exact absurd ⟨_, rfl⟩ h
              | char _ h => exact absurd rfl h
            · rw [escIf_char hq2, indentAfter] at h
              by_cases hn2 : c2 = '\n'
              · subst hn2
                rw [if_pos rfl] at h
                simp only [List.cons_append, List.append_assoc] at h
                cases h with
                | pair _ _ h =>
                  obtain ⟨v', rfl, hx⟩ := spaces_back k h
                  obtain ⟨h1, h2⟩ := ih s2 hs2 hx (by
                    simp only [List.count_cons, List.count_append, spaces, List.count_replicate] at hc
                    simpa using hc)
                  refine ⟨.pair hq2 h1, ?_⟩
                  rw [h2]
                  simp [indentAfter]
                | char _ h => exact absurd rfl h
              · rw [if_neg hn2] at h
                simp only [List.cons_append] at h
                generalize hT : indentAfter (spaces k) (escIf true s2) ++ '\n' :: (spaces m ++ quotes3) = T at h
                cases h with
                | esc h =>
                  exfalso
                  have := prefix_back (esc := true) (w := spaces k) (x := spaces m ++ quotes3) 2 s2 (by omega) (by rw [hT]; exact ⟨_, rfl⟩)
                  refine hq2 ?_
                  rw [quotes3, List.cons_prefix_cons]
                  exact ⟨rfl, this⟩
                | pair _ _ h =>
                  subst hT
                  obtain ⟨h1, h2⟩ := ih s2 hs2 h (by
                    simp only [List.count_cons] at hc
                    simp at hc
                    omega)
                  refine ⟨.pair hq2 h1, ?_⟩
                  rw [h2]
                  simp [indentAfter, hn2]
                | char _ h => exact absurd rfl h
        · by_cases hr : c = '\r'
          · exfalso
            subst hr
            rw [indentAfter, if_neg (by decide)] at h
            cases h with
            | cr h =>
              have h1 := goText_cr h
              simp only [List.append_eq] at h1
              rw [hcnt] at h1
              rw [List.count_cons_self] at hc
              split at hc
              · omega
              · rw [List.count_cons_of_ne (by decide)] at hc; omega
            | char _ _ h => exact absurd rfl h
          · by_cases hn : c = '\n'
            · subst hn
              rw [indentAfter, if_pos rfl] at h
              simp only [List.cons_append, List.append_assoc] at h
              obtain ⟨v1, rfl, hx⟩ := nl_back h
              obtain ⟨v', rfl, hy⟩ := spaces_back k hx
              obtain ⟨h1, h2⟩ := ih s hs hy (by
                simp only [List.count_cons, List.count_append, spaces, List.count_replicate] at hc
                simpa using hc)
              refine ⟨.char hb hr hq (.inr rfl) h1, ?_⟩
              rw [h2]
              simp [indentAfter]
            · rw [indentAfter, if_neg hn] at h
              rw [List.cons_append] at h
              generalize hT : indentAfter (spaces k) (escIf true s) ++ '\n' :: (spaces m ++ quotes3) = T at h
              cases h with
              | close =>
                exfalso
                refine hq ?_
                have := prefix_back (esc := true) (w := spaces k) (x := spaces m ++ quotes3) 2 s (by omega) (by rw [hT]; exact ⟨_, rfl⟩)
                rw [quotes3, List.cons_prefix_cons]
                exact ⟨rfl, this⟩
              | esc => exact absurd rfl hb
              | pair => exact absurd rfl hb
              | cr => exact absurd rfl hr
              | char _ _ _ _ hp h =>
                subst hT
                obtain ⟨h1, h2⟩ := ih s hs h (by
                  rw [List.count_cons, List.count_cons] at hc; omega)
                refine ⟨.char hb hr hq hp h1, ?_⟩
                rw [h2]
                simp [indentAfter, hn]

/-! ### The lines -/

theorem splitLF_join : ∀ (ls : List (List Char)), ls ≠ [] → (∀ l ∈ ls, '\n' ∉ l) → splitLF (['\n'].intercalate ls) = ls
  | [], h, _ => absurd rfl h
  | [l], _, h => by rw [List.intercalate_singleton, splitLF_noLF (h l (by simp))]
  | l :: m :: ls, _, h => by
    rw [List.intercalate_cons_of_ne_nil (by simp), List.append_assoc]
    show splitLF (l ++ '\n' :: (['\n'].intercalate (m :: ls))) = _
    rw [splitLF_append, splitLF_noLF (h l (by simp)), splitLF_join (m :: ls) (by simp) fun x hx => h x (by simp [hx])]
    rfl

theorem dropWhile_head {α : Type} {p : α → Bool} : ∀ {l : List α} {a : α}, (l.dropWhile p).head? = some a → p a = false
  | [], a, h => by cases h
  | x :: l, a, h => by
    rw [List.dropWhile_cons] at h
    split at h
    · exact dropWhile_head h
    · rename_i hx
      cases h
      cases e : p x with
      | true => exact absurd e hx
      | false => rfl

theorem dropWhile_suffix' {α : Type} (p : α → Bool) (l : List α) : l.dropWhile p <:+ l := List.dropWhile_suffix p

theorem trim_last {ls : List (List Char)} {l : List Char} (h : (trimLines ls).getLast? = some l) : blank l = false := by
  unfold trimLines at h
  dsimp only at h
  rw [List.getLast?_reverse] at h
  exact dropWhile_head h

theorem trim_head {ls : List (List Char)} {l : List Char} (h : (trimLines ls).head? = some l) : blank l = false := by
  unfold trimLines at h
  dsimp only at h
  obtain ⟨u, hu⟩ := dropWhile_suffix' (fun l : List Char => l.all whiteSpace) (ls.dropWhile fun l : List Char => l.all whiteSpace).reverse
  have e := congrArg List.reverse hu
  rw [List.reverse_append, List.reverse_reverse] at e
  generalize (((ls.dropWhile fun l : List Char => l.all whiteSpace).reverse.dropWhile fun l : List Char => l.all whiteSpace).reverse) = t at h e
  cases t with
  | nil => cases h
  | cons a t =>
    cases h
    refine dropWhile_head (p := fun l : List Char => l.all whiteSpace) (l := ls) ?_
    rw [← e]; rfl

theorem trim_mem {ls : List (List Char)} {l : List Char} (h : l ∈ trimLines ls) : l ∈ ls := by
  unfold trimLines at h
  dsimp only at h
  have h := (List.dropWhile_suffix _).subset (List.mem_reverse.1 h)
  exact (List.dropWhile_suffix _).subset (List.mem_reverse.1 h)

theorem all_blank {ls : List (List Char)} (h : ∀ l ∈ ls, blank l = true) : trimLines ls = [] := by
  cases e : trimLines ls with
  | nil => rfl
  | cons l t =>
    have h1 := trim_head (ls := ls) (l := l) (by rw [e]; rfl)
    have h2 := h l (trim_mem (by rw [e]; simp))
    rw [h1] at h2; cases h2

theorem splitLF_mem {s l : List Char} (h : l ∈ splitLF s) : '\n' ∉ l := by
  induction s generalizing l with
  | nil => simp [splitLF] at h; subst h; simp
  | cons c s ih =>
    rw [splitLF] at h
    split at h
    · rcases List.mem_cons.1 h with rfl | h
      · simp
      · exact ih h
    · rename_i hc
      split at h
      · rename_i e; exact absurd e (splitLF_ne_nil s)
      · rename_i a r e
        rcases List.mem_cons.1 h with rfl | h
        · rw [List.mem_cons, not_or]
          exact ⟨fun e => hc e.symm, ih (by rw [e]; simp)⟩
        · exact ih (by rw [e]; simp [h])

theorem blank_spaces (k : Nat) (l : List Char) : blank (spaces k ++ l) = blank l := by
  unfold blank
  rw [List.all_append, show (spaces k).all whiteSpace = true from by simp [List.all_replicate, whiteSpace]]; simp

theorem indent_none {l : List Char} : indent l = none ↔ blank l = true := by
  unfold indent blank
  split <;> simp [*]

/-- If the raw value of the printed block string has the string as its value, there is no white space to be removed. -/
theorem formatBlock_back {k m : Nat} (hm : m ≤ k) {s : List Char} (hs : s ≠ []) (h : formatBlock (splitLF ('\n' :: (spaces k ++ indentAfter (spaces k) s ++ '\n' :: spaces m))) = s) :
    LinesOk (splitLF s) := by
  have nsp : ∀ n, '\n' ∉ spaces n := by
    intro n hn; exact absurd (List.eq_of_mem_replicate hn) (by decide)
  have e : splitLF ('\n' :: (spaces k ++ indentAfter (spaces k) s ++ '\n' :: spaces m)) = [] :: ((splitLF s).map (spaces k ++ ·) ++ [spaces m]) := by
    have := splitLF_append [] (spaces k ++ indentAfter (spaces k) s ++ '\n' :: spaces m)
    rw [List.nil_append] at this
    rw [this, splitLF_append, splitLF_indent (nsp k), splitLF_noLF (nsp m)]; rfl
  rw [e] at h
  unfold formatBlock at h
  have hsp : blank (spaces m) = true := by
    have := blank_spaces m []
    rw [List.append_nil] at this
    rw [this]; rfl
  cases hci : commonIndent ([] :: ((splitLF s).map (spaces k ++ ·) ++ [spaces m])) with
  | none =>
    exfalso
    rw [hci] at h
    dsimp only at h
    rw [all_blank] at h
    · exact hs h.symm
    · intro l hl
      unfold commonIndent at hci
      rw [List.tail_cons, List.min?_eq_none_iff, List.filterMap_eq_nil_iff] at hci
      rcases List.mem_cons.1 hl with rfl | hl
      · rfl
      · exact indent_none.1 (hci l hl)
  | some n =>
    rw [hci] at h
    dsimp only at h
    have hmin := hci
    unfold commonIndent at hmin
    rw [List.tail_cons, List.min?_eq_some_iff] at hmin
    obtain ⟨hmem, hle⟩ := hmin
    -- a line with the smallest indentation
    obtain ⟨y, hy, ey⟩ := List.mem_filterMap.1 hmem
    have : ∃ z ∈ splitLF s, ∃ j, indent z = some j ∧ n = k + j := by
      rcases List.mem_append.1 hy with hy | hy
      · obtain ⟨z, hz, rfl⟩ := List.mem_map.1 hy
        rw [indent_spaces] at ey
        cases hi : indent z with
        | none => rw [hi] at ey; cases ey
        | some j =>
          rw [hi] at ey
          exact ⟨z, hz, j, hi, (Option.some.inj ey).symm⟩
      · rw [List.mem_singleton] at hy
        subst hy
        rw [indent_none.2 hsp] at ey; cases ey
    obtain ⟨z, hz, j, hj, rfl⟩ := this
    have hj2 : ∀ x ∈ splitLF s, ∀ i, indent x = some i → j ≤ i := by
      intro x hx i hi
      have := hle (k + i) (List.mem_filterMap.2 ⟨spaces k ++ x, by simp [hx], by rw [indent_spaces, hi]; rfl⟩)
      omega
    have e2 : ((splitLF s).map (spaces k ++ ·) ++ [spaces m]).map (List.drop (k + j)) = (splitLF s).map (List.drop j) ++ [[]] := by
      rw [List.map_append, List.map_map]
      have a1 : (List.drop (k + j) ∘ fun x => spaces k ++ x) = List.drop j := by
        funext x
        show List.drop (k + j) (spaces k ++ x) = _
        rw [List.drop_append, List.length_replicate, List.drop_eq_nil_of_le (by simp), List.nil_append]
        congr 1; omega
      have a2 : List.drop (k + j) (spaces m) = [] := List.drop_eq_nil_of_le (by simp; omega)
      rw [a1]; simp [a2]
    rw [e2] at h
    have nolf : ∀ l ∈ [] :: ((splitLF s).map (List.drop j) ++ [[]]), '\n' ∉ l := by
      intro l hl
      rcases List.mem_cons.1 hl with rfl | hl
      · simp
      · rcases List.mem_append.1 hl with hl | hl
        · obtain ⟨x, hx, rfl⟩ := List.mem_map.1 hl
          exact fun hn => splitLF_mem hx (List.mem_of_mem_drop hn)
        · rw [List.mem_singleton] at hl; subst hl; simp
    have tne : trimLines ([] :: ((splitLF s).map (List.drop j) ++ [[]])) ≠ [] := by
      intro e
      rw [e] at h
      exact hs h.symm
    have et : trimLines ([] :: ((splitLF s).map (List.drop j) ++ [[]])) = splitLF s := by
      have := splitLF_join _ tne fun l hl => nolf l (trim_mem hl)
      rw [h] at this
      exact this.symm
    have hh : ∀ l, (splitLF s).head? = some l → blank l = false := fun l hl => trim_head (by rw [et]; exact hl)
    have ht : ∀ l, (splitLF s).getLast? = some l → blank l = false := fun l hl => trim_last (by rw [et]; exact hl)
    -- dropping keeps lines that are not blank
    have keep : ∀ l ∈ splitLF s, blank l = false → blank (l.drop j) = false := by
      intro l hl hb
      have hi : ∃ i, indent l = some i := by
        cases hi : indent l with
        | none => rw [indent_none.1 hi] at hb; cases hb
        | some i => exact ⟨i, rfl⟩
      obtain ⟨i, hi⟩ := hi
      have hji := hj2 l hl i hi
      unfold indent at hi
      split at hi
      · cases hi
      · have hi := Option.some.inj hi
        have : l.drop j = (l.takeWhile whiteSpace).drop j ++ l.dropWhile whiteSpace := by
          have h2 := congrArg (List.drop j) (List.takeWhile_append_dropWhile (p := whiteSpace) (l := l))
          rw [← h2, List.drop_append, hi]
          have : j - i = 0 := by omega
          rw [this, List.drop_zero]
        unfold blank at hb ⊢
        rw [this, List.all_append]
        have hd : (l.dropWhile whiteSpace).all whiteSpace = false := by
          cases hx : (l.dropWhile whiteSpace).all whiteSpace with
          | false => rfl
          | true =>
            rw [← List.takeWhile_append_dropWhile (p := whiteSpace) (l := l), List.all_append, hx] at hb
            have : (l.takeWhile whiteSpace).all whiteSpace = true := List.all_takeWhile
            rw [this] at hb; cases hb
        rw [hd, Bool.and_false]
    have hne := splitLF_ne_nil s
    have et2 : trimLines ([] :: ((splitLF s).map (List.drop j) ++ [[]])) = (splitLF s).map (List.drop j) := by
      apply trim_ok
      · intro l hl
        rw [List.head?_map] at hl
        cases hx : (splitLF s).head? with
        | none => rw [hx] at hl; cases hl
        | some x =>
          rw [hx] at hl
          rw [← Option.some.inj hl]
          exact keep x (List.mem_of_head? hx) (hh x hx)
      · intro l hl
        rw [List.getLast?_map] at hl
        cases hx : (splitLF s).getLast? with
        | none => rw [hx] at hl; cases hl
        | some x =>
          rw [hx] at hl
          rw [← Option.some.inj hl]
          exact keep x (List.mem_of_getLast? hx) (ht x hx)
      · simpa using hne
    rw [et2] at et
    have hj0 : j = 0 := by
      cases hx : splitLF s with
      | nil => exact absurd hx hne
      | cons l r =>
        rw [hx] at et
        have e1 := congrArg List.length (List.cons.inj et).1
        have hb := hh l (by rw [hx]; rfl)
        cases l with
        | nil => cases hb
        | cons c l => rw [List.length_drop] at e1; simp at e1; omega
    subst hj0
    refine ⟨hh, ht, ?_⟩
    unfold indent at hj
    split at hj
    · cases hj
    · rename_i hb
      cases z with
      | nil => exact absurd rfl hb
      | cons c l =>
        refine ⟨c, l, hz, ?_⟩
        cases hc : whiteSpace c with
        | false => rfl
        | true => rw [List.takeWhile_cons, if_pos hc] at hj; simp at hj

theorem format_cr (ls : List (List Char)) : (formatBlock ls).count '\r' ≤ (['\n'].intercalate ls).count '\r' := by
  have cnt : ∀ (ls : List (List Char)), (['\n'].intercalate ls).count '\r' = (ls.map (List.count '\r')).sum := by
    intro ls
    induction ls with
    | nil => rfl
    | cons l r ih =>
      cases r with
      | nil => simp
      | cons a r =>
        rw [List.intercalate_cons_of_ne_nil (by simp), List.count_append, List.count_append, ih]
        simp
  have sub : ∀ {a b : List (List Char)}, a.Sublist b → (a.map (List.count '\r')).sum ≤ (b.map (List.count '\r')).sum := by
    intro a b h
    induction h with
    | slnil => simp
    | cons _ _ ih => simp only [List.map_cons, List.sum_cons]; omega
    | cons_cons _ _ ih => simp only [List.map_cons, List.sum_cons]; omega
  have trim : ∀ (ls : List (List Char)), (trimLines ls).Sublist ls := by
    intro ls
    unfold trimLines
    dsimp only
    refine ((List.dropWhile_suffix _).sublist.reverse).trans ?_
    rw [List.reverse_reverse]
    exact (List.dropWhile_suffix _).sublist
  have drp : ∀ (n : Nat) (ls : List (List Char)), ((ls.map (List.drop n)).map (List.count '\r')).sum ≤ (ls.map (List.count '\r')).sum := by
    intro n ls
    induction ls with
    | nil => simp
    | cons l r ih =>
      simp only [List.map_cons, List.sum_cons]
      have := (List.drop_sublist n l).count_le '\r'
      omega
  unfold formatBlock
  dsimp only
  rw [cnt, cnt]
  refine Nat.le_trans (sub (trim _)) ?_
  split
  · simp only [List.map_cons, List.sum_cons]
    have := drp (by assumption) (by assumption)
    omega
  · exact Nat.le_refl _

end GQL
