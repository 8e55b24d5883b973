/-
The lexer on bytes that are not UTF-8, beside the lexer on the repaired text (for C80).
-/
import Verif.Proofs.LexAt
import Verif.Spec.Repair

namespace GQL
open Spec

/-! ### Bytes and their text -/

/-- As `Repaired`, before `rest`. -/
inductive Chunks (rest : Bytes) : Bytes → List Char → Prop
  | nil : Chunks rest [] []
  | char (c : Char) {b cs} : Chunks rest b cs → Chunks rest (utf8Char c ++ b) (c :: cs)
  | bad {x b cs} : (∀ c t, x :: (b ++ rest) ≠ utf8Char c ++ t) → Chunks rest b cs → Chunks rest (x :: b) (replacement :: cs)

theorem Chunks.repaired {rest b : Bytes} {cs} (h : Chunks rest b cs) : Repaired b cs := by
  induction h with
  | nil => exact .nil
  | char c _ ih => exact .char c ih
  | bad hx _ ih =>
    refine .bad (fun c t he => hx c (t ++ rest) ?_) ih
    rw [← List.append_assoc, ← he, List.cons_append]

theorem Chunks.append {rest b b2 : Bytes} {m m2} (h : Chunks (b2 ++ rest) b m) (h2 : Chunks rest b2 m2) : Chunks rest (b ++ b2) (m ++ m2) := by
  induction h with
  | nil => exact h2
  | char c _ ih => rw [List.append_assoc]; exact .char c ih
  | bad hx _ ih => exact .bad (by simpa [List.append_assoc] using hx) ih

/-- As `Repaired`, and the last byte is not bad. -/
inductive Twin : Bytes → List Char → Prop
  | nil : Twin [] []
  | char (c : Char) {b cs} : Twin b cs → Twin (utf8Char c ++ b) (c :: cs)
  | bad {x b cs} : (∀ c t, x :: b ≠ utf8Char c ++ t) → b ≠ [] → Twin b cs → Twin (x :: b) (replacement :: cs)

theorem Twin.repaired {b : Bytes} {cs} (h : Twin b cs) : Repaired b cs := by
  induction h with
  | nil => exact .nil
  | char c _ ih => exact .char c ih
  | bad hx _ _ ih => exact .bad hx ih

theorem bad_wide {x : Nat} {b : Bytes} (h : ∀ c t, x :: b ≠ utf8Char c ++ t) : 128 ≤ x := by
  apply Classical.byContradiction
  intro hx
  have hv : x.isValidChar := by unfold Nat.isValidChar; omega
  refine h (Char.ofNat x) b ?_
  have : (Char.ofNat x).toNat = x := by
    unfold Char.ofNat
    rw [dif_pos hv]
    rfl
  rw [utf8Char_ascii _ (by omega), this]
  rfl

theorem bad_decode {x : Nat} {b : Bytes} (h : ∀ c t, x :: b ≠ utf8Char c ++ t) : decodeRune (x :: b) = (runeError, 1) := by
  apply Classical.byContradiction
  intro hd
  obtain ⟨hv, he⟩ := encode_decode (x :: b) (decodeRune (x :: b)).1 (decodeRune (x :: b)).2 rfl (by
    by_cases h1 : (decodeRune (x :: b)).1 = runeError
    · right; intro h2; exact hd (Prod.ext h1 h2)
    · left; exact h1) (by simp)
  refine h (Char.ofNat (decodeRune (x :: b)).1) ((x :: b).drop (decodeRune (x :: b)).2) ?_
  have : (Char.ofNat (decodeRune (x :: b)).1).toNat = (decodeRune (x :: b)).1 := by
    unfold Char.ofNat
    rw [dif_pos hv]
    rfl
  rw [utf8Char_eq, this, he, List.take_append_drop]

/-! ### Two lexers -/

/-- The first lexer stands at bytes, the second at their text. -/
structure Twins (l l' : Lexer) (cs : List Char) : Prop where
  le : l.pos ≤ l.input.length
  twin : Twin (l.input.drop l.pos) cs
  at' : At l' cs
  lpos : l.lpos = l'.lpos
  line : l.line = l'.line
  nul : NoNul cs
  trap : ¬ Trap (l.input.drop l.pos)

/-- From `l`, `l'` both have come to `k`, `k'`. -/
structure Ahead (l l' : Lexer) (cs : List Char) (k k' : Lexer) (ds : List Char) : Prop where
  tw : Twins k k' ds
  inp : k.input = l.input
  inp' : k'.input = l'.input
  mid : ∃ b m, cs = m ++ ds ∧ l.input.drop l.pos = b ++ k.input.drop k.pos ∧ k.pos = l.pos + b.length ∧ k'.pos = l'.pos + (utf8 m).length ∧
    Chunks (k.input.drop k.pos) b m

theorem Ahead.refl {l l' : Lexer} {cs} (h : Twins l l' cs) : Ahead l l' cs l l' cs :=
  ⟨h, rfl, rfl, [], [], rfl, rfl, rfl, rfl, .nil⟩

theorem Ahead.trans {a a' b b' c c' : Lexer} {as bs cs} (h1 : Ahead a a' as b b' bs) (h2 : Ahead b b' bs c c' cs) : Ahead a a' as c c' cs := by
  obtain ⟨t1, i1, i1', x1, m1, e1, e2, e3, e4, e5⟩ := h1
  obtain ⟨t2, i2, i2', x2, m2, f1, f2, f3, f4, f5⟩ := h2
  refine ⟨t2, i2.trans i1, i2'.trans i1', x1 ++ x2, m1 ++ m2, by rw [e1, f1, List.append_assoc], by rw [e2, f2, List.append_assoc], by simp; omega, by rw [utf8_append, List.length_append]; omega, ?_⟩
  rw [f2] at e5
  exact e5.append f5

/-- Positions only. -/
theorem Twins.move {l l' k k' : Lexer} {cs} (h : Twins l l' cs) (hi : k.input = l.input) (hi' : k'.input = l'.input) (hp : k.pos = l.pos) (hp' : k'.pos = l'.pos)
    (hl : k.lpos = k'.lpos) (hn : k.line = k'.line) : Twins k k' cs :=
  ⟨by rw [hi, hp]; exact h.le, by rw [hi, hp]; exact h.twin, ⟨by rw [hi', hp']; exact h.at'.le, by rw [hi', hp']; exact h.at'.eq⟩, hl, hn, h.nul, by rw [hi, hp]; exact h.trap⟩

theorem Ahead.move {l l' a a' k k' : Lexer} {cs ds} (h : Ahead l l' cs a a' ds) (hi : k.input = a.input) (hi' : k'.input = a'.input) (hp : k.pos = a.pos) (hp' : k'.pos = a'.pos)
    (hl : k.lpos = k'.lpos) (hn : k.line = k'.line) : Ahead l l' cs k k' ds := by
  obtain ⟨t1, i1, i1', x1, m1, e1, e2, e3, e4, e5⟩ := h
  exact ⟨t1.move hi hi' hp hp' hl hn, hi.trans i1, hi'.trans i1', x1, m1, e1, by rw [hi, hp]; exact e2, by rw [hp]; exact e3, by rw [hp']; exact e4, by rw [hi, hp]; exact e5⟩

/-- One character read by both. -/
structure ReadBoth (l l' : Lexer) (cs : List Char) (r w w' : Nat) (k k' : Lexer) (ds : List Char) : Prop where
  rd : l.rd = (r, w, k)
  rd' : l'.rd = (r, w', k')
  ahead : Ahead l l' cs k k' ds
  pos : k.pos = l.pos + w
  pos' : k'.pos = l'.pos + w'
  line : k.line = l.line
  zero : r = 0 → w = 0 ∧ w' = 0 ∧ cs = [] ∧ ds = [] ∧ k = l ∧ k' = l'
  small : r < 128 → r ≠ 0 → w = 1 ∧ w' = 1
  char : r ≠ 0 → ∃ c, cs = c :: ds ∧ c.toNat = r ∧ k.lpos = l.lpos + 1

theorem drop_of_append {i : Bytes} {p : Nat} {a b : Bytes} (h : i.drop p = a ++ b) : i.drop (p + a.length) = b := by
  rw [← List.drop_drop, h, List.drop_left]

theorem trap_suffix {a b : Bytes} (h : ¬ Trap (a ++ b)) : ¬ Trap b := by
  rintro ⟨p, x, q, e, hx⟩
  exact h ⟨a ++ p, x, q, by rw [e, List.append_assoc], hx⟩

theorem rd_twins {l l' : Lexer} {cs : List Char} (h : Twins l l' cs) : ∃ r w w' k k' ds, ReadBoth l l' cs r w w' k k' ds := by
  have ht := h.twin
  generalize hs : l.input.drop l.pos = s at ht
  cases ht with
  | nil =>
    have hlen : l.input.length ≤ l.pos := by
      have := congrArg List.length hs
      simp at this
      omega
    refine ⟨0, 0, 0, l, l', [], ?_, rd_eof h.at', .refl h, rfl, rfl, rfl, fun _ => ⟨rfl, rfl, rfl, rfl, rfl, rfl⟩, fun _ h => absurd rfl h, fun h => absurd rfl h⟩
    simp [Lexer.rd, Lexer.read, List.getElem?_eq_none hlen]
  | @char c b ds hb =>
    have hle := h.le
    have hlen : l.pos + ((utf8Char c).length + b.length) = l.input.length := by
      have := congrArg List.length hs
      simp at this
      omega
    have hnz := h.nul.head
    have hpos := utf8Char_length_pos c
    have hget : ∀ x t, utf8Char c = x :: t → l.input[l.pos]? = some x := by
      intro x t hx
      have := congrArg (fun x => x[0]?) hs
      simpa [hx] using this
    have hrd : l.rd = (c.toNat, cw c, l.advs [c]) := by
      rw [advs_one]
      by_cases h1 : c.toNat < 128
      · have hc := utf8Char_ascii c h1
        have hg := hget _ _ hc
        simp only [Lexer.rd, Lexer.read, hg]
        rw [if_neg (by omega)]
        simp [cw, hc]
      · obtain ⟨x, x', t, hc, hx, -⟩ := utf8Char_wide c h1
        have hg := hget _ _ hc
        simp only [Lexer.rd, Lexer.read, hg]
        rw [if_pos hx]
        simp only [Lexer.readUnicode]
        rw [if_neg (by rw [hc] at hlen; simp at hlen; omega)]
        simp only [Nat.add_sub_cancel]
        rw [hs, utf8Char_eq, decode_encode _ (char_valid c), cw, utf8Char_eq]
        simp only [Prod.mk.injEq, true_and]
        congr 1; omega
    have hdrop : (l.advs [c]).input.drop (l.advs [c]).pos = b := by
      have := drop_of_append hs
      rw [advs_one]
      exact this
    have htr : ¬ Trap b := by
      have := h.trap
      rw [hs] at this
      exact trap_suffix this
    refine ⟨c.toNat, cw c, cw c, l.advs [c], l'.advs [c], ds, hrd, rd_cons h.at', ⟨⟨?_, ?_, h.at'.adv1, ?_, ?_, h.nul.tail, ?_⟩, rfl, rfl, ?_⟩, ?_, ?_, rfl, fun e => absurd e hnz, ?_,
      fun _ => ⟨c, rfl, rfl, ?_⟩⟩
    · rw [advs_one]; show l.pos + cw c ≤ l.input.length; unfold cw; omega
    · rw [hdrop]; exact hb
    · rw [advs_one, advs_one]; show l.lpos + 1 = l'.lpos + 1; rw [h.lpos]
    · rw [advs_one, advs_one]; exact h.line
    · rw [hdrop]; exact htr
    · refine ⟨utf8Char c, [c], rfl, by rw [hdrop, hs], by rw [advs_one]; rfl, by rw [advs_one]; simp [utf8, cw], ?_⟩
      have := Chunks.char c (rest := (l.advs [c]).input.drop (l.advs [c]).pos) .nil
      rwa [List.append_nil] at this
    · rw [advs_one]
    · rw [advs_one]
    · intro h1 _
      have := utf8Char_ascii c h1
      simp [cw, this]
    · rw [advs_one]
  | @bad x b ds hx hb0 hb =>
    have hle := h.le
    have hlen : l.pos + (b.length + 1) = l.input.length := by
      have := congrArg List.length hs
      simp at this
      omega
    have hbl := List.length_pos_iff.2 hb0
    have hw := bad_wide hx
    have hget : l.input[l.pos]? = some x := by
      have := congrArg (fun x => x[0]?) hs
      simpa using this
    have hrd : l.rd = (0xFFFD, 1, { l with pos := l.pos + 1, lpos := l.lpos + 1 }) := by
      simp only [Lexer.rd, Lexer.read, hget]
      rw [if_pos hw]
      simp only [Lexer.readUnicode]
      rw [if_neg (by omega)]
      simp only [Nat.add_sub_cancel]
      rw [hs, bad_decode hx]
      rfl
    have hdrop : l.input.drop (l.pos + 1) = b := by
      exact drop_of_append (a := [x]) (by rw [hs]; rfl)
    have htr : ¬ Trap b := by
      have := h.trap
      rw [hs] at this
      exact trap_suffix (a := [x]) this
    refine ⟨0xFFFD, 1, cw replacement, { l with pos := l.pos + 1, lpos := l.lpos + 1 }, l'.advs [replacement], ds, hrd, rd_cons h.at',
      ⟨⟨?_, ?_, h.at'.adv1, ?_, ?_, h.nul.tail, ?_⟩, rfl, rfl, ?_⟩, rfl, ?_, rfl, fun e => absurd e (by decide), fun h => absurd h (by decide), fun _ => ⟨replacement, rfl, rfl, rfl⟩⟩
    · show l.pos + 1 ≤ l.input.length; omega
    · show Twin (l.input.drop (l.pos + 1)) ds; rw [hdrop]; exact hb
    · rw [advs_one]; show l.lpos + 1 = l'.lpos + 1; rw [h.lpos]
    · rw [advs_one]; exact h.line
    · show ¬ Trap (l.input.drop (l.pos + 1)); rw [hdrop]; exact htr
    · show ∃ b_1 m, _ ∧ _ = b_1 ++ l.input.drop (l.pos + 1) ∧ _ ∧ _ ∧ Chunks (l.input.drop (l.pos + 1)) b_1 m
      refine ⟨[x], [replacement], rfl, by rw [hdrop, hs]; rfl, rfl, by rw [advs_one]; simp [utf8, cw], .bad ?_ .nil⟩
      rw [hdrop]
      exact hx
    · rw [advs_one]

theorem ReadBoth.unread {l l' : Lexer} {cs r w w' k k' ds} (h : ReadBoth l l' cs r w w' k k' ds) (ht : Twins l l' cs) :
    Ahead l l' cs (k.unread w) (k'.unread w') cs := by
  refine (Ahead.refl ht).move h.ahead.inp h.ahead.inp' ?_ ?_ ?_ h.ahead.tw.line
  · have := h.pos; show k.pos - w = l.pos; omega
  · have := h.pos'; show k'.pos - w' = l'.pos; omega
  · show k.lpos - 1 = k'.lpos - 1; rw [h.ahead.tw.lpos]

/-- The bytes between two states. -/
theorem slice_both {l l' : Lexer} {cs k k' ds} (h0 : Twins l l' cs) (h : Ahead l l' cs k k' ds) : ∃ b m, slice k.input l.pos k.pos = some b ∧
    slice k'.input l'.pos k'.pos = some (utf8 m) ∧ cs = m ++ ds ∧ Repaired b m := by
  obtain ⟨t1, i1, i1', b, m, e1, e2, e3, e4, e5⟩ := h
  refine ⟨b, m, ?_, ?_, e1, e5.repaired⟩
  · rw [slice_some (by omega) t1.le, i1, e2, e3]
    simp
  · have := h0.at'
    rw [e1] at this
    rw [i1', e4]
    exact slice_at this

/-! ### Outcomes and tokens -/

/-- The outcomes agree, unless one of the two runs was given too little fuel. -/
def RelO {α β : Type} (R : α → β → Prop) : Out α → Out β → Prop
  | .ret a, .ret b => R a b
  | .panic, .panic => True
  | .oof, _ => True
  | _, .oof => True
  | _, _ => False

/-- Bytes and their text in UTF-8. -/
def RepB (b b' : Bytes) : Prop := ∃ m, Repaired b m ∧ b' = utf8 m

/-- The same token, but for the repaired literal. -/
structure TokRel (t t' : Token) : Prop where
  kind : t.kind = t'.kind
  line : t.line = t'.line
  col : t.col = t'.col
  same : t.kind = .illegal → t.lit = t'.lit
  lit : RepB t.lit t'.lit

/-- Tokens and lexers after them. -/
def TR (x x' : Token × Lexer) : Prop := TokRel x.1 x'.1 ∧ ∃ ds, Twins x.2 x'.2 ds

theorem readNextSignificant_both : ∀ (n m : Nat) (cr : Bool) {l l' : Lexer} {cs}, Twins l l' cs →
    RelO (fun x x' => x.1 = x'.1 ∧ ∃ p p' ps ds, Ahead l l' cs p p' ps ∧ ReadBoth p p' ps x.1 x.2.1 x'.2.1 x.2.2 x'.2.2 ds)
      (readNextSignificant n cr l) (readNextSignificant m cr l')
  | 0, _, _, _, _, _, _ => by simp [readNextSignificant, RelO]
  | n + 1, 0, _, _, _, _, _ => by
    rw [readNextSignificant.eq_1 _ _]
    cases readNextSignificant (n + 1) _ _ <;> simp [RelO]
  | n + 1, m + 1, cr, l, l', cs, h => by
    obtain ⟨r, w, w', k, k', ds, hr⟩ := rd_twins h
    have key : ∀ (cr : Bool) (a a' : Lexer), a.input = k.input → a'.input = k'.input → a.pos = k.pos → a'.pos = k'.pos → a.lpos = a'.lpos → a.line = a'.line →
        RelO (fun x x' => x.1 = x'.1 ∧ ∃ p p' ps ds, Ahead l l' cs p p' ps ∧ ReadBoth p p' ps x.1 x.2.1 x'.2.1 x.2.2 x'.2.2 ds)
          (readNextSignificant n cr a) (readNextSignificant m cr a') := by
      intro cr a a' h1 h2 h3 h4 h5 h6
      have ha := hr.ahead.move h1 h2 h3 h4 h5 h6
      have := readNextSignificant_both n m cr ha.tw
      revert this
      cases readNextSignificant n cr a <;> cases readNextSignificant m cr a' <;> simp only [RelO, imp_self]
      rintro ⟨e, p, p', ps, ds, hp, hq⟩
      exact ⟨e, p, p', ps, ds, ha.trans hp, hq⟩
    have hl := hr.ahead.tw.lpos
    have hn := hr.ahead.tw.line
    rw [readNextSignificant, readNextSignificant, hr.rd, hr.rd']
    dsimp only
    split
    · exact key _ _ _ rfl rfl rfl rfl rfl (by dsimp only; rw [hn])
    · split
      · split
        · exact key _ _ _ rfl rfl rfl rfl hl hn
        · exact key _ _ _ rfl rfl rfl rfl rfl (by dsimp only; rw [hn])
      · split
        · exact key _ _ _ rfl rfl rfl rfl hl hn
        · exact ⟨rfl, l, l', cs, ds, .refl h, hr⟩

/-- A loop in which both lexers go ahead. -/
abbrev Both (l l' : Lexer) (cs : List Char) : Lexer → Lexer → Prop := fun k k' => ∃ ds, Ahead l l' cs k k' ds

theorem RelO.mono {α β : Type} {R S : α → β → Prop} {x : Out α} {y : Out β} (h : RelO R x y) (hm : ∀ a b, R a b → S a b) : RelO S x y := by
  cases x <;> cases y <;> simp only [RelO] at h ⊢
  exact hm _ _ h

theorem RelO.left {α β : Type} {R : α → β → Prop} {y : Out β} : RelO R .oof y := by cases y <;> trivial
theorem RelO.right {α β : Type} {R : α → β → Prop} {x : Out α} : RelO R x .oof := by cases x <;> trivial

theorem scanNameLoop_both : ∀ (n m : Nat) {l l' : Lexer} {cs}, Twins l l' cs → RelO (Both l l' cs) (scanNameLoop n l) (scanNameLoop m l')
  | 0, _, _, _, _, _ => .left
  | n + 1, 0, _, _, _, _ => .right
  | n + 1, m + 1, l, l', cs, h => by
    obtain ⟨r, w, w', k, k', ds, hr⟩ := rd_twins h
    rw [scanNameLoop, scanNameLoop, hr.rd, hr.rd']
    dsimp only
    split
    · exact (scanNameLoop_both n m hr.ahead.tw).mono fun a b ⟨es, he⟩ => ⟨es, hr.ahead.trans he⟩
    · split
      · exact ⟨ds, hr.ahead⟩
      · exact ⟨cs, hr.unread h⟩

theorem scanName_both {p p' l l' : Lexer} {ps cs r w w'} (hp : Twins p p' ps) (hr : ReadBoth p p' ps r w w' l l' cs) (h : isNameStart r = true) :
    RelO TR (scanName l) (scanName l') := by
  have hs : r < 128 ∧ r ≠ 0 := by
    unfold isNameStart at h
    simp at h
    omega
  obtain ⟨rfl, rfl⟩ := hr.small hs.1 hs.2
  have hb := scanNameLoop_both l.fuel l'.fuel hr.ahead.tw
  unfold scanName
  revert hb
  cases scanNameLoop l.fuel l <;> cases scanNameLoop l'.fuel l' <;> intro hb
  all_goals first | exact .left | exact .right | trivial | skip
  all_goals first | exact hb.elim | skip
  rename_i k k'
  obtain ⟨ds, hb⟩ := hb
  obtain ⟨b, m, h1, h2, h3, h4⟩ := slice_both hp (hr.ahead.trans hb)
  have e1 : l.pos - 1 = p.pos := by have := hr.pos; omega
  have e2 : l'.pos - 1 = p'.pos := by have := hr.pos'; omega
  dsimp only
  rw [e1, e2, h1, h2]
  exact ⟨⟨rfl, hb.tw.line, by show (l.lpos : Int) = l'.lpos; rw [hr.ahead.tw.lpos], (fun h => nomatch h), m, h4, rfl⟩, ds, hb.tw⟩

/-! ### Text in UTF-8 -/

/-- The bytes are UTF-8. -/
def IsUtf8 (b : Bytes) : Prop := ∃ m, b = utf8 m

theorem repaired_utf8 : ∀ m : List Char, Repaired (utf8 m) m
  | [] => .nil
  | c :: m => .char c (repaired_utf8 m)

theorem IsUtf8.rep {b : Bytes} (h : IsUtf8 b) : RepB b b := by
  obtain ⟨m, rfl⟩ := h
  exact ⟨m, repaired_utf8 m, rfl⟩

theorem IsUtf8.append {a b : Bytes} (ha : IsUtf8 a) (hb : IsUtf8 b) : IsUtf8 (a ++ b) := by
  obtain ⟨m, rfl⟩ := ha
  obtain ⟨n, rfl⟩ := hb
  exact ⟨m ++ n, (utf8_append _ _).symm⟩

theorem ofNat_toNatT {r : Nat} (h : r.isValidChar) : (Char.ofNat r).toNat = r := by
  unfold Char.ofNat
  rw [dif_pos h]
  rfl

theorem IsUtf8.ascii : ∀ {b : Bytes}, (∀ x ∈ b, x < 128) → IsUtf8 b
  | [], _ => ⟨[], rfl⟩
  | x :: b, h => by
    obtain ⟨m, e⟩ := IsUtf8.ascii (b := b) fun y hy => h y (by simp [hy])
    have hx := h x (by simp)
    refine ⟨Char.ofNat x :: m, ?_⟩
    have := ofNat_toNatT (r := x) (by unfold Nat.isValidChar; omega)
    rw [utf8_cons, utf8Char_ascii _ (by omega), this, ← e]
    rfl

theorem encodeRune_utf8 (r : Nat) : IsUtf8 (encodeRune r) := by
  by_cases h : r.isValidChar
  · refine ⟨[Char.ofNat r], ?_⟩
    rw [utf8_cons, utf8_nil, List.append_nil, utf8Char_eq, ofNat_toNatT h]
  · have hb : (decide (r > 0x10FFFF) || (decide (0xD800 ≤ r) && decide (r ≤ 0xDFFF))) = true := by
      unfold Nat.isValidChar at h
      simp
      omega
    have h1 : ¬ r ≤ 0x7F := by unfold Nat.isValidChar at h; omega
    have h2 : ¬ r ≤ 0x7FF := by unfold Nat.isValidChar at h; omega
    have : encodeRune r = utf8 [replacement] := by
      unfold encodeRune
      rw [if_neg h1, if_neg h2]
      dsimp only
      rw [hb]
      simp only [Bool.true_or, if_true]
      decide
    exact ⟨_, this⟩

theorem goEscapeRune_utf8 (q r : Nat) (hq : q < 128) : IsUtf8 (goEscapeRune q r) := by
  unfold goEscapeRune
  split
  · refine .ascii ?_
    intro x hx
    simp at hx
    omega
  · split
    · exact encodeRune_utf8 r
    · have : ∀ b : Bytes, (∀ x ∈ b, x < 128) → IsUtf8 b := fun b h => .ascii h
      repeat' split
      all_goals first
        | exact .ascii (by decide)
        | skip
      refine .append (.ascii (by decide)) (.ascii ?_)
      intro x hx
      have hr : r < 128 := by omega
      simp only [List.mem_cons, List.not_mem_nil, or_false] at hx
      unfold lowerHex at hx
      rcases hx with rfl | rfl <;> split <;> omega

theorem quoteRune_utf8 (r : Nat) : IsUtf8 (quoteRune r) :=
  ((IsUtf8.ascii (by decide)).append (goEscapeRune_utf8 39 r (by decide))).append (.ascii (by decide))

/-! ### Punctuators and numbers -/

theorem illegal_both {k k' : Lexer} {ds} {e : Bytes} {ln ln' : Nat} {c c' : Int} (he : IsUtf8 e) (hn : ln = ln') (hc : c = c') (ht : Twins k k' ds) :
    TR (⟨.illegal, e, ln, c⟩, k) (⟨.illegal, e, ln', c'⟩, k') :=
  ⟨⟨rfl, hn, hc, fun _ => rfl, he.rep⟩, ds, ht⟩

theorem scanPunctuator_both {p p' l l' : Lexer} {ps cs r w w'} (hp : Twins p p' ps) (hr : ReadBoth p p' ps r w w' l l' cs) :
    RelO TR (scanPunctuator l r w) (scanPunctuator l' r w') := by
  have hc : (l.lpos : Int) = l'.lpos := by rw [hr.ahead.tw.lpos]
  unfold scanPunctuator
  split
  · obtain ⟨r2, w2, w2', k, k', ds, h2⟩ := rd_twins hr.ahead.tw
    obtain ⟨r3, w3, w3', k3, k3', es, h3⟩ := rd_twins h2.ahead.tw
    rw [h2.rd, h2.rd']
    dsimp only
    rw [h3.rd, h3.rd']
    dsimp only
    split
    · refine illegal_both ?_ h3.ahead.tw.line hc h3.ahead.tw
      unfold msgBadPunct
      exact (((((IsUtf8.ascii (by decide)).append (goEscapeRune_utf8 _ _ (by decide))).append (goEscapeRune_utf8 _ _ (by decide))).append
        (goEscapeRune_utf8 _ _ (by decide))).append (.ascii (by decide)))
    · exact ⟨⟨rfl, h3.ahead.tw.line, hc, (fun h => nomatch h), (IsUtf8.ascii (b := b!"...") (by decide)).rep⟩, es, h3.ahead.tw⟩
  · obtain ⟨b, m, h1, h2, h3, h4⟩ := slice_both hp hr.ahead
    have e1 : l.pos - w = p.pos := by have := hr.pos; omega
    have e2 : l'.pos - w' = p'.pos := by have := hr.pos'; omega
    rw [e1, e2, h1, h2]
    exact ⟨⟨rfl, hr.ahead.tw.line, hc, (fun h => nomatch h), m, h4, rfl⟩, cs, hr.ahead.tw⟩

/-- Both lexers go ahead and read a character. -/
abbrev ReadAhead (l l' : Lexer) (cs : List Char) : Nat × Nat × Lexer → Nat × Nat × Lexer → Prop := fun x x' =>
  x.1 = x'.1 ∧ ∃ q q' qs ds, Ahead l l' cs q q' qs ∧ ReadBoth q q' qs x.1 x.2.1 x'.2.1 x.2.2 x'.2.2 ds

/-- The same error, or related results. -/
def ExRel {α β γ δ : Type} (E : α → β → Prop) (O : γ → δ → Prop) : Except α γ → Except β δ → Prop
  | .error a, .error b => E a b
  | .ok a, .ok b => O a b
  | _, _ => False

theorem readDigitsLoop_both : ∀ (n m : Nat) {l l' : Lexer} {cs}, Twins l l' cs → RelO (ReadAhead l l' cs) (readDigitsLoop n l) (readDigitsLoop m l')
  | 0, _, _, _, _, _ => .left
  | n + 1, 0, _, _, _, _ => .right
  | n + 1, m + 1, l, l', cs, h => by
    obtain ⟨r, w, w', k, k', ds, hr⟩ := rd_twins h
    rw [readDigitsLoop, readDigitsLoop, hr.rd, hr.rd']
    dsimp only
    split
    · exact (readDigitsLoop_both n m hr.ahead.tw).mono fun a b ⟨e, q, q', qs, ds, hq, hw⟩ => ⟨e, q, q', qs, ds, hr.ahead.trans hq, hw⟩
    · exact ⟨rfl, l, l', cs, ds, .refl h, hr⟩

theorem readDigits_both {l l' : Lexer} {cs} (h : Twins l l' cs) (r : Nat) :
    RelO (ExRel (fun e e' => e = e' ∧ IsUtf8 e) (ReadAhead l l' cs)) (readDigits l r) (readDigits l' r) := by
  unfold readDigits
  split
  · have := readDigitsLoop_both l.fuel l'.fuel h
    revert this
    cases readDigitsLoop l.fuel l <;> cases readDigitsLoop l'.fuel l' <;> intro hb
    all_goals first | exact .left | exact .right | exact hb | trivial
  · refine ⟨rfl, ?_⟩
    unfold msgNotDigit
    exact (IsUtf8.ascii (by decide)).append (quoteRune_utf8 _)

theorem numberEnd_both {p p' l0 l0' q q' k k' : Lexer} {ps qs ds} (hp : Twins p p' ps) (hl : l0.lpos = l0'.lpos) (e1 : l0.pos - 1 = p.pos) (e2 : l0'.pos - 1 = p'.pos)
    (hq : Ahead p p' ps q q' qs) {r w w'} (hr : ReadBoth q q' qs r w w' k k' ds) (f : Bool) :
    RelO TR (numberEnd l0 f r w k) (numberEnd l0' f r w' k') := by
  have key : ∀ a a' es, Ahead p p' ps a a' es → RelO TR
      (match slice a.input (l0.pos - 1) a.pos with
        | none => .panic
        | some lit => .ret (⟨if f then .floatValue else .intValue, lit, a.line, l0.lpos⟩, a))
      (match slice a'.input (l0'.pos - 1) a'.pos with
        | none => .panic
        | some lit => .ret (⟨if f then .floatValue else .intValue, lit, a'.line, l0'.lpos⟩, a')) := by
    intro a a' es ha
    obtain ⟨b, m, h1, h2, h3, h4⟩ := slice_both hp ha
    rw [e1, e2, h1, h2]
    exact ⟨⟨rfl, ha.tw.line, by show (l0.lpos : Int) = l0'.lpos; rw [hl], (fun h => by dsimp only at h; split at h <;> cases h), m, h4, rfl⟩, es, ha.tw⟩
  unfold numberEnd
  by_cases h0 : r = 0
  · subst h0
    exact key k k' ds (hq.trans hr.ahead)
  · rw [if_pos h0, if_pos h0]
    exact key _ _ qs (hq.trans (hr.unread hq.tw))

theorem readIf_both {l l' : Lexer} {cs} (h : Twins l l' cs) (c : Bool) (r : Nat) : ∃ ds, (readIf c r l).1 = (readIf c r l').1 ∧
    Ahead l l' cs (readIf c r l).2 (readIf c r l').2 ds := by
  unfold readIf
  split
  · obtain ⟨r, w, w', k, k', ds, hr⟩ := rd_twins h
    rw [hr.rd, hr.rd']
    exact ⟨ds, rfl, hr.ahead⟩
  · exact ⟨cs, rfl, .refl h⟩

theorem numberExp_both {p p' l0 l0' q q' k k' : Lexer} {ps qs ds} (hp : Twins p p' ps) (hl : l0.lpos = l0'.lpos) (e1 : l0.pos - 1 = p.pos) (e2 : l0'.pos - 1 = p'.pos)
    (hq : Ahead p p' ps q q' qs) {r w w'} (hr : ReadBoth q q' qs r w w' k k' ds) (f : Bool) :
    RelO TR (numberExp l0 f r w k) (numberExp l0' f r w' k') := by
  unfold numberExp
  split
  · obtain ⟨r1, w1, w1', k1, k1', ds1, h1⟩ := rd_twins hr.ahead.tw
    rw [h1.rd, h1.rd']
    dsimp only
    obtain ⟨ds2, h2, h3⟩ := readIf_both h1.ahead.tw (r1 = 43 ∨ r1 = 45) r1
    have h4 := readDigits_both h3.tw (readIf (r1 = 43 ∨ r1 = 45) r1 k1).1
    rw [← h2]
    revert h4
    generalize readDigits (readIf (r1 = 43 ∨ r1 = 45) r1 k1).2 (readIf (r1 = 43 ∨ r1 = 45) r1 k1).1 = x
    generalize readDigits (readIf (r1 = 43 ∨ r1 = 45) r1 k1').2 (readIf (r1 = 43 ∨ r1 = 45) r1 k1).1 = y
    intro h4
    rcases x with (e | ⟨a, b, c⟩) | _ | _ <;> rcases y with (e' | ⟨a', b', c'⟩) | _ | _ <;>
      first | exact .left | exact .right | trivial | exact h4.elim | skip
    · obtain ⟨rfl, h5⟩ := h4
      exact illegal_both h5 h3.tw.line (by rw [hl]) h3.tw
    · obtain ⟨e, s, s', ss, es, hs, hw⟩ := h4
      dsimp only at e
      subst e
      exact numberEnd_both hp hl e1 e2 (((hq.trans hr.ahead).trans h1.ahead).trans (h3.trans hs)) hw true
  · exact numberEnd_both hp hl e1 e2 hq hr f

theorem numberFrac_both {p p' l0 l0' q q' k k' : Lexer} {ps qs ds} (hp : Twins p p' ps) (hl : l0.lpos = l0'.lpos) (e1 : l0.pos - 1 = p.pos) (e2 : l0'.pos - 1 = p'.pos)
    (hq : Ahead p p' ps q q' qs) {r w w'} (hr : ReadBoth q q' qs r w w' k k' ds) :
    RelO TR (numberFrac l0 r w k) (numberFrac l0' r w' k') := by
  unfold numberFrac
  split
  · obtain ⟨r1, w1, w1', k1, k1', ds1, h1⟩ := rd_twins hr.ahead.tw
    rw [h1.rd, h1.rd']
    dsimp only
    have h4 := readDigits_both h1.ahead.tw r1
    revert h4
    generalize readDigits k1 r1 = x
    generalize readDigits k1' r1 = y
    intro h4
    rcases x with (e | ⟨a, b, c⟩) | _ | _ <;> rcases y with (e' | ⟨a', b', c'⟩) | _ | _ <;>
      first | exact .left | exact .right | trivial | exact h4.elim | skip
    · obtain ⟨rfl, h5⟩ := h4
      exact illegal_both h5 h1.ahead.tw.line (by rw [hl]) h1.ahead.tw
    · obtain ⟨e, s, s', ss, es, hs, hw⟩ := h4
      dsimp only at e
      subst e
      exact numberExp_both hp hl e1 e2 ((hq.trans hr.ahead).trans (h1.ahead.trans hs)) hw true
  · exact numberExp_both hp hl e1 e2 hq hr false

theorem scanNumber_both {p p' l l' : Lexer} {ps cs r w w'} (hp : Twins p p' ps) (hr : ReadBoth p p' ps r w w' l l' cs) (h : isDigit r = true ∨ r = 45) :
    RelO TR (scanNumber l r) (scanNumber l' r) := by
  have hs : r < 128 ∧ r ≠ 0 := by
    unfold isDigit at h
    simp at h
    omega
  obtain ⟨rfl, rfl⟩ := hr.small hs.1 hs.2
  have e1 : l.pos - 1 = p.pos := by have := hr.pos; omega
  have e2 : l'.pos - 1 = p'.pos := by have := hr.pos'; omega
  have hl := hr.ahead.tw.lpos
  obtain ⟨ds2, h2, h3⟩ := readIf_both hr.ahead.tw (r = 45) r
  unfold scanNumber
  dsimp only
  rw [← h2]
  split
  · obtain ⟨r1, w1, w1', k1, k1', ds1, h1⟩ := rd_twins h3.tw
    rw [h1.rd, h1.rd']
    dsimp only
    split
    · refine illegal_both ?_ h1.ahead.tw.line (by rw [hl]) h1.ahead.tw
      unfold msgDigitAfterZero
      exact (IsUtf8.ascii (by decide)).append (quoteRune_utf8 _)
    · exact numberFrac_both hp hl e1 e2 (hr.ahead.trans h3) h1
  · have h4 := readDigits_both h3.tw (readIf (r = 45) r l).1
    revert h4
    generalize readDigits (readIf (r = 45) r l).2 (readIf (r = 45) r l).1 = x
    generalize readDigits (readIf (r = 45) r l').2 (readIf (r = 45) r l).1 = y
    intro h4
    rcases x with (e | ⟨a, b, c⟩) | _ | _ <;> rcases y with (e' | ⟨a', b', c'⟩) | _ | _ <;>
      first | exact .left | exact .right | trivial | exact h4.elim | skip
    · obtain ⟨rfl, h5⟩ := h4
      exact illegal_both h5 h3.tw.line (by rw [hl]) h3.tw
    · obtain ⟨e, s, s', ss, es, hs, hw⟩ := h4
      dsimp only at e
      subst e
      exact numberFrac_both hp hl e1 e2 (hr.ahead.trans (h3.trans hs)) hw

theorem skipComment_both : ∀ (n m : Nat) (cr : Bool) {l l' : Lexer} {cs}, Twins l l' cs → RelO (Both l l' cs) (skipComment n cr l) (skipComment m cr l')
  | 0, _, _, _, _, _, _ => .left
  | n + 1, 0, _, _, _, _, _ => .right
  | n + 1, m + 1, cr, l, l', cs, h => by
    obtain ⟨r, w, w', k, k', ds, hr⟩ := rd_twins h
    have hn := hr.ahead.tw.line
    rw [skipComment, skipComment, hr.rd, hr.rd']
    dsimp only
    split
    · exact ⟨ds, hr.ahead⟩
    · split
      · exact ⟨ds, hr.ahead.move rfl rfl rfl rfl rfl hn⟩
      · split
        · exact ⟨cs, hr.unread h⟩
        · split
          · have ha := hr.ahead.move (k := { k with line := k.line + 1, lpos := 0 }) (k' := { k' with line := k'.line + 1, lpos := 0 }) rfl rfl rfl rfl rfl (by dsimp only; rw [hn])
            exact (skipComment_both n m true ha.tw).mono fun a b ⟨es, he⟩ => ⟨es, ha.trans he⟩
          · split
            · exact ⟨ds, hr.ahead.move rfl rfl rfl rfl rfl (by dsimp only; rw [hn])⟩
            · exact (skipComment_both n m cr hr.ahead.tw).mono fun a b ⟨es, he⟩ => ⟨es, hr.ahead.trans he⟩

end GQL
