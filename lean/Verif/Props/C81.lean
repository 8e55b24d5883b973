/-
C81 Parsing does not look into strings.
-/
import Verif.Props.C80

namespace GQL
open Spec

variable (pf : Bytes → Option Nat)

/-- A token with another string: `f` gives the new contents. -/
def Spec.newString (f : List Char → List Char) (t : Tok) : Tok := if t.kind = .string then ⟨.string, f t.value⟩ else t

/-- `f` makes no string empty and no empty string non-empty. -/
def Spec.KeepsEmpty (f : List Char → List Char) : Prop := ∀ s, f s = [] ↔ s = []

/-- `g` does to the UTF-8 what `f` does to the text. -/
def Spec.OnBytes (f : List Char → List Char) (g : Bytes → Bytes) : Prop := ∀ s, g (utf8 s) = utf8 (f s)

theorem utf8_eq_nil {s : List Char} : utf8 s = [] ↔ s = [] := by
  cases s with
  | nil => exact ⟨fun _ => rfl, fun _ => rfl⟩
  | cons c s => rw [utf8_cons]; simp [utf8Char_ne_nil]

theorem newString_sim {f : List Char → List Char} (hf : KeepsEmpty f) {g : Bytes → Bytes} (hg : OnBytes f g) :
    ∀ {items items' : List Item} {ts ts' : List Token}, items'.map (·.tok) = items.map (fun i => newString f i.tok) →
      SameTokens ts items → SameTokens ts' items' → ∀ {l l' : Token}, l.kind = .eof → l'.kind = .eof → l.lit = l'.lit →
      SimS g id False (ts ++ [l]) (ts' ++ [l'])
  | [], [], ts, ts', _, h1, h2, l, l', k1, k2, k3 => by
    rw [List.map_eq_nil_iff.1 (show ts.map _ = [] from h1), List.map_eq_nil_iff.1 (show ts'.map _ = [] from h2)]
    exact .cons (k1.trans k2.symm) (fun _ => k3) (fun h => by rw [k1] at h; cases h) (fun h => h.elim) .nil
  | [], _ :: _, _, _, h, _, _, _, _, _, _, _ => by simp at h
  | _ :: _, [], _, _, h, _, _, _, _, _, _, _ => by simp at h
  | i :: items, i' :: items', ts, ts', h, h1, h2, l, l', k1, k2, k3 => by
    unfold SameTokens at h1 h2
    cases ts with
    | nil => simp at h1
    | cons t ts =>
      cases ts' with
      | nil => simp at h2
      | cons t' ts' =>
        simp only [List.map_cons, List.cons.injEq, Prod.mk.injEq] at h h1 h2
        obtain ⟨h, hr⟩ := h
        obtain ⟨⟨a1, a2⟩, h1⟩ := h1
        obtain ⟨⟨b1, b2⟩, h2⟩ := h2
        have ih := newString_sim hf hg hr h1 h2 k1 k2 k3
        rw [h] at b1 b2
        unfold newString at b1 b2
        by_cases hk : i.tok.kind = .string
        · rw [if_pos hk] at b1 b2
          rw [hk] at a1
          refine .cons (a1.trans b1.symm) (fun hn => absurd a1 hn) (fun _ => ⟨?_, ?_⟩) (fun h => h.elim) ih
          · rw [a2, b2, hg]; rfl
          · rw [a2, b2, utf8_eq_nil, utf8_eq_nil]; exact (hf _).symm
        · rw [if_neg hk] at b1 b2
          refine .cons (a1.trans b1.symm) (fun _ => a2.trans b2.symm) (fun h => ?_) (fun h => h.elim) ih
          rw [a1] at h
          revert h hk
          cases i.tok.kind <;> simp [goKind]

theorem noLoc_strDoc_of {g : Bytes → Bytes} {d d' : Document} (h : d = mkDocument d.defs) (h' : d' = mkDocument d'.defs)
    (e : d'.defs.map (fun d => strBody id d.body) = d.defs.map (fun d => strBody g d.body)) : noLoc d' = noLoc (strDoc g d) := by
  rw [h, h', ← mkDocument_str]
  refine mkDocument_bodies ?_
  rw [List.map_map]
  simp only [strBody_id] at e
  exact e

/-- C81: two texts whose tokens are the same but for the contents of strings (none made empty or filled): the one is accepted
exactly if the other is, and the documents are then the same but for positions and the contents of strings. -/
theorem C81_strings_partial (cs cs' : List Char) (h0 : '\x00' ∉ cs) (h0' : '\x00' ∉ cs') (items items' : List Item)
    (hl : Lex GoBlock [] cs items []) (hl' : Lex GoBlock [] cs' items' [])
    (f : List Char → List Char) (hf : KeepsEmpty f) (hi : items'.map (·.tok) = items.map (fun i => newString f i.tok))
    (g : Bytes → Bytes) (hg : OnBytes f g) :
    (∀ d, parse pf (utf8 cs) = .ok d → ∃ d', parse pf (utf8 cs') = .ok d' ∧ noLoc d' = noLoc (strDoc g d)) ∧
    (∀ d', parse pf (utf8 cs') = .ok d' → ∃ d, parse pf (utf8 cs) = .ok d ∧ noLoc d' = noLoc (strDoc g d)) := by
  obtain ⟨i1, r1, ts, l, a1, a2, a3, a4, a5⟩ := C03_tokens cs h0
  obtain ⟨rfl, rfl⟩ := C03_deterministic cs h0 _ _ _ _ hl (.inl rfl) a1 a2
  obtain ⟨i2, r2, ts', l', b1, b2, b3, b4, b5⟩ := C03_tokens cs' h0'
  obtain ⟨rfl, rfl⟩ := C03_deterministic cs' h0' _ _ _ _ hl' (.inl rfl) b1 b2
  rw [if_pos rfl] at a5 b5
  have hs : SimS g id False (ts ++ [l]) (ts' ++ [l']) :=
    newString_sim hf hg hi a4 b4 a5 b5 (by rw [tokens_eof_lit a3 (by simp) a5, tokens_eof_lit b3 (by simp) b5])
  have hn : g [] = id [] := by
    have := hg []
    rw [(hf []).2 rfl] at this
    exact this
  constructor
  · intro d h
    obtain ⟨ds', hd', eb, -⟩ := doc_str hn ((C15_exact_partial pf _ _ a3 d.defs).1 ⟨d, h, rfl⟩) hs
    obtain ⟨d', h', rfl⟩ := (C15_exact_partial pf _ _ b3 ds').2 hd'
    exact ⟨d', h', noLoc_strDoc_of (parse_mk pf h) (parse_mk pf h') eb⟩
  · intro d' h'
    obtain ⟨ds, hd, eb, -⟩ := doc_str hn.symm ((C15_exact_partial pf _ _ b3 d'.defs).1 ⟨d', h', rfl⟩) hs.symm
    obtain ⟨d, h, rfl⟩ := (C15_exact_partial pf _ _ a3 ds).2 hd
    exact ⟨d, h, noLoc_strDoc_of (parse_mk pf h) (parse_mk pf h') eb.symm⟩

/-- The conditions are met: `{a(b:"h")}` and `{a(b:"xx")}`, both accepted. -/
example : ∃ cs cs' items items' f g, '\x00' ∉ cs ∧ '\x00' ∉ cs' ∧ Lex GoBlock [] cs items [] ∧ Lex GoBlock [] cs' items' [] ∧ KeepsEmpty f ∧
    items'.map (·.tok) = items.map (fun i => newString f i.tok) ∧ OnBytes f g ∧ cs ≠ cs' ∧ ∃ d, parse pf (utf8 cs) = .ok d := by
  refine ⟨"{a(b:\"h\")}".toList, "{a(b:\"xx\")}".toList, [⟨⟨.punctuator, ['{']⟩, [], ['{']⟩, ⟨⟨.name, ['a']⟩, ['{'], ['a']⟩, ⟨⟨.punctuator, ['(']⟩, ['{', 'a'], ['(']⟩, ⟨⟨.name, ['b']⟩, ['{', 'a', '('], ['b']⟩, ⟨⟨.punctuator, [':']⟩, ['{', 'a', '(', 'b'], [':']⟩, ⟨⟨.string, ['h']⟩, ['{', 'a', '(', 'b', ':'], ['"', 'h', '"']⟩, ⟨⟨.punctuator, [')']⟩, ['{', 'a', '(', 'b', ':', '"', 'h', '"'], [')']⟩, ⟨⟨.punctuator, ['}']⟩, ['{', 'a', '(', 'b', ':', '"', 'h', '"', ')'], ['}']⟩],
    [⟨⟨.punctuator, ['{']⟩, [], ['{']⟩, ⟨⟨.name, ['a']⟩, ['{'], ['a']⟩, ⟨⟨.punctuator, ['(']⟩, ['{', 'a'], ['(']⟩, ⟨⟨.name, ['b']⟩, ['{', 'a', '('], ['b']⟩, ⟨⟨.punctuator, [':']⟩, ['{', 'a', '(', 'b'], [':']⟩, ⟨⟨.string, ['x', 'x']⟩, ['{', 'a', '(', 'b', ':'], ['"', 'x', 'x', '"']⟩, ⟨⟨.punctuator, [')']⟩, ['{', 'a', '(', 'b', ':', '"', 'x', 'x', '"'], [')']⟩, ⟨⟨.punctuator, ['}']⟩, ['{', 'a', '(', 'b', ':', '"', 'x', 'x', '"', ')'], ['}']⟩], fun s => if s = [] then [] else ['x', 'x'], fun b => if b = [] then [] else utf8 ['x', 'x'],
    by decide, by decide, ?_, ?_, ?_, ?_, ?_, by decide, _, (parse_eq (ts := [⟨.punctuator, b!"{", 1, 1⟩, ⟨.name, b!"a", 1, 2⟩, ⟨.punctuator, b!"(", 1, 3⟩, ⟨.name, b!"b", 1, 4⟩, ⟨.punctuator, b!":", 1, 5⟩, ⟨.stringValue, b!"h", 1, 6⟩, ⟨.punctuator, b!")", 1, 9⟩, ⟨.punctuator, b!"}", 1, 10⟩, ⟨.eof, [], 1, 11⟩]) (by decide) rfl)⟩
  case refine_1 =>
    exact .token (lx := ['{']) (.punct '{' _ (by decide)) <| .token (lx := ['a']) (.name 'a' [] _ rfl (by simp) (fun c t e => by cases e; rfl)) <|
      .token (lx := ['(']) (.punct '(' _ (by decide)) <| .token (lx := ['b']) (.name 'b' [] _ rfl (by simp) (fun c t e => by cases e; rfl)) <|
      .token (lx := [':']) (.punct ':' _ (by decide)) <|
      .token (lx := ['"', 'h', '"']) (.string (v := ['h']) (.char 'h' (by decide) (by decide) (by decide) (.close _)) (fun h => nomatch h)) <|
      .token (lx := [')']) (.punct ')' _ (by decide)) <| .token (lx := ['}']) (.punct '}' _ (by decide)) <| .done _ _
  case refine_2 =>
    exact .token (lx := ['{']) (.punct '{' _ (by decide)) <| .token (lx := ['a']) (.name 'a' [] _ rfl (by simp) (fun c t e => by cases e; rfl)) <|
      .token (lx := ['(']) (.punct '(' _ (by decide)) <| .token (lx := ['b']) (.name 'b' [] _ rfl (by simp) (fun c t e => by cases e; rfl)) <|
      .token (lx := [':']) (.punct ':' _ (by decide)) <|
      .token (lx := ['"', 'x', 'x', '"']) (.string (v := ['x', 'x']) (.char 'x' (by decide) (by decide) (by decide) (.char 'x' (by decide) (by decide) (by decide) (.close _))) (fun h => nomatch h)) <|
      .token (lx := [')']) (.punct ')' _ (by decide)) <| .token (lx := ['}']) (.punct '}' _ (by decide)) <| .done _ _
  case refine_3 => intro s; dsimp only; split <;> simp [*]
  case refine_4 => decide
  case refine_5 =>
    intro s
    dsimp only
    by_cases h : s = []
    · rw [if_pos h, if_pos (utf8_eq_nil.2 h)]; rfl
    · rw [if_neg h, if_neg (fun e => h (utf8_eq_nil.1 e))]

/-- Whether a string is empty may matter: an empty description before `schema` is overlooked, another is an error. -/
theorem C81_refuted :
    (∃ d, parse pf b!"\"\" schema{query:Q}" = .ok d) ∧ ∃ e, parse pf b!"\"x\" schema{query:Q}" = .err e :=
  ⟨⟨_, (parse_eq (ts := [⟨.stringValue, [], 1, 1⟩, ⟨.name, b!"schema", 1, 4⟩, ⟨.punctuator, b!"{", 1, 10⟩, ⟨.name, b!"query", 1, 11⟩, ⟨.punctuator, b!":", 1, 16⟩, ⟨.name, b!"Q", 1, 17⟩, ⟨.punctuator, b!"}", 1, 18⟩, ⟨.eof, [], 1, 19⟩]) (by decide) rfl)⟩, ⟨_, (parse_eq (ts := [⟨.stringValue, b!"x", 1, 1⟩, ⟨.name, b!"schema", 1, 5⟩, ⟨.punctuator, b!"{", 1, 11⟩, ⟨.name, b!"query", 1, 12⟩, ⟨.punctuator, b!":", 1, 17⟩, ⟨.name, b!"Q", 1, 18⟩, ⟨.punctuator, b!"}", 1, 19⟩, ⟨.eof, [], 1, 20⟩]) (by decide) rfl)⟩⟩

end GQL
