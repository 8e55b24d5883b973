/-
C24 String values survive printing: exactly which ones do.
-/
import Verif.Props.C23
import Verif.Proofs.DumpExact

namespace GQL
open Spec

/-- The printed form of the string is one string token with this value. -/
def Spec.ReadsBack (depth : Nat) (s : Bytes) : Prop :=
  ∃ a b, tokens (dumpString depth s) = .ret [a, b] ∧ a.kind = .stringValue ∧ a.lit = s ∧ b.kind = .eof

theorem one_lexeme {text : List Char} {v : List Char} (hz : '\x00' ∉ text) {a b : Token} (ht : tokens (utf8 text) = .ret [a, b]) (hk : a.kind = .stringValue)
    (hl : a.lit = utf8 v) (he : b.kind = .eof) {c : Char} {t : List Char} (hc : text = c :: t) (hi : ignored c = false) (hh : c ≠ '#') :
    ∃ rest pre, Lexeme GoBlock text ⟨.string, v⟩ rest ∧ Lex GoBlock pre rest [] [] := by
  obtain ⟨items, h1, h2, -⟩ := C03_spec_sound text hz [a] b ht he
  unfold SameTokens at h2
  match items, h2 with
  | [], h2 => cases h2
  | _ :: _ :: _, h2 => have := congrArg List.length h2; simp at this
  | [i], h2 =>
    have h2 := (List.cons.inj h2).1
    dsimp only at h2
    rw [hk, hl] at h2
    have hkind : i.tok.kind = .string := by
      have := (Prod.mk.inj h2).1
      cases e : i.tok.kind <;> rw [e] at this <;> first | rfl | cases this
    have hval : v = i.tok.value := utf8_inj (Prod.mk.inj h2).2
    generalize e3 : ([] : List Char) = r at h1
    generalize e2 : [i] = is at h1
    generalize ep : ([] : List Char) = pre at h1
    cases h1 with
    | done => cases e2
    | ignore h _ => cases hc; rw [hi] at h; cases h
    | comment => cases hc; exact absurd rfl hh
    | @token _ lx rest tok items _ hx hy =>
      cases e2
      subst e3
      refine ⟨rest, _, ?_, hy⟩
      cases tok
      cases hkind
      cases hval
      exact hx

/-- C24, exact: a string without NUL reads back, at any depth, if and only if it is `StrOk` (Spec/Dump). -/
theorem C24_exact (cs : List Char) (hz : '\x00' ∉ cs) (depth : Nat) : ReadsBack depth (utf8 cs) ↔ StrOk cs := by
  refine ⟨?_, fun h => C24_partial cs hz h depth⟩
  rintro ⟨a, b, ht, hk, hl, he⟩
  unfold StrOk
  split
  · rename_i hn
    rw [dumpString_block depth hn] at ht
    have hz' : '\x00' ∉ quotes3 ++ '\n' :: (spaces (2 * depth + 2) ++ indentAfter (spaces (2 * depth + 2)) (escQ cs) ++ '\n' :: (spaces (2 * depth) ++ quotes3)) := block_not_nul depth hz
    obtain ⟨rest, pre, hx, hlex⟩ := one_lexeme hz' ht hk hl he rfl (by decide) (by decide)
    have hleft := leftover_lex hlex
    have : ∃ raw, GoBlockText ('\n' :: (spaces (2 * depth + 2) ++ indentAfter (spaces (2 * depth + 2)) (escQ cs) ++ '\n' :: (spaces (2 * depth) ++ quotes3))) raw rest ∧
        cs = formatBlock (splitLF raw) := by
      generalize et : quotes3 ++ '\n' :: (spaces (2 * depth + 2) ++ indentAfter (spaces (2 * depth + 2)) (escQ cs) ++ '\n' :: (spaces (2 * depth) ++ quotes3)) = text at hx
      generalize ek : (⟨.string, cs⟩ : Tok) = tok at hx
      cases hx with
      | string h hq =>
        exfalso
        cases et
        cases h with
        | close => exact absurd (hq (by cases ek; rfl) _ _ rfl) (by decide)
        | char _ h => exact absurd rfl h
      | block h =>
        cases et
        cases ek
        exact h
      | punct => cases ek
      | spread => cases ek
      | name => cases ek
      | int => cases ek
      | fraction => cases ek
      | exponent => cases ek
      | fracExp => cases ek
    obtain ⟨raw, hr, ev⟩ := this
    rw [List.append_assoc] at hr
    obtain ⟨r1, rfl, hr1⟩ := nl_back hr
    obtain ⟨r2, rfl, hr2⟩ := spaces_back _ hr1
    have hcnt : cs.count '\r' ≤ r2.count '\r' := by
      have h1 := format_cr (splitLF ('\n' :: (spaces (2 * depth + 2) ++ r2)))
      rw [join_splitLF, ← ev, List.count_cons_of_ne (by decide), List.count_append, spaces, List.count_replicate] at h1
      simpa using h1
    obtain ⟨hb, rfl⟩ := goText_back (k := 2 * depth + 2) (m := 2 * depth) hleft cs.length cs (Nat.le_refl _) hr2 hcnt
    refine ⟨hb, formatBlock_back (k := 2 * depth + 2) (m := 2 * depth) (by omega) (by rintro rfl; cases hn) ?_⟩
    rw [List.append_assoc]
    exact ev.symm
  · rename_i hn
    rw [dumpString_quoted depth hn] at ht
    have hz' : '\x00' ∉ '"' :: (cs.flatMap escChar ++ ['"']) := quoted_not_nul hz
    obtain ⟨rest, pre, hx, hlex⟩ := one_lexeme hz' ht hk hl he rfl (by decide) (by decide)
    generalize et : '"' :: (cs.flatMap escChar ++ ['"']) = text at hx
    generalize ek : (⟨.string, cs⟩ : Tok) = tok at hx
    cases hx with
    | string h hq =>
      cases et
      exact strText_back h
    | block h =>
      exfalso
      cases cs with
      | nil => cases et
      | cons c cs =>
        rw [List.flatMap_cons] at et
        unfold escChar at et
        repeat' split at et
        all_goals first | (cases et; done) | (rename_i h _ _ _ _ _; exact h (List.cons.inj (List.cons.inj et).2).1)
    | punct => cases ek
    | spread => cases ek
    | name => cases ek
    | int => cases ek
    | fraction => cases ek
    | exponent => cases ek
    | fracExp => cases ek

/-- Both sides hold of this string … -/
example : ReadsBack 3 (utf8 c!"x: \"é\"") := by
  refine (C24_exact _ (by decide) 3).2 ?_
  unfold StrOk
  rw [if_neg (by decide)]
  exact (by decide : ∀ c ∈ c!"x: \"é\"", printable c = true ∨ c = '\x08' ∨ c = '\x0c')

/-- … and neither of this one. -/
example : ¬ ReadsBack 3 (utf8 c!"x\r") := by
  intro h
  have h := (C24_exact _ (by decide) 3).1 h
  unfold StrOk at h
  rw [if_neg (by decide)] at h
  exact absurd (h '\r' (by decide)) (by decide)

end GQL
