/-
C98: printing to a writer.
-/
import Verif.Proofs.Fdump
import Verif.Model.Parser
import Verif.Props.C79

namespace GQL

open Spec Fd

/-- C98: the strings that `Fdump` gives to a writer depend on the document alone, not on the writer, nor on what it answers: an error or a
short write changes nothing and is not reported.  `Fdump` panics for the same documents as `Sdump`; if it does not panic, the strings put together are the
text that `Sdump` returns. -/
theorem C98_calls (fmtG : Nat → Bytes) (doc : Document) :
    ∃ calls panics, (∀ (σ : Type) (w : Writer σ) (s : σ), Fd.fdump fmtG w doc s = (panics, w.after s calls)) ∧
      (panics = true ↔ GQL.sdump fmtG doc = .panic) ∧ (panics = false → GQL.sdump fmtG doc = .ret calls.flatten) := by
  obtain ⟨cs, b, h1, h2⟩ := ch_fdump fmtG doc
  refine ⟨cs, b, h1, ?_, ?_⟩
  · rw [h2]; cases b <;> simp
  · rintro rfl; exact h2

theorem Fd.after_buffer : ∀ (cs : List Bytes) (s : Bytes), buffer.after s cs = s ++ cs.flatten := by
  intro cs
  induction cs with
  | nil => intro s; simp [Writer.after]
  | cons c cs ih =>
    intro s
    show buffer.after (s ++ c) cs = _
    rw [ih]; simp

/-- C98: `Sdump`, which is `Fdump` to a buffer, returns what Model/Dumper says, of which the other properties speak. -/
theorem C98_buffer (fmtG : Nat → Bytes) (doc : Document) (text : Bytes) :
    (Fd.sdump fmtG doc = (false, text) ↔ GQL.sdump fmtG doc = .ret text) ∧ ((Fd.sdump fmtG doc).1 = true ↔ GQL.sdump fmtG doc = .panic) := by
  obtain ⟨cs, b, h1, h2, h3⟩ := C98_calls fmtG doc
  unfold Fd.sdump
  rw [h1, Fd.after_buffer]
  cases b with
  | true => rw [h2.1 rfl]; simp
  | false => rw [h3 rfl]; simp

/-- What a writer that stays broken has got of a sequence of strings. -/
theorem Fd.after_prefix {σ : Type} {w : Writer σ} {got : σ → Bytes} {broken : σ → Prop} (hl : Lawful w got) (hb : StaysBroken w broken) :
    ∀ (cs : List Bytes) (s : σ),
      (broken s → broken (w.after s cs) ∧ got (w.after s cs) = got s) ∧
      (∃ k, got (w.after s cs) = got s ++ cs.flatten.take k) ∧
      (¬ broken (w.after s cs) → got (w.after s cs) = got s ++ cs.flatten) := by
  intro cs
  induction cs with
  | nil =>
    intro s
    exact ⟨fun h => ⟨h, rfl⟩, ⟨0, by simp [Writer.after]⟩, fun _ => by simp [Writer.after]⟩
  | cons c cs ih =>
    intro s
    obtain ⟨h1, ⟨k, h2⟩, h3⟩ := ih (w.write s c).1
    have hstay : broken s → broken (w.after s (c :: cs)) ∧ got (w.after s (c :: cs)) = got s := by
      intro h
      obtain ⟨g1, g2⟩ := h1 (hb.stays s c h)
      refine ⟨g1, ?_⟩
      show got (w.after _ cs) = _
      rw [g2, hl.takes, hb.nothing s c h]; simp
    refine ⟨hstay, ?_, ?_⟩
    · by_cases hf : (w.write s c).2.1 = c.length
      · refine ⟨c.length + k, ?_⟩
        show got (w.after _ cs) = _
        rw [h2, hl.takes, hf, List.take_length, List.flatten_cons, List.take_append, Nat.add_sub_cancel_left,
          List.take_of_length_le (Nat.le_add_right _ _), List.append_assoc]
      · have hlt : (w.write s c).2.1 < c.length := Nat.lt_of_le_of_ne (hl.bound s c) hf
        have g := h1 (hb.breaks s c (hl.short s c hlt))
        refine ⟨(w.write s c).2.1, ?_⟩
        show got (w.after _ cs) = _
        rw [g.2, hl.takes, List.flatten_cons, List.take_append, Nat.sub_eq_zero_of_le (Nat.le_of_lt hlt), List.take_zero, List.append_nil]
    · intro hn
      have hnb : ¬ broken (w.write s c).1 := fun h => hn (h1 h).1
      have hfull : (w.write s c).2.1 = c.length := by
        rcases Nat.lt_or_ge (w.write s c).2.1 c.length with h | h
        · exact absurd (hb.breaks s c (hl.short s c h)) hnb
        · exact Nat.le_antisymm (hl.bound s c) h
      show got (w.after _ cs) = _
      rw [h3 hn, hl.takes, hfull, List.take_length, List.flatten_cons, List.append_assoc]

/-- C98, for writers that take nothing after an error: what such a writer has got is the beginning of the text, all of it if there was no
error. -/
theorem C98_prefix_partial (fmtG : Nat → Bytes) (doc : Document) (text : Bytes) (ht : GQL.sdump fmtG doc = .ret text) {σ : Type} {w : Writer σ}
    {got : σ → Bytes} {broken : σ → Prop} (hl : Lawful w got) (hb : StaysBroken w broken) (s : σ) :
    ∃ s', Fd.fdump fmtG w doc s = (false, s') ∧ (∃ k, got s' = got s ++ text.take k) ∧ (¬ broken s' → got s' = got s ++ text) := by
  obtain ⟨cs, b, h1, h2, h3⟩ := C98_calls fmtG doc
  cases b with
  | true => rw [h2.1 rfl] at ht; cases ht
  | false =>
    have e : cs.flatten = text := Out.ret.inj ((h3 rfl).symm.trans ht)
    subst e
    obtain ⟨-, g2, g3⟩ := Fd.after_prefix hl hb cs s
    exact ⟨_, h1 σ w s, g2, g3⟩

/-- C98: on a disk with room for `n` bytes are the first `n` bytes of the text, whatever `n` is; nothing says that some are missing. -/
theorem C98_disk (fmtG : Nat → Bytes) (doc : Document) (text : Bytes) (ht : GQL.sdump fmtG doc = .ret text) (n : Nat) :
    Fd.fdump fmtG (disk n) doc [] = (false, text.take n) := by
  obtain ⟨cs, b, h1, h2, h3⟩ := C98_calls fmtG doc
  cases b with
  | true => rw [h2.1 rfl] at ht; cases ht
  | false =>
    have e : cs.flatten = text := Out.ret.inj ((h3 rfl).symm.trans ht)
    subst e
    have key : ∀ (cs : List Bytes) (s : Bytes), (disk n).after s cs = s ++ cs.flatten.take (n - s.length) := by
      intro cs
      induction cs with
      | nil => intro s; simp [Writer.after]
      | cons c cs ih =>
        intro s
        show (disk n).after (s ++ c.take (n - s.length)) cs = _
        rw [ih, List.flatten_cons, List.take_append, List.append_assoc, List.length_append, List.length_take]
        congr 3
        omega
    rw [h1, key]; simp

/-- C98 is false as stated: with a writer that fails once and then works again the result is neither the text nor a beginning of it, and `Fdump`
returns as if all was well. -/
theorem C98_refuted (fmtG : Nat → Bytes) (pf : Bytes → Option Nat) : ∃ doc text got,
    parse pf b!"{a{b}}" = .ok doc ∧ GQL.sdump fmtG doc = .ret text ∧ Fd.fdump fmtG (hiccup 3) doc (0, []) = (false, got) ∧
      ¬ got.2 <+: text ∧ got.2 = b!"{\n  a{\n    b\n  }\n}" :=
  ⟨_, _, _, (parse_eq (ts := [⟨.punctuator, b!"{", 1, 1⟩, ⟨.name, b!"a", 1, 2⟩, ⟨.punctuator, b!"{", 1, 3⟩, ⟨.name, b!"b", 1, 4⟩, ⟨.punctuator, b!"}", 1, 5⟩, ⟨.punctuator, b!"}", 1, 6⟩, ⟨.eof, [], 1, 7⟩]) (by decide) rfl), rfl, rfl, by decide, rfl⟩

/-- The hypotheses of `C98_prefix_partial` are met by a disk that is full at some time. -/
example (n : Nat) : Lawful (disk n) id ∧ StaysBroken (disk n) (fun s => n ≤ s.length) := by
  refine ⟨⟨fun s x => ?_, fun s x => ?_, fun s x h => ?_⟩, ⟨fun s x h => ?_, fun s x h => ?_, fun s x h => ?_⟩⟩
  · simp [disk]
  · simp [disk, List.length_take]; omega
  · simp [disk, List.length_take] at h ⊢; omega
  · simp [disk, List.length_take] at h ⊢; omega
  · simp [disk, List.length_take] at h ⊢; left; omega
  · simp [disk, List.length_take] at h ⊢; omega

end GQL
