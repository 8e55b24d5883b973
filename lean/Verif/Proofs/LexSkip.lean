/-
Ignored characters and comments, with line and column counting.
-/
import Verif.Proofs.LexFmt

namespace GQL
open Spec

/-- Column counter after reading LF-only text. -/
def colSkip (lp : Nat) (cs : List Char) : Nat := cs.foldl (fun n c => if c = '\n' then 0 else n + 1) lp

theorem colSkip_append (lp : Nat) (a b : List Char) : colSkip lp (a ++ b) = colSkip (colSkip lp a) b := by
  simp [colSkip]

theorem colSkip_cons (lp : Nat) (c : Char) (b : List Char) :
    colSkip lp (c :: b) = colSkip (if c = '\n' then 0 else lp + 1) b := rfl

theorem colSkip_noLF (lp : Nat) (cs : List Char) (h : ∀ c ∈ cs, c ≠ '\n') :
    colSkip lp cs = lp + cs.length := by
  induction cs generalizing lp with
  | nil => rfl
  | cons c cs ih =>
    rw [colSkip_cons, if_neg (h c (List.mem_cons_self ..)), ih _ (fun c hc => h c (List.mem_cons_of_mem _ hc))]
    simp; omega

/-- No carriage return. -/
def CRfree (cs : List Char) : Prop := ∀ c ∈ cs, c ≠ '\r'

theorem CRfree.left {a b : List Char} (h : CRfree (a ++ b)) : CRfree a :=
  fun c hc => h c (List.mem_append_left _ hc)
theorem CRfree.right {a b : List Char} (h : CRfree (a ++ b)) : CRfree b :=
  fun c hc => h c (List.mem_append_right _ hc)
theorem CRfree.tail {c : Char} {b : List Char} (h : CRfree (c :: b)) : CRfree b :=
  fun c hc => h c (List.mem_cons_of_mem _ hc)
theorem CRfree.head {c : Char} {b : List Char} (h : CRfree (c :: b)) : c ≠ '\r' := h c (List.mem_cons_self ..)

/-- Every LF comes right after a CR (`p`: whether the character before the text is a CR). -/
def crlf : Bool → List Char → Prop
  | _, [] => True
  | p, c :: t => (c = '\n' → p = true) ∧ crlf (c == '\r') t

theorem ignored_nat (c : Char) : ignored c = true ↔
    c.toNat = 13 ∨ c.toNat = 10 ∨ c.toNat = 9 ∨ c.toNat = 32 ∨ c.toNat = 44 ∨ c.toNat = 0xFEFF := by
  have e1 : c.toNat = 13 ↔ c = '\r' := toNat_eq c '\r'
  have e2 : c.toNat = 10 ↔ c = '\n' := toNat_eq c '\n'
  have e3 : c.toNat = 9 ↔ c = '\t' := toNat_eq c '\t'
  have e4 : c.toNat = 32 ↔ c = ' ' := toNat_eq c ' '
  have e5 : c.toNat = 44 ↔ c = ',' := toNat_eq c ','
  have e6 : c.toNat = 0xFEFF ↔ c = '\uFEFF' := toNat_eq c '\uFEFF'
  rw [e1, e2, e3, e4, e5, e6]
  simp only [ignored, lineTerm, Bool.or_eq_true, beq_iff_eq]
  constructor
  · rintro ((((h | h) | h) | (h | h)) | h) <;> simp [h]
  · rintro (h | h | h | h | h | h) <;> simp [h]

/-- What `readNextSignificant` does. -/
theorem rns_at {n : Nat} {wasCR : Bool} {l : Lexer} {cs : List Char} (h : At l cs) (hz : NoNul cs)
    (hn : cs.length < n) :
    ∃ ign cs' lS, cs = ign ++ cs' ∧ (∀ c ∈ ign, ignored c = true) ∧ notNext ignored cs' ∧
      At lS cs' ∧ lS.input = l.input ∧
      readNextSignificant n wasCR l = .ret (nxt cs', nxtW cs', lS.step cs') ∧
      (wasCR = false → CRfree ign → lS.line = l.line + ign.count '\n' ∧ lS.lpos = colSkip l.lpos ign) ∧
      (∀ p, (p = true → wasCR = true) → crlf p cs →
        lS.line = l.line + ign.count '\r' ∧ ∃ q, crlf q cs') := by
  induction n generalizing wasCR l cs with
  | zero => omega
  | succ n ih =>
    unfold readNextSignificant
    rw [rd_at h]; dsimp only
    obtain _ | ⟨c, cs⟩ := cs
    · refine ⟨[], [], l, rfl, by simp, (by intro c t h; cases h), h, rfl, ?_, ?_, ?_⟩
      · rw [if_neg (by simp [nxt]), if_neg (by simp [nxt]), if_neg (by simp [nxt])]
      · intro _ _; exact ⟨rfl, rfl⟩
      · intro p _ _; exact ⟨rfl, p, trivial⟩
    have hlen : cs.length < n := by simp at hn; omega
    have e : nxt (c :: cs) = c.toNat := rfl
    have est : l.step (c :: cs) = l.advs [c] := rfl
    rw [e, est]
    -- going on after one ignored character
    have cont : ∀ (w' : Bool) (l1 : Lexer), At l1 cs → l1.input = l.input → ignored c = true →
        (wasCR = false → c ≠ '\r' → w' = false ∧ l1.line = l.line + [c].count '\n' ∧
          l1.lpos = colSkip l.lpos [c]) →
        (∀ p, (p = true → wasCR = true) → (c = '\n' → p = true) →
          ((c == '\r') = true → w' = true) ∧ l1.line = l.line + [c].count '\r') →
        ∃ ign cs' lS, c :: cs = ign ++ cs' ∧ (∀ c ∈ ign, ignored c = true) ∧ notNext ignored cs' ∧
          At lS cs' ∧ lS.input = l.input ∧
          readNextSignificant n w' l1 = .ret (nxt cs', nxtW cs', lS.step cs') ∧
          (wasCR = false → CRfree ign →
            lS.line = l.line + ign.count '\n' ∧ lS.lpos = colSkip l.lpos ign) ∧
          (∀ p, (p = true → wasCR = true) → crlf p (c :: cs) →
            lS.line = l.line + ign.count '\r' ∧ ∃ q, crlf q cs') := by
      intro w' l1 a1 hin hi hA hB
      obtain ⟨ign, cs', lS, p1, p2, p3, p4, p5, p6, p7, p8⟩ := ih (wasCR := w') a1 hz.tail hlen
      refine ⟨c :: ign, cs', lS, by rw [p1]; rfl, ?_, p3, p4, p5.trans hin, p6, ?_, ?_⟩
      · intro d hd
        rcases List.mem_cons.1 hd with rfl | hd
        · exact hi
        · exact p2 d hd
      · intro hw hcr
        obtain ⟨a, b, d⟩ := hA hw hcr.head
        obtain ⟨q1, q2⟩ := p7 a hcr.tail
        rw [q1, q2, b, d]
        refine ⟨?_, ?_⟩
        · rw [show c :: ign = [c] ++ ign from rfl, List.count_append]; omega
        · rw [show c :: ign = [c] ++ ign from rfl, colSkip_append]
      · intro p hp hcr
        obtain ⟨a, b⟩ := hB p hp hcr.1
        obtain ⟨q1, q2⟩ := p8 _ a hcr.2
        refine ⟨?_, q2⟩
        rw [q1, b, show c :: ign = [c] ++ ign from rfl, List.count_append]; omega
    split
    · rename_i hc
      have := toNat_inj (c := c) (d := '\r') hc; subst this
      apply cont true _ (h.adv1.upd _ _) rfl (by decide)
      · intro _ hh; exact absurd rfl hh
      · intro p _ _; exact ⟨fun _ => rfl, rfl⟩
    split
    · rename_i hc
      have := toNat_inj (c := c) (d := '\n') hc; subst this
      split
      · rename_i hw
        apply cont _ _ h.adv1 rfl (by decide)
        · intro hh; rw [hw] at hh; cases hh
        · intro p _ _; exact ⟨by intro hh; simp at hh, rfl⟩
      · rename_i hw
        apply cont _ _ (h.adv1.upd _ _) rfl (by decide)
        · intro hh _; exact ⟨hh, rfl, rfl⟩
        · intro p hp hq; exact absurd (hp (hq rfl)) hw
    split
    · rename_i h13 h10 hc
      have n10 : c ≠ '\n' := fun hh => h10 (hh ▸ rfl)
      have n13 : c ≠ '\r' := fun hh => h13 (hh ▸ rfl)
      apply cont _ _ h.adv1 rfl ((ignored_nat c).2 (by omega))
      · intro hh _
        refine ⟨hh, ?_, ?_⟩
        · rw [List.count_singleton, if_neg (by simpa using n10)]; rfl
        · rw [colSkip_cons, if_neg n10]; rfl
      · intro p hp hq
        refine ⟨by intro hh; simp at hh; exact absurd hh n13, ?_⟩
        rw [List.count_singleton, if_neg (by simpa using n13)]; rfl
    · rename_i h13 h10 hc
      have hni : ignored c = false := by
        cases hh : ignored c with
        | false => rfl
        | true => have := (ignored_nat c).1 hh; omega
      refine ⟨[], c :: cs, l, rfl, by simp, ?_, h, rfl, rfl, ?_, ?_⟩
      · intro d t hd; cases hd; exact hni
      · intro _ _; exact ⟨rfl, rfl⟩
      · intro p _ hh; exact ⟨rfl, p, hh⟩

/-- The terminator of a comment. -/
inductive Term : List Char → List Char → Prop
  | eof : Term [] []
  | lf (text) : Term ['\n'] text
  | crlf (text) : Term ['\r', '\n'] text
  | cr (text) : (∀ c t, text = c :: t → c ≠ '\n') → Term ['\r'] text

/-- What `skipComment` does. -/
theorem comment_at {n : Nat} {l : Lexer} {cs : List Char} (h : At l cs) (hz : NoNul cs)
    (hn : cs.length < n) :
    ∃ body term text l', cs = body ++ (term ++ text) ∧ (∀ c ∈ body, lineTerm c = false) ∧
      Term term text ∧ At l' text ∧ l'.input = l.input ∧ skipComment n false l = .ret l' ∧
      (CRfree cs → l'.line = l.line + (body ++ term).count '\n' ∧ l'.lpos = colSkip l.lpos (body ++ term)) ∧
      (∀ p, crlf p cs → p = false → l'.line = l.line + (body ++ term).count '\r' ∧
        ((∃ q, crlf q text) ∧ ∀ c t, text = c :: t → c ≠ '\n')) := by
  induction n generalizing l cs with
  | zero => omega
  | succ n ih =>
    unfold skipComment
    rw [rd_at h]; dsimp only
    obtain _ | ⟨c, cs⟩ := cs
    · refine ⟨[], [], [], l, rfl, by simp, .eof, h, rfl, ?_, ?_, ?_⟩
      · rw [if_pos (show nxt [] = 0 from rfl)]; rfl
      · intro _; exact ⟨rfl, rfl⟩
      · intro p _ _; exact ⟨rfl, ⟨p, trivial⟩, by intro c t h; cases h⟩
    have hlen : cs.length < n := by simp at hn; omega
    have e : nxt (c :: cs) = c.toNat := rfl
    have est : l.step (c :: cs) = l.advs [c] := rfl
    rw [e, est, if_neg hz.head]
    simp only [Bool.false_and, Bool.false_eq_true, if_false]
    split
    · -- CR
      rename_i hc
      have := toNat_inj (c := c) (d := '\r') hc; subst this
      obtain _ | ⟨d, cs⟩ := cs
      · refine ⟨[], ['\r'], [], _, rfl, by simp, .cr _ (by intro c t h; cases h),
          h.adv1.upd 0 (l.line + 1), rfl, ?_, ?_, ?_⟩
        · obtain _ | n := n
          · simp at hlen
          unfold skipComment
          rw [rd_eof (h.adv1.upd _ _)]; rfl
        · intro hh; exact absurd rfl hh.head
        · intro p _ _; exact ⟨rfl, ⟨p, trivial⟩, by intro c t h; cases h⟩
      · obtain _ | n := n
        · simp at hlen
        unfold skipComment
        have hu := h.adv1.upd 0 (l.line + 1)
        rw [show ({ l.advs ['\r'] with line := (l.advs ['\r']).line + 1, lpos := 0 } : Lexer) =
          { l.advs ['\r'] with lpos := 0, line := l.line + 1 } from rfl]
        rw [rd_cons hu]; dsimp only
        rw [if_neg hz.tail.head]
        by_cases hd : d = '\n'
        · subst hd
          rw [if_pos (by decide)]
          refine ⟨[], ['\r', '\n'], cs, _, rfl, by simp, .crlf _, (hu.adv1.upd 0 (l.line + 1)), rfl, rfl, ?_, ?_⟩
          · intro hh; exact absurd rfl hh.head
          · intro p hp _
            refine ⟨rfl, ⟨_, hp.2.2⟩, ?_⟩
            rintro c t rfl rfl
            have := hp.2.2.1 rfl; cases this
        · rw [if_neg (by
            simp only [Bool.true_and, decide_eq_true_eq]
            exact fun hh => hd (toNat_inj (d := '\n') hh)), if_pos (by
            simp only [Bool.true_and, ne_eq, decide_not, Bool.not_eq_true', decide_eq_false_iff_not]
            exact fun hh => hd (toNat_inj (d := '\n') hh)), unread_adv]
          refine ⟨[], ['\r'], d :: cs, _, rfl, by simp, .cr _ (by intro c t h; cases h; exact hd), hu,
            rfl, rfl, ?_, ?_⟩
          · intro hh; exact absurd rfl hh.head
          · intro p hp _
            exact ⟨rfl, ⟨_, hp.2⟩, by intro c t h; cases h; exact hd⟩
    · rename_i h13
      have n13 : c ≠ '\r' := fun hh => h13 (hh ▸ rfl)
      split
      · rename_i hc
        have := toNat_inj (c := c) (d := '\n') hc; subst this
        refine ⟨[], ['\n'], cs, _, rfl, by simp, .lf _, h.adv1.upd 0 (l.line + 1), rfl, rfl, ?_, ?_⟩
        · intro _; exact ⟨rfl, rfl⟩
        · intro p hp hpf; have := hp.1 rfl; rw [hpf] at this; cases this
      · rename_i h10
        have n10 : c ≠ '\n' := fun hh => h10 (hh ▸ rfl)
        obtain ⟨body, term, text, l', p1, p2, p3, p4, p5, p6, p7, p8⟩ := ih h.adv1 hz.tail hlen
        refine ⟨c :: body, term, text, l', by rw [p1]; rfl, ?_, p3, p4, p5, p6, ?_, ?_⟩
        · intro d hd
          rcases List.mem_cons.1 hd with rfl | hd
          · simp [lineTerm, n10, n13]
          · exact p2 d hd
        · intro hh
          obtain ⟨q1, q2⟩ := p7 hh.tail
          rw [List.cons_append, List.count_cons_of_ne n10, colSkip_cons, if_neg n10]
          exact ⟨q1, q2⟩
        · intro p hp _
          obtain ⟨q1, q2⟩ := p8 _ hp.2 (by simpa using n13)
          rw [List.cons_append, List.count_cons_of_ne n13]
          exact ⟨q1, q2⟩

end GQL
