/-
C68 Token positions go forward.

The positions that the lexer reports are wrong in places (C08, C09); what can still be relied on, for every input whatever its bytes,
is that they count from one and go forward, and so that the definitions of a document can be ordered by their positions.
-/
import Verif.Proofs.Forward
import Verif.Props.C14

namespace GQL
open Spec

namespace Spec

/-- Position `(l, c)` is before position `(l', c')`. -/
def PosBefore (l : Nat) (c : Int) (l' : Nat) (c' : Int) : Prop := l < l' ∨ (l = l' ∧ c < c')

/-- A token whose column can be too small, with the tokens after it: an Illegal one, or an empty string that ends the input. -/
def Misplaced (t : Token) (after : List Token) : Prop :=
  t.kind = .illegal ∨ (t.kind = .stringValue ∧ t.lit = [] ∧ ∃ e, after = [e] ∧ e.kind = .eof)

end Spec

theorem Spec.PosBefore.trans {a b c : Nat} {x y z : Int} (h1 : PosBefore a x b y) (h2 : PosBefore b y c z) : PosBefore a x c z := by
  unfold PosBefore at *; omega

theorem rns_end {n : Nat} {cr : Bool} {l : Lexer} {x : Nat × Nat × Lexer} (h : l.input.length ≤ l.pos) (e : readNextSignificant n cr l = .ret x) :
    x = (0, 0, l) := by
  cases n with
  | zero => cases e
  | succ n =>
    unfold readNextSignificant at e
    rw [rd_end h] at e
    dsimp only at e
    rw [if_neg (by decide), if_neg (by decide), if_neg (by decide)] at e
    cases e; rfl

/-- At the end of the input there is only EOF. -/
theorem tokensF_end {n : Nat} {l : Lexer} {ts : List Token} (h : l.input.length ≤ l.pos) (e : tokensF n l = .ret ts) :
    ∃ t, ts = [t] ∧ t.kind = .eof := by
  cases n with
  | zero => cases e
  | succ n =>
    unfold tokensF at e
    split at e
    · cases e
    · cases e
    · rename_i t l' es
      have : t.kind = .eof := by
        have hf : l.fuel = (l.input.length - l.pos) + 1 := rfl
        unfold scan at es
        rw [hf] at es
        unfold scanF at es
        split at es
        · cases es
        · cases es
        · rename_i r w l0 er
          have := rns_end h er
          cases this
          rw [if_neg (by decide), if_neg (by decide), if_neg (by decide), if_neg (by decide), if_neg (by decide), if_pos rfl] at es
          cases es; rfl
      rw [if_pos (.inl this)] at e
      cases e; exact ⟨t, rfl, this⟩

/-- Adjacent tokens. -/
def Forward : List Token → Prop
  | [] => True
  | [_] => True
  | a :: b :: ts => a.line ≤ b.line ∧ (Misplaced b ts ∨ PosBefore a.line a.col b.line b.col) ∧ Forward (b :: ts)

theorem tokensF_forward (input : Bytes) : ∀ (n : Nat) (l : Lexer) (ts : List Token), Reach input l → 1 ≤ l.line → tokensF n l = .ret ts →
    Forward ts ∧ ∃ t us, ts = t :: us ∧ l.line ≤ t.line ∧ (Misplaced t us ∨ PosBefore l.line l.lpos t.line t.col) ∧
      ∀ pre x post, ts = pre ++ x :: post → 1 ≤ x.line ∧ (Misplaced x post ∨ 1 ≤ x.col)
  | 0, _, _, _, _, h => by cases h
  | n + 1, l, ts, hr, h1, h => by
    unfold tokensF at h
    split at h
    · cases h
    · cases h
    · rename_i t l' e
      have f := scanF_fwd _ _ _ _ (by rw [hr.inv.1]; exact hr.inv.2) e
      have hbefore : (t.line = l.line → (l.lpos : Int) < t.col) → PosBefore l.line l.lpos t.line t.col := by
        intro hc
        have := f.line
        by_cases hl : t.line = l.line
        · exact .inr ⟨hl.symm, hc hl⟩
        · exact .inl (by omega)
      split at h
      · rename_i hk
        cases h
        have hm : ∀ {P : Prop}, (t.kind = .illegal ∨ (t.kind = .stringValue ∧ t.lit = [] ∧ l'.input.length ≤ l'.pos) ∨ P) → Misplaced t [] ∨ P := by
          rintro P (h | h | h)
          · exact .inl (.inl h)
          · rw [h.1] at hk; simp at hk
          · exact .inr h
        refine ⟨trivial, t, [], rfl, f.line, (hm f.lt).imp_right fun h => hbefore h.1, ?_⟩
        intro pre x post hx
        have : pre = [] ∧ x = t ∧ post = [] := by
          cases pre with
          | nil => cases hx; exact ⟨rfl, rfl, rfl⟩
          | cons => simp at hx
        obtain ⟨-, rfl, rfl⟩ := this
        exact ⟨Nat.le_trans h1 f.line, (hm f.lt).imp_right (·.2)⟩
      · rename_i hk
        split at h
        · cases h
        · cases h
        · rename_i us e2
          cases h
          obtain ⟨hf, t2, us2, rfl, g1, g2, g3⟩ := tokensF_forward input n l' us (.scan hr e) (by have := f.line; have := f.next; omega) e2
          have hm : ∀ {P : Prop}, (t.kind = .illegal ∨ (t.kind = .stringValue ∧ t.lit = [] ∧ l'.input.length ≤ l'.pos) ∨ P) → Misplaced t (t2 :: us2) ∨ P := by
            rintro P (h | h | h)
            · exact .inl (.inl h)
            · obtain ⟨x, hx, hx2⟩ := tokensF_end h.2.2 e2
              exact .inl (.inr ⟨h.1, h.2.1, x, hx, hx2⟩)
            · exact .inr h
          refine ⟨⟨Nat.le_trans f.next g1, g2.imp_right fun hb => ?_, hf⟩, t, _, rfl, f.line, (hm f.lt).imp_right fun h => hbefore h.1, ?_⟩
          · have a := f.next
            have b := f.le (fun hh => hk (.inl hh))
            unfold PosBefore at hb ⊢
            by_cases hl : l'.line = t.line
            · have := b hl; omega
            · omega
          · intro pre x post hx
            cases pre with
            | nil => cases hx; exact ⟨Nat.le_trans h1 f.line, (hm f.lt).imp_right (·.2)⟩
            | cons y pre => exact g3 pre x post (List.cons.inj hx).2

theorem tokens_forward {input : Bytes} {ts : List Token} (h : tokens input = .ret ts) : Forward ts :=
  (tokensF_forward input _ _ ts .new (Nat.le_refl _) h).1

theorem Forward.split : ∀ {pre post : List Token} {a b : Token}, Forward (pre ++ a :: b :: post) →
    a.line ≤ b.line ∧ (Misplaced b post ∨ PosBefore a.line a.col b.line b.col)
  | [], _, _, _, h => ⟨h.1, h.2.1⟩
  | [_], _, _, _, h => Forward.split (pre := []) h.2.2
  | _ :: y :: pre, _, _, _, h => Forward.split (pre := y :: pre) h.2.2

theorem Forward.suffix : ∀ {pre post : List Token}, Forward (pre ++ post) → Forward post
  | [], _, h => h
  | [_], [], _ => trivial
  | [_], _ :: _, h => h.2.2
  | _ :: y :: pre, _, h => Forward.suffix (pre := y :: pre) h.2.2

/-- C68, lines: they never go back, and count from one. -/
theorem C68_lines (input : Bytes) (ts : List Token) (h : tokens input = .ret ts) :
    (∀ t ∈ ts, 1 ≤ t.line) ∧ ∀ pre a b post, ts = pre ++ a :: b :: post → a.line ≤ b.line := by
  obtain ⟨hf, t, us, -, -, -, g⟩ := tokensF_forward input _ _ ts .new (Nat.le_refl _) h
  refine ⟨fun x hx => ?_, fun pre a b post he => ?_⟩
  · obtain ⟨pre, post, rfl⟩ := List.append_of_mem hx
    exact (g pre x post rfl).1
  · subst he; exact hf.split.1

/-- C68, what is true of positions: each token is after the one before it, and its column is at least one, unless it is an Illegal token,
or an empty string at the end of the input.
Missing for the full property: these two. -/
theorem C68_partial (input : Bytes) (ts : List Token) (h : tokens input = .ret ts) :
    (∀ pre t post, ts = pre ++ t :: post → ¬ Misplaced t post → 1 ≤ t.col) ∧
    ∀ pre a b post, ts = pre ++ a :: b :: post → ¬ Misplaced b post → PosBefore a.line a.col b.line b.col := by
  obtain ⟨hf, t, us, -, -, -, g⟩ := tokensF_forward input _ _ ts .new (Nat.le_refl _) h
  refine ⟨fun pre t post he hn => ?_, fun pre a b post he hn => ?_⟩
  · exact (g pre t post he).2.resolve_left hn
  · subst he; exact hf.split.2.resolve_left hn

/-- C68 fails: an empty string at the end of the input is in the column of what comes before it ... -/
theorem C68_refuted_empty : tokens b!"a\"\"" = .ret [⟨.name, b!"a", 1, 1⟩, ⟨.stringValue, [], 1, 1⟩, ⟨.eof, [], 1, 3⟩] := by decide

/-- ... or in column zero; so is an unterminated string. -/
theorem C68_refuted_zero : tokens b!"\"\"" = .ret [⟨.stringValue, [], 1, 0⟩, ⟨.eof, [], 1, 2⟩] ∧
    tokens b!"\"" = .ret [⟨.illegal, msgBadStringChar 0, 1, 0⟩] := by decide

/-- A text on three lines, with a block string and bytes that are not UTF-8, to which the theorem applies. -/
example : tokens (b!"{a \"\"\"x\n" ++ [0xff, 0x80] ++ b!"\"\"\"\r\n b}") = .ret [⟨.punctuator, b!"{", 1, 1⟩, ⟨.name, b!"a", 1, 2⟩,
    ⟨.stringValue, b!"x\n" ++ [0xff, 0x80], 1, 4⟩, ⟨.name, b!"b", 3, 3⟩, ⟨.punctuator, b!"}", 3, 4⟩, ⟨.eof, [], 3, 5⟩] := by decide

section
variable (pf : Bytes → Option Nat)

theorem Eats1.two {a b c : Toks} (h1 : Eats1 a b) (h2 : Eats1 b c) : c.length + 2 ≤ a.length := by
  have := h1.2; have := h2.2; omega

theorem selSet_two {lax : Bool} {ts s rest} (h : SelSet pf lax ts s rest) : rest.length + 2 ≤ ts.length := by
  cases h with | mk h1 h2 h3 => exact (tok1_eats h1).two ((sels_eats h2).1.trans1 (tok1_eats h3))

/-- A definition has at least two tokens. -/
theorem defn_two {lax : Bool} {ts b rest} (h : Defn pf lax ts b rest) : rest.length + 2 ≤ ts.length := by
  have ht : ∀ {desc ts t rest}, TypeDefn pf lax desc ts t rest → rest.length + 2 ≤ ts.length := by
    intro desc ts t rest h
    cases h with
    | scalar h1 h2 h3 => exact (tok1_eats h1).two ((tok1_eats h2).trans (dirs_eats h3))
    | object h1 h2 h3 h4 h5 => exact (tok1_eats h1).two ((tok1_eats h2).trans ((implements_eats h3).trans ((dirs_eats h4).trans (block_eats (fun _ _ _ h => fieldDefn_eats h) h5))))
    | interface h1 h2 h3 h4 => exact (tok1_eats h1).two ((tok1_eats h2).trans ((dirs_eats h3).trans (block_eats (fun _ _ _ h => fieldDefn_eats h) h4)))
    | union h1 h2 h3 h4 => exact (tok1_eats h1).two ((tok1_eats h2).trans ((dirs_eats h3).trans (unionMembers_eats h4)))
    | enum h1 h2 h3 h4 => exact (tok1_eats h1).two ((tok1_eats h2).trans ((dirs_eats h3).trans (block_eats (fun _ _ _ h => enumValDefn_eats h) h4)))
    | input h1 h2 h3 h4 => exact (tok1_eats h1).two ((tok1_eats h2).trans ((dirs_eats h3).trans (block_eats (fun _ _ _ h => inputValue_eats h) h4)))
  have hs : ∀ {ts t rest}, SchemaDefn pf lax ts t rest → rest.length + 2 ≤ ts.length := by
    intro ts t rest h
    cases h with | mk h1 h2 h3 => exact (tok1_eats h1).two ((dirs_eats h2).trans1 (opTypeDefns_eats h3))
  cases h with
  | op h =>
    cases h with
    | shorthand h => exact selSet_two pf h
    | full h1 h2 h3 h4 h5 =>
      have := selSet_two pf h5
      have := ((optTok_eats h2).trans ((varDefns_eats h3).trans (dirs_eats h4))).length
      have := (opType_eats h1).eats.length
      omega
  | frag h => cases h with | mk h1 h2 _ h3 h4 h5 => exact (tok1_eats h1).two ((tok1_eats h2).trans ((typeCond_eats h3).1.trans ((dirs_eats h4).trans (selSet_eats h5).1)))
  | schema h => exact hs h
  | schemaDesc _ h1 h2 => exact (tok1_eats h1).two (schemaDefn_eats h2)
  | type h1 h2 =>
    have := ht h2
    have := (optTok_eats h1).length
    omega
  | directive h1 h2 =>
    have := (optTok_eats h1).length
    cases h2 with
    | mk a1 a2 a3 a4 a5 a6 a7 =>
      have := (tok1_eats a1).two ((tok1_eats a2).trans ((tok1_eats a3).1.trans ((argsDef_eats a4).trans ((tok1_eats a5).1.trans ((optPu_eats a6).trans (sepBy_eats (fun _ _ _ h => tok1_eats h) a7).1)))))
      omega
  | schemaExt h1 h2 => exact (tok1_eats h1).two (schemaExtn_eats h2)
  | typeExt h1 h2 _ => exact (tok1_eats h1).two (typeDefn_eats h2)

theorem chain_before : ∀ (pre : Toks) (a b x : Token) (post : Toks), Forward (a :: pre ++ b :: x :: post) →
    post ≠ [] → (∀ t ∈ pre ++ [b], t.kind ≠ .illegal) → PosBefore a.line a.col b.line b.col
  | [], a, b, x, post, h, hp, hi => by
    rcases h.2.1 with (h | ⟨-, -, e, h, -⟩) | h
    · exact absurd h (hi b (by simp))
    · cases h; exact absurd rfl hp
    · exact h
  | y :: pre, a, b, x, post, h, hp, hi => by
    have h1 : PosBefore a.line a.col y.line y.col := by
      rcases h.2.1 with (h | ⟨-, -, e, h, -⟩) | h
      · exact absurd h (hi y (by simp))
      · cases pre <;> simp at h
      · exact h
    exact h1.trans (chain_before pre y b x post h.2.2 hp fun t ht => hi t (by simp at ht ⊢; rcases ht with h | h <;> simp [h]))

/-- C68, definitions: in every accepted document, each definition is located after all the definitions that come before it in the list. -/
theorem C68_definitions (input : Bytes) (d : Document) (h : parse pf input = .ok d) :
    d.defs.Pairwise fun a b => PosBefore a.loc.line a.loc.col b.loc.line b.loc.col := by
  obtain ⟨ts, ht, -⟩ := parse_tokens (pf := pf) (input := input)
  obtain ⟨e, rest, -, hm, -⟩ := (C15_exact_partial pf input ts ht d.defs).1 ⟨d, h, rfl⟩
  have hf := tokens_forward ht
  clear h ht
  generalize d.defs = ds at hm ⊢
  generalize hr : e :: rest = r at hm
  induction hm with
  | nil => exact .nil
  | @cons ts x mid xs rest' h1 h2 ih =>
    subst hr
    obtain ⟨pre, hpre, hall⟩ := (locDefn_eats h1).1
    refine List.Pairwise.cons ?_ (ih (by rw [hpre] at hf; exact hf.suffix) rfl)
    intro y hy
    have key : ∀ {ts ds rest}, Many (LocDefn pf true) ts ds rest → y ∈ ds → ∃ u v w, Eats ts (u :: v) ∧ LocDefn pf true (u :: v) y w ∧ Eats w rest := by
      intro ts ds rest hm hy
      induction hm with
      | nil => cases hy
      | @cons ts a r as rest g1 g2 ih =>
        rcases List.mem_cons.1 hy with rfl | hy
        · cases g1 with | @mk t ts b _ g => exact ⟨t, ts, r, .refl _, .mk g, many_eats (fun _ _ _ h => (locDefn_eats h).1) g2⟩
        · obtain ⟨u, v, w, k1, k2, k3⟩ := ih hy
          exact ⟨u, v, w, (locDefn_eats g1).1.trans k1, k2, k3⟩
    obtain ⟨u, v, w, k1, k2, k3⟩ := key h2 hy
    obtain ⟨pre2, hpre2, hall2⟩ := k1
    cases k2 with
    | @mk u v b w k2 =>
    cases h1 with
    | @mk t ts b0 mid h1 =>
    have l1 := defn_two pf k2
    have l2 := k3.length
    have l3 := defn_two pf h1
    simp only [List.length_cons] at l1 l2 l3
    cases pre with
    | nil => have := congrArg List.length hpre; simp at this; omega
    | cons t' pre =>
    cases v with
    | nil => simp at l1
    | cons v1 v =>
    have huk : u.kind ≠ .illegal := by
      obtain ⟨p, hp, hq⟩ := (defn_eats k2).1
      cases p with
      | nil => have := congrArg List.length hp; simp at this; simp only [List.length_cons] at l1; omega
      | cons u' p => exact (hq u (by rw [(List.cons.inj hp).1]; simp)).2
    simp only [List.cons_append, List.cons.injEq] at hpre
    obtain ⟨rfl, rfl⟩ := hpre
    subst hpre2
    refine chain_before (pre ++ pre2) t u v1 v (by simpa using hf) ?_ ?_
    · intro hv; subst hv; simp only [List.length_cons, List.length_nil] at l1; omega
    · intro z hz
      simp at hz
      rcases hz with h | h | h
      · exact (hall z (by simp [h])).2
      · exact (hall2 z h).2
      · exact h ▸ huk

/-- A document with two definitions, to which the theorem applies. -/
example : ∃ d, parse pf b!"{a} \"x\"\nscalar S" = .ok d ∧ d.defs.map (fun x => (x.loc.line, x.loc.col)) = [(1, 1), (1, 5)] :=
  ⟨_, (parse_eq (ts := [⟨.punctuator, b!"{", 1, 1⟩, ⟨.name, b!"a", 1, 2⟩, ⟨.punctuator, b!"}", 1, 3⟩, ⟨.stringValue, b!"x", 1, 5⟩, ⟨.name, b!"scalar", 2, 1⟩, ⟨.name, b!"S", 2, 8⟩, ⟨.eof, [], 2, 9⟩]) (by decide) rfl), rfl⟩

end

end GQL
