/-
C86 Reading an input takes time proportional to its length.
-/
import Verif.Proofs.Reads
import Verif.Proofs.ParseTop
import Verif.Proofs.StepsParse
import Verif.Proofs.DepthParse
import Verif.Props.C12

namespace GQL

/-- The counting lexer returns the tokens of the lexer, and its calls of `Scan` up to the first EOF or Illegal token read at most 56 times
for each byte of the input. -/
theorem tokensFC_run (k : Nat) (c : CLexer) (h : c.l.pos ≤ c.l.input.length) (hn : c.l.input.length - c.l.pos + 1 < k) :
    ∃ ts n, tokensFC k c = .ret (ts, n) ∧ tokensF k c.l = .ret ts ∧ n ≤ c.n + 56 * (c.l.input.length - c.l.pos) + 28 := by
  induction k generalizing c with
  | zero => omega
  | succ k ih =>
    unfold tokensFC tokensF scanC scan
    obtain ⟨t, c', f1, f2, a, hp, hb, hr⟩ := scanFC_run c.l.fuel c h (by unfold Lexer.fuel; omega)
    rw [f1, f2]
    dsimp only
    split
    · exact ⟨_, _, rfl, rfl, by omega⟩
    · rename_i hk
      have h1 := hp (fun he => hk (.inl he))
      have h2 := (hr (fun he => hk (.inr he))).cost
      have hbd := a.bound
      obtain ⟨ts, n, g1, g2, g3⟩ := ih c' a.inv (by rw [a.input]; omega)
      rw [g1, g2]
      rw [a.input] at g3
      exact ⟨_, _, rfl, rfl, by omega⟩

/-- Proved part of C86: for every input, calling `Scan` until it returns EOF or an Illegal token gives the tokens of Model/Lexer, and takes at most
56 reads for each byte of the input and 28 more. -/
theorem C86_partial (input : Bytes) :
    ∃ ts reads, tokensC input = .ret (ts, reads) ∧ tokens input = .ret ts ∧ reads ≤ 56 * input.length + 28 := by
  obtain ⟨ts, n, f1, f2, f3⟩ := tokensFC_run (input.length + 2) (newCLexer input) (Nat.zero_le _) (by show input.length - 0 + 1 < _; omega)
  exact ⟨ts, n, f1, f2, by have : n ≤ 0 + 56 * (input.length - 0) + 28 := f3; omega⟩

/-- Not only a bound: a name, a comment and a string with an escape. -/
example : tokensC b!"a #b\n\"\\n\"" = .ret ([⟨.name, b!"a", 1, 1⟩, ⟨.stringValue, [10], 2, 1⟩, ⟨.eof, [], 2, 5⟩], 16) := by decide

/-- `m` calls of `Scan`, also after Illegal tokens, return, and each takes at most 28 reads for each byte of the input. -/
theorem C86_calls (input : Bytes) (m : Nat) :
    ∃ ts c, scansC m (newCLexer input) = .ret (ts, c) ∧ ts.length = m ∧ c.n ≤ m * (28 * input.length + 28) := by
  suffices hs : ∀ (c : CLexer), c.l.pos ≤ c.l.input.length → c.l.input = input →
      ∃ ts c', scansC m c = .ret (ts, c') ∧ ts.length = m ∧ c'.n ≤ c.n + m * (28 * input.length + 28) by
    obtain ⟨ts, c, f1, f2, f3⟩ := hs (newCLexer input) (Nat.zero_le _) rfl
    exact ⟨ts, c, f1, f2, by have : (newCLexer input).n = 0 := rfl; omega⟩
  induction m with
  | zero => exact fun c _ _ => ⟨[], c, rfl, rfl, by omega⟩
  | succ m ih =>
    intro c h hi
    obtain ⟨t, c1, f1, -, a, -, hb, -⟩ := scanFC_run c.l.fuel c h (by unfold Lexer.fuel; omega)
    obtain ⟨ts, c2, g1, g2, g3⟩ := ih c1 a.inv (a.input.trans hi)
    refine ⟨t :: ts, c2, ?_, by simp [g2], ?_⟩
    · unfold scansC scanC
      rw [f1]
      dsimp only
      rw [g1]
    · rw [hi] at hb
      rw [Nat.add_mul]
      omega

/-- The parser over the list of tokens, whatever fuel above the number of tokens it has. -/
theorem parseDefs_fuel (pf : Bytes → Option Nat) (ts : List Token) (n : Nat) (hn : ts.length < n) : parseDefs pf n ts = parseDefs pf (ts.length + 1) ts := by
  refine ((k_defs (pf := pf) (k := ts.length) hn (Nat.lt_succ_self _)) ts fun r s e => ?_).1
  have : r.countP (fun t => decide (Spec.Opens t)) ≤ r.length := List.countP_le_length
  have h2 := congrArg List.length e
  rw [List.length_append] at h2
  omega

/-- Proved part of C86, for `Parse`: for every input the parser that calls `Scan` for each token returns what `parse` returns, its lexer reads at most 56 times
for each byte of the input and 28 times more, and it looks at its token or asks for the next at most 24 times for each token and 14 times more. -/
theorem C86_parse (pf : Bytes → Option Nat) (input : Bytes) :
    ∃ ts, tokens input = .ret ts ∧ (parseS pf input).out = parse pf input ∧ (parseS pf input).reads ≤ 56 * input.length + 28 ∧
      (parseS pf input).steps ≤ 24 * ts.length + 14 := by
  obtain ⟨us, u, ht, -, -, hlen⟩ := C01_tokens_end input
  obtain ⟨ts, hts, hp⟩ := parse_tokens (pf := pf) (input := input)
  rw [ht] at hts
  cases (Out.ret.inj hts)
  refine ⟨_, ht, ?_⟩
  generalize us ++ [u] = ts at ht hlen hp
  obtain ⟨t, c, f1, f2⟩ := feed_scan (inp := input) (N := 56 * input.length) (c := newCLexer input) rfl (Nat.zero_le _) ht hlen (by show 0 + 56 * (input.length - 0) ≤ _; omega)
  have h := parseDefsS_sim pf (input.length + 2) _ _ (f2 1)
  have hno := C13_terminates pf input
  unfold parseS
  rw [f1]
  dsimp only
  rw [hp] at hno ⊢
  unfold parseTokens at hno ⊢
  rw [parseDefs_fuel pf ts (input.length + 2) (by omega)] at h
  generalize parseDefsS pf (input.length + 2) _ = x at h
  generalize parseDefs pf (ts.length + 1) ts = y at h hno
  cases h with
  | ok h1 h2 h3 h4 => exact ⟨rfl, h1.reads, by dsimp only at *; omega⟩
  | err h1 h2 h3 h4 => exact ⟨rfl, h1.reads, by dsimp only at *; omega⟩
  | panic h1 h2 h3 h4 => exact ⟨rfl, h1.reads, by dsimp only at *; omega⟩
  | oof => exact absurd rfl hno

/-- So the steps are bounded by the length of the input. -/
theorem C86_parse_length (pf : Bytes → Option Nat) (input : Bytes) :
    (parseS pf input).out = parse pf input ∧ (parseS pf input).reads + (parseS pf input).steps ≤ 80 * input.length + 66 := by
  obtain ⟨us, u, ht, -, -, hlen⟩ := C01_tokens_end input
  obtain ⟨ts, h1, h2, h3, h4⟩ := C86_parse pf input
  rw [ht] at h1
  cases (Out.ret.inj h1)
  exact ⟨h2, by omega⟩

/-- The steps and reads of a document with two fields, and of one that is not closed. -/
example : (parseS (fun _ => none) b!"{a b}").steps = 28 ∧ (parseS (fun _ => none) b!"{a b}").reads = 8 := by decide +kernel
example : (parseS (fun _ => none) b!"{a").steps = 17 ∧ (parseS (fun _ => none) b!"{a").reads = 4 := by decide +kernel

/-- The inside of a string with `m` bad escapes, each followed by an escaped quote, and the closing quote. -/
def Spec.badEscapes : Nat → Bytes
  | 0 => b!"\""
  | m+1 => b!"\\q\\\"" ++ Spec.badEscapes m

open Spec

theorem badEscapes_length (m : Nat) : (badEscapes m).length = 4 * m + 1 := by
  induction m with
  | zero => rfl
  | succ m ih => simp [badEscapes, ih]; omega

/-- Reading an ASCII character. -/
theorem crd_ascii {c : CLexer} {b : Nat} {t : Bytes} (h : c.l.input.drop c.l.pos = b :: t) (hb : b < 128) :
    ∃ c', c.rd = (b, 1, c') ∧ c'.l.input.drop c'.l.pos = t ∧ c'.n = c.n + 1 ∧ c'.l.input = c.l.input ∧ c'.l.pos = c.l.pos + 1 := by
  have hg : c.l.input[c.l.pos]? = some b := by
    have := congrArg (fun x : List Nat => x[0]?) h
    simp at this
    exact this
  have hd : c.l.input.drop (c.l.pos + 1) = t := by
    rw [← List.drop_drop, h]
    rfl
  refine ⟨⟨{ c.l with pos := c.l.pos + 1, lpos := c.l.lpos + 1 }, c.n + 1⟩, ?_, hd, rfl, rfl, rfl⟩
  unfold CLexer.rd CLexer.read Lexer.read
  rw [hg]
  dsimp only
  rw [if_neg (by omega)]

theorem pass1_esc {k r2 w w2 : Nat} {esc : Bool} {c c1 c2 : CLexer} (e1 : c.rd = (92, w, c1)) (e2 : c1.rd = (r2, w2, c2)) (hu : r2 ≠ 117) :
    stringPass1C (k+1) esc c = stringPass1C k true c2 := by
  simp [stringPass1C, e1, e2, hu]

theorem pass1_quote {k w : Nat} {esc : Bool} {c c1 : CLexer} (e1 : c.rd = (34, w, c1)) : stringPass1C (k+1) esc c = .ret (.ok esc, c1) := by
  simp [stringPass1C, e1]

theorem pass2_badesc {k w w2 col line : Nat} {acc : Bytes} {c c1 c2 : CLexer} (e1 : c.rd = (92, w, c1)) (e2 : c1.rd = (113, w2, c2)) :
    stringPass2C col line (k+1) acc c = .ret (⟨.illegal, msgBadEscape 113, line, col⟩, c2) := by
  have hx : escapedCharC c1 = (.error (msgBadEscape 113), c2) := by
    simp [escapedCharC, e2, simpleEscape]
  rw [stringPass2C, e1]
  dsimp only
  rw [if_neg (by omega), if_pos rfl, hx]

theorem pass1_bad (m : Nat) : ∀ (k : Nat) (c : CLexer), c.l.input.drop c.l.pos = badEscapes m → 2 * m + 1 ≤ k →
    ∃ c', stringPass1C k true c = .ret (.ok true, c') ∧ c'.n = c.n + 4 * m + 1 := by
  induction m with
  | zero =>
    intro k c h hk
    obtain ⟨k, rfl⟩ : ∃ j, k = j + 1 := ⟨k - 1, by omega⟩
    obtain ⟨c1, e1, d1, n1, -, -⟩ := crd_ascii (b := 34) (t := []) h (by omega)
    exact ⟨c1, pass1_quote e1, n1⟩
  | succ m ih =>
    intro k c h hk
    obtain ⟨k, rfl⟩ : ∃ j, k = j + 2 := ⟨k - 2, by omega⟩
    obtain ⟨c1, e1, d1, n1, -, -⟩ := crd_ascii (b := 92) (t := 113 :: 92 :: 34 :: badEscapes m) h (by omega)
    obtain ⟨c2, e2, d2, n2, -, -⟩ := crd_ascii d1 (by omega)
    obtain ⟨c3, e3, d3, n3, -, -⟩ := crd_ascii d2 (by omega)
    obtain ⟨c4, e4, d4, n4, -, -⟩ := crd_ascii d3 (by omega)
    obtain ⟨c', f1, f2⟩ := ih k c4 d4 (by omega)
    exact ⟨c', (pass1_esc e1 e2 (by omega)).trans ((pass1_esc e3 e4 (by omega)).trans f1), by omega⟩

/-- `scanString` there: all of it is read, the first escape is bad. -/
theorem scanString_bad (m : Nat) (c : CLexer) (h : c.l.input.drop c.l.pos = badEscapes (m+1)) :
    ∃ t c', scanStringC c = .ret (t, c') ∧ t.kind = .illegal ∧ c'.l.input.drop c'.l.pos = 92 :: 34 :: badEscapes m ∧ c.n + 4 * (m + 1) ≤ c'.n := by
  obtain ⟨j, hj, hj2⟩ : ∃ j, c.l.fuel = j + 1 ∧ 2 * m + 2 ≤ j := by
    have hlen := congrArg List.length h
    rw [List.length_drop, badEscapes_length] at hlen
    exact ⟨4 * (m+1) + 1, by unfold Lexer.fuel; omega, by omega⟩
  obtain ⟨c1, e1, d1, n1, -, -⟩ := crd_ascii (b := 92) (t := 113 :: 92 :: 34 :: badEscapes m) h (by omega)
  obtain ⟨c2, e2, d2, n2, -, -⟩ := crd_ascii d1 (by omega)
  obtain ⟨c3, e3, d3, n3, -, -⟩ := crd_ascii d2 (by omega)
  obtain ⟨c4, e4, d4, n4, -, -⟩ := crd_ascii d3 (by omega)
  obtain ⟨k, rfl⟩ : ∃ k, j = k + 1 := ⟨j - 1, by omega⟩
  obtain ⟨c5, f1, f2⟩ := pass1_bad m k c4 d4 (by omega)
  have s1 : stringPass1C (k+1+1) false c = .ret (.ok true, c5) := (pass1_esc e1 e2 (by omega)).trans ((pass1_esc e3 e4 (by omega)).trans f1)
  obtain ⟨r1, e9, d9, n9, -, -⟩ := crd_ascii (c := ⟨c.l, c5.n⟩) (b := 92) (t := 113 :: 92 :: 34 :: badEscapes m) h (by omega)
  obtain ⟨r2, e10, d10, n10, -, -⟩ := crd_ascii d9 (by omega)
  refine ⟨⟨.illegal, msgBadEscape 113, c.l.line, c.l.lpos⟩, r2, ?_, rfl, d10, ?_⟩
  · unfold scanStringC
    rw [hj, s1]
    dsimp only
    rw [if_pos rfl]
    exact pass2_badesc e9 e10
  · have : (⟨c.l, c5.n⟩ : CLexer).n = c5.n := rfl
    omega

theorem rns_sig {r w : Nat} {c c1 : CLexer} (e : c.rd = (r, w, c1)) (h : r = 34 ∨ r = 92) (j : Nat) :
    readNextSignificantC (j+1) false c = .ret ((r, w), c1) := by
  rw [readNextSignificantC, e]
  rcases h with rfl | rfl <;> rfl

/-- `Scan` at such a string stops after the first escape, having read all of it. -/
theorem scan_bad (m : Nat) (c : CLexer) (h : c.l.input.drop c.l.pos = 34 :: badEscapes (m+1)) :
    ∃ t c', scanC c = .ret (t, c') ∧ t.kind = .illegal ∧ c'.l.input.drop c'.l.pos = 92 :: 34 :: badEscapes m ∧ c.n + 4 * (m + 1) ≤ c'.n := by
  obtain ⟨c1, e1, d1, n1, i1, p1⟩ := crd_ascii h (by omega)
  obtain ⟨c2, e2, d2, n2, i2, p2⟩ := crd_ascii (b := 92) (t := 113 :: 92 :: 34 :: badEscapes m) d1 (by omega)
  obtain ⟨c3, e3, d3, n3, i3, p3⟩ := crd_ascii d2 (by omega)
  have d4 : ((c3.unread 1).unread 1).l.input.drop ((c3.unread 1).unread 1).l.pos = badEscapes (m+1) := by
    show c3.l.input.drop (c3.l.pos - 1 - 1) = _
    rw [i3, i2, p3, p2, ← d1]
    congr 1
  obtain ⟨t, c', f1, f2, f3, f4⟩ := scanString_bad m _ d4
  have n4 : ((c3.unread 1).unread 1).n = c3.n := rfl
  refine ⟨t, c', ?_, f2, f3, by omega⟩
  obtain ⟨j, hj⟩ : ∃ j, c.l.fuel = j + 1 := ⟨_, rfl⟩
  unfold scanC
  rw [hj]
  unfold scanFC
  rw [hj, rns_sig e1 (.inl rfl)]
  dsimp only
  rw [if_neg (by decide), if_neg (by decide), if_neg (by decide), if_neg (by decide), if_pos rfl, e2]
  dsimp only
  rw [e3]
  dsimp only
  rw [if_neg (by decide)]
  exact f1

theorem scan_backslash (c : CLexer) (t : Bytes) (h : c.l.input.drop c.l.pos = 92 :: t) :
    ∃ tok c', scanC c = .ret (tok, c') ∧ tok.kind = .illegal ∧ c'.l.input.drop c'.l.pos = t ∧ c.n ≤ c'.n := by
  obtain ⟨c1, e1, d1, n1, i1, p1⟩ := crd_ascii h (by omega)
  refine ⟨⟨.illegal, encodeRune 92, c1.l.line, c1.l.lpos⟩, c1, ?_, rfl, d1, by omega⟩
  obtain ⟨j, hj⟩ : ∃ j, c.l.fuel = j + 1 := ⟨_, rfl⟩
  unfold scanC
  rw [hj]
  unfold scanFC
  rw [hj, rns_sig e1 (.inr rfl)]
  rfl

/-- C86 is false of a caller who goes on after an Illegal token: for every `m` there is an input of `4 m + 2` bytes for which `2 m` calls of `Scan`
read at least `2 m²` times. -/
theorem C86_refuted (m : Nat) :
    (34 :: badEscapes m).length = 4 * m + 2 ∧
    ∃ ts c, scansC (2 * m) (newCLexer (34 :: badEscapes m)) = .ret (ts, c) ∧ (∀ t ∈ ts, t.kind = .illegal) ∧ 2 * (m * m) ≤ c.n := by
  refine ⟨by simp [badEscapes_length], ?_⟩
  suffices hs : ∀ (c : CLexer), c.l.input.drop c.l.pos = 34 :: badEscapes m →
      ∃ ts c', scansC (2 * m) c = .ret (ts, c') ∧ (∀ t ∈ ts, t.kind = .illegal) ∧ c.n + 2 * (m * m) ≤ c'.n by
    obtain ⟨ts, c, f1, f2, f3⟩ := hs (newCLexer (34 :: badEscapes m)) rfl
    exact ⟨ts, c, f1, f2, by have : (newCLexer (34 :: badEscapes m)).n = 0 := rfl; omega⟩
  induction m with
  | zero => exact fun c _ => ⟨[], c, rfl, (fun t ht => by cases ht), by omega⟩
  | succ m ih =>
    intro c h
    obtain ⟨t1, c1, f1, k1, d1, n1⟩ := scan_bad m c h
    obtain ⟨t2, c2, f2, k2, d2, n2⟩ := scan_backslash c1 _ d1
    obtain ⟨ts, c3, f3, k3, n3⟩ := ih c2 d2
    refine ⟨t1 :: t2 :: ts, c3, ?_, ?_, ?_⟩
    · show scansC (2 * m + 1 + 1) c = _
      rw [scansC, f1]
      dsimp only
      rw [scansC, f2]
      dsimp only
      rw [f3]
    · intro t ht
      rcases List.mem_cons.1 ht with rfl | ht
      · exact k1
      · rcases List.mem_cons.1 ht with rfl | ht
        · exact k2
        · exact k3 t ht
    · have : (m + 1) * (m + 1) = m * m + 2 * m + 1 := by
        rw [Nat.mul_add, Nat.add_mul]; omega
      omega

/-- No number of reads for each byte is enough for such a caller. -/
theorem C86_refuted_linear (a : Nat) :
    ∃ input m ts c, m ≤ input.length ∧ scansC m (newCLexer input) = .ret (ts, c) ∧ a * (input.length + 1) < c.n := by
  obtain ⟨h1, ts, c, h2, -, h3⟩ := C86_refuted (4 * a + 1)
  refine ⟨34 :: badEscapes (4 * a + 1), 2 * (4 * a + 1), ts, c, by rw [h1]; omega, h2, ?_⟩
  rw [h1]
  have e1 : a * (4 * (4 * a + 1) + 2 + 1) = 16 * (a * a) + 7 * a := by
    have : 4 * (4 * a + 1) + 2 + 1 = 16 * a + 7 := by omega
    rw [this, Nat.mul_add]
    have : a * (16 * a) = 16 * (a * a) := by rw [Nat.mul_left_comm]
    omega
  have e2 : (4 * a + 1) * (4 * a + 1) = 16 * (a * a) + 8 * a + 1 := by
    have : 4 * a * (4 * a) = 16 * (a * a) := by rw [Nat.mul_mul_mul_comm]
    rw [Nat.mul_add, Nat.add_mul]
    omega
  omega

end GQL
