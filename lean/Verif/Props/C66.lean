/-
C66 The text of a type reference (`Type.String`, used in error messages) is the type reference: it reads back as the same type.
-/
import Verif.Props.C23
import Verif.Model.Errors
import Verif.Spec.Schema

namespace GQL
open Spec

namespace Spec

/-- The type is one that can be written: its name is a GraphQL name, and list types have an item type. -/
def TypeRefOk : Ty → Prop
  | .named n _ => ValidName n
  | .list t _ => TypeRefOk t
  | .listNil _ => False

end Spec

theorem validName_text {n : Bytes} (h : ValidName n) : NameText n := by
  obtain ⟨b, rest, rfl, h1, h2⟩ := h
  have small : ∀ {x}, nameByte x → x < 128 := by
    intro x hx
    unfold nameByte nameStartByte at hx
    omega
  have val : ∀ {x}, x < 128 → (Char.ofNat x).toNat = x := by
    intro x hx
    have : ∀ y, y < 128 → (Char.ofNat y).toNat = y := by decide
    exact this x hx
  have start : ∀ {x}, nameStartByte x → nameStart (Char.ofNat x) = true := by
    have : ∀ y, y < 128 → ((97 ≤ y ∧ y ≤ 122) ∨ (65 ≤ y ∧ y ≤ 90) ∨ y = 95) → nameStart (Char.ofNat y) = true := by decide
    exact fun {x} h => this x (small (.inl h)) h
  have cont : ∀ {x}, nameByte x → nameCont (Char.ofNat x) = true := by
    have : ∀ y, y < 128 → (((97 ≤ y ∧ y ≤ 122) ∨ (65 ≤ y ∧ y ≤ 90) ∨ y = 95) ∨ (48 ≤ y ∧ y ≤ 57)) → nameCont (Char.ofNat y) = true := by decide
    exact fun {x} h => this x (small h) h
  refine ⟨Char.ofNat b, rest.map Char.ofNat, ?_, start h1, ?_⟩
  · rw [← List.map_cons, utf8_ascii, List.map_map]
    · conv => lhs; rw [← List.map_id (b :: rest)]
      refine List.map_congr_left fun x hx => ?_
      have : nameByte x := by
        rcases List.mem_cons.1 hx with rfl | hx
        · exact .inl h1
        · exact h2 x hx
      exact (val (small this)).symm
    · intro c hc
      obtain ⟨x, hx, rfl⟩ := List.mem_map.1 hc
      have : nameByte x := by
        rcases List.mem_cons.1 hx with rfl | hx
        · exact .inl h1
        · exact h2 x hx
      rw [val (small this)]; exact small this
  · intro d hd
    obtain ⟨x, hx, rfl⟩ := List.mem_map.1 hd
    exact cont (h2 x hx)

theorem write_bang (b : Bool) (s : Bytes) : (write s +++ (if b then write b!"!" else skipOut)) = .ret (nonNullable b s) := by
  cases b <;> simp [write, skipOut, seqOut, Out.bind, nonNullable]

theorem typeText {t : Ty} (h : TypeRefOk t) :
    ∃ x, J false true (.ret t.str) x ∧ ∀ rest', NotNext1 .punctuator b!"!" rest' → TypeRef true (x ++ rest') t rest' := by
  induction t with
  | named n b =>
    obtain ⟨x, j, -, g⟩ := bang_dump b
    refine ⟨[nt n] ++ x, ((J.name (validName_text h)).seq j).eqs (write_bang b n).symm rfl, fun rest' hr => .named tok1_tk (g _ hr)⟩
  | list t b ih =>
    obtain ⟨x, j, -, g⟩ := bang_dump b
    obtain ⟨y, j2, g2⟩ := ih h
    refine ⟨[pt b!"["] ++ (y ++ [pt b!"]"]) ++ x, (((J.punct '[').hard.seq (j2.seq (J.punct ']'))).seq j).eqs ?_ rfl, fun rest' hr => ?_⟩
    · have : (write b!"[" +++ (.ret t.str +++ write b!"]")) = write (b!"[" ++ t.str ++ b!"]") := by simp [write, seqOut, Out.bind]
      rw [this, write_bang]; rfl
    · refine .list (r1 := y ++ (pt b!"]" :: (x ++ rest'))) (r3 := x ++ rest') ⟨pt b!"[", ?_, rfl, rfl⟩ (g2 _ (notNext_tk (.inr (by decide)))) tok1_tk (g _ hr)
      simp
  | listNil b => exact h.elim

section
variable {pf : Bytes → Option Nat}

/-- **C66**: in the place of a type, the text of a type is read as that type. -/
theorem C66_reads (t : Ty) (h : TypeRefOk t) : ∃ d, parse pf (b!"query($a:" ++ t.str ++ b!"){b}") = .ok d ∧
    d.defs.map (·.body) = [.op ⟨.query, [], [⟨b!"a", t, none⟩], [], [.field [] b!"b" [] [] []]⟩] := by
  obtain ⟨x, j, g⟩ := typeText h
  have jj : J false false (.ret (b!"query($a:" ++ t.str ++ b!"){b}")) ([nt b!"query"] ++ ([pt b!"("] ++ ([pt b!"$"] ++ ([nt b!"a"] ++ ([pt b!":"] ++ (x ++ ([pt b!")"] ++
      ([pt b!"{"] ++ ([nt b!"b"] ++ [pt b!"}"]))))))))) := by
    refine J.eqs ((J.name (nameText_of (n := b!"query") 'q' c!"uery")).seq ((J.punct '(').seq ((J.punct '$').seq ((J.name (nameText_of (n := b!"a") 'a' [])).seq
      ((J.punct ':').seq (j.seq ((J.punct ')').seq ((J.punct '{').seq ((J.name (nameText_of (n := b!"b") 'b' [])).seq (J.punct '}'))))))))))  ?_ rfl
    simp [seqOut, Out.bind]
  obtain ⟨t', ts', e, ht, hs⟩ := jj.tokens
  cases e
  have hD : Doc pf true (nt b!"query" :: pt b!"(" :: pt b!"$" :: nt b!"a" :: pt b!":" :: (x ++ pt b!")" :: pt b!"{" :: nt b!"b" :: pt b!"}" :: [tk .eof []]))
      [⟨⟨0, 0⟩, .op ⟨.query, [], [⟨b!"a", t, none⟩], [], [.field [] b!"b" [] [] []]⟩⟩] := by
    have hv : VarDefn pf true (pt b!"$" :: nt b!"a" :: pt b!":" :: (x ++ pt b!")" :: pt b!"{" :: nt b!"b" :: pt b!"}" :: [tk .eof []])) ⟨b!"a", t, none⟩
        (pt b!")" :: pt b!"{" :: nt b!"b" :: pt b!"}" :: [tk .eof []]) :=
      .mk tok1_tk tok1_tk tok1_tk (g _ (notNext_tk (.inr (by decide)))) (.none (notNext_tk (.inr (by decide))))
    have hsel : SelSet pf true (pt b!"{" :: nt b!"b" :: pt b!"}" :: [tk .eof []]) [.field [] b!"b" [] [] []] [tk .eof []] :=
      .mk tok1_tk (.one (.leaf (.plain tok1_tk (notNext_tk (.inr (by decide)))) (.none (notNext_tk (.inr (by decide))))
        ⟨.nil _, notNext_tk (.inr (by decide))⟩ (notNext_tk (.inr (by decide))))) tok1_tk
    have hop : OpDefn pf true (nt b!"query" :: pt b!"(" :: pt b!"$" :: nt b!"a" :: pt b!":" :: (x ++ pt b!")" :: pt b!"{" :: nt b!"b" :: pt b!"}" :: [tk .eof []]))
        ⟨.query, [], [⟨b!"a", t, none⟩], [], [.field [] b!"b" [] [] []]⟩ [tk .eof []] :=
      .full (.query tok1_tk) (.inr ⟨rfl, (by rintro l r ⟨t, e, h1, -⟩; cases e; cases h1), rfl⟩)
        (.some tok1_tk (.cons hv (.nil _)) (by simp) tok1_tk) ⟨.nil _, notNext_tk (.inr (by decide))⟩ hsel
    exact ⟨_, _, by simp, .cons (.mk (.op hop)) (.nil _), rfl⟩
  have e : ([nt b!"query"] ++ ([pt b!"("] ++ ([pt b!"$"] ++ ([nt b!"a"] ++ ([pt b!":"] ++ (x ++ ([pt b!")"] ++ ([pt b!"{"] ++ ([nt b!"b"] ++ [pt b!"}"]))))))))) ++
      [⟨.eof, [], 0, 0⟩] = (nt b!"query" :: pt b!"(" :: pt b!"$" :: nt b!"a" :: pt b!":" :: (x ++ pt b!")" :: pt b!"{" :: nt b!"b" :: pt b!"}" :: [tk .eof []])) := by
    simp [tk]
  rw [e] at hs
  obtain ⟨ds2, hd2, eb2⟩ := doc_sim hD hs
  obtain ⟨d', h', rfl⟩ := (C15_exact_partial pf _ ts' ht ds2).2 hd2
  exact ⟨d', h', by rw [eb2]; rfl⟩

/-- **C66, consequence**: types with the same text are the same. -/
theorem C66_injective (t u : Ty) (ht : TypeRefOk t) (hu : TypeRefOk u) (h : t.str = u.str) : t = u := by
  obtain ⟨d, h1, e1⟩ := C66_reads (pf := fun _ => none) t ht
  obtain ⟨d', h2, e2⟩ := C66_reads (pf := fun _ => none) u hu
  rw [h, h2] at h1
  cases h1
  rw [e1] at e2
  simpa using e2

/-- **C66 fails for the broken types that the parser lets pass** (see C15): the text of the type `[` is empty, and `query($a:){b}` is an error. -/
theorem C66_refuted : ∃ d, parse pf b!"query($a:[){b}" = .ok d ∧ d.defs.map (·.body) = [.op ⟨.query, [], [⟨b!"a", .listNil false, none⟩], [], [.field [] b!"b" [] [] []]⟩] ∧
    (Ty.listNil false).str = [] ∧ ∃ e, parse pf (b!"query($a:" ++ (Ty.listNil false).str ++ b!"){b}") = .err e :=
  ⟨_, (parse_eq (ts := [⟨.name, b!"query", 1, 1⟩, ⟨.punctuator, b!"(", 1, 6⟩, ⟨.punctuator, b!"$", 1, 7⟩, ⟨.name, b!"a", 1, 8⟩, ⟨.punctuator, b!":", 1, 9⟩, ⟨.punctuator, b!"[", 1, 10⟩, ⟨.punctuator, b!")", 1, 11⟩, ⟨.punctuator, b!"{", 1, 12⟩, ⟨.name, b!"b", 1, 13⟩, ⟨.punctuator, b!"}", 1, 14⟩, ⟨.eof, [], 1, 15⟩]) (by decide) rfl), rfl, rfl, _, (parse_eq (ts := [⟨.name, b!"query", 1, 1⟩, ⟨.punctuator, b!"(", 1, 6⟩, ⟨.punctuator, b!"$", 1, 7⟩, ⟨.name, b!"a", 1, 8⟩, ⟨.punctuator, b!":", 1, 9⟩, ⟨.punctuator, b!")", 1, 10⟩, ⟨.punctuator, b!"{", 1, 11⟩, ⟨.name, b!"b", 1, 12⟩, ⟨.punctuator, b!"}", 1, 13⟩, ⟨.eof, [], 1, 14⟩]) (by decide) rfl)⟩

example : TypeRefOk (.list (.list (.named b!"Int" true) false) true) ∧ (Ty.list (.list (.named b!"Int" true) false) true).str = b!"[[Int!]]!" :=
  ⟨⟨73, b!"nt", rfl, by simp [nameStartByte], by simp [nameByte, nameStartByte]⟩, rfl⟩

end

end GQL
