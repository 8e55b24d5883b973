/-
Parsed type definitions have a name, and no members that do not belong to their kind.
-/
import Verif.Props.C04
import Verif.Props.C15
import Verif.Spec.Build

namespace GQL
open Spec

theorem tokensF_named (input : Bytes) : ∀ (n : Nat) (l : Lexer) (ts : List Token), Reach input l → tokensF n l = .ret ts →
    ∀ t ∈ ts, t.kind = .name → t.lit ≠ []
  | 0, _, _, _, h => by simp [tokensF] at h
  | n + 1, l, ts, hr, h => by
    rw [tokensF] at h
    cases e : scan l with
    | panic => rw [e] at h; cases h
    | oof => rw [e] at h; cases h
    | ret p =>
      obtain ⟨t, l'⟩ := p
      rw [e] at h
      dsimp only at h
      have ht : t.kind = .name → t.lit ≠ [] := by
        intro hk hl
        obtain ⟨c, w, x, h1, -⟩ := C04_name_bytes input l hr t l' e hk
        rw [hl] at h1
        have h2 := congrArg List.length h1
        rw [List.length_append] at h2
        have h3 : 0 < (utf8 (c :: w)).length := by
          have h4 : 0 < (utf8Char c).length := by
            rw [utf8Char, List.length_map, String.length_utf8EncodeChar]; exact Char.utf8Size_pos c
          have h5 : utf8 (c :: w) = utf8Char c ++ utf8 w := rfl
          rw [h5, List.length_append]; omega
        simp at h2
        omega
      split at h
      · cases h
        intro u hu
        rw [List.mem_singleton] at hu
        subst hu; exact ht
      · cases e2 : tokensF n l' with
        | panic => rw [e2] at h; cases h
        | oof => rw [e2] at h; cases h
        | ret us =>
          rw [e2] at h
          cases h
          intro u hu
          rcases List.mem_cons.1 hu with rfl | hu
          · exact ht
          · exact tokensF_named input n l' us (.scan hr e) e2 u hu

theorem tokens_named {input : Bytes} {ts : List Token} (h : tokens input = .ret ts) : ∀ t ∈ ts, t.kind = .name → t.lit ≠ [] :=
  tokensF_named input _ _ ts .new h

section
variable {pf : Bytes → Option Nat} {lax : Bool}

theorem nm_named {n : Bytes} {ts rest : Toks} (h : Nm n ts rest) (hn : ∀ t ∈ ts, t.kind = .name → t.lit ≠ []) : n ≠ [] := by
  obtain ⟨t, rfl, hk, hl⟩ := h
  exact hl ▸ hn t (by simp) hk

theorem typeDefn_shape {desc : Bytes} {ts rest : Toks} {t : TypeDef} (h : TypeDefn pf lax desc ts t rest)
    (hn : ∀ t ∈ ts, t.kind = .name → t.lit ≠ []) : Shape t := by
  have key : ∀ {kw n : Bytes} {r1 r2 : Toks}, Nm kw ts r1 → Nm n r1 r2 → n ≠ [] := fun h1 h2 =>
    nm_named h2 fun t ht => hn t ((tok1_eats h1).eats.mem ht)
  cases h with
  | scalar h1 h2 _ => exact ⟨key h1 h2, by simp, by simp, by simp, by simp, by simp⟩
  | object h1 h2 _ _ _ => exact ⟨key h1 h2, by simp, by simp, by simp, by simp, by simp⟩
  | interface h1 h2 _ _ => exact ⟨key h1 h2, by simp, by simp, by simp, by simp, by simp⟩
  | union h1 h2 _ _ => exact ⟨key h1 h2, by simp, by simp, by simp, by simp, by simp⟩
  | enum h1 h2 _ _ => exact ⟨key h1 h2, by simp, by simp, by simp, by simp, by simp⟩
  | input h1 h2 _ _ => exact ⟨key h1 h2, by simp, by simp, by simp, by simp, by simp⟩

/-- Schema definitions have operation types. -/
def Spec.bodyShape : Body → Prop
  | .type t | .typeExt t => Shape t
  | .schema s => s.ops ≠ []
  | .directive d => d.name ≠ []
  | _ => True

theorem schemaDefn_ops {ts rest : Toks} {s : SchemaDef} (h : SchemaDefn pf lax ts s rest) : s.ops ≠ [] := by
  cases h with
  | mk _ _ h => cases h with | mk _ _ h _ => exact h

theorem defn_shape {ts rest : Toks} {b : Body} (h : Defn pf lax ts b rest) (hn : ∀ t ∈ ts, t.kind = .name → t.lit ≠ []) : bodyShape b := by
  cases h with
  | op => trivial
  | frag => trivial
  | schema h => exact schemaDefn_ops h
  | schemaDesc _ _ h => exact schemaDefn_ops h
  | type h1 h2 => exact typeDefn_shape h2 fun t ht => hn t ((optTok_eats h1).mem ht)
  | directive h1 h2 =>
    cases h2 with
    | mk a1 a2 a3 =>
      exact nm_named a3 fun t ht => hn t ((optTok_eats h1).mem ((tok1_eats a1).eats.mem ((tok1_eats a2).eats.mem ht)))
  | schemaExt => trivial
  | typeExt h1 h2 => exact typeDefn_shape h2 fun t ht => hn t ((tok1_eats h1).eats.mem ht)

theorem manyDefs_shape {ts rest : Toks} {ds : List Definition} (h : Many (LocDefn pf lax) ts ds rest)
    (hn : ∀ t ∈ ts, t.kind = .name → t.lit ≠ []) : ∀ d ∈ ds, bodyShape d.body := by
  induction h with
  | nil => intro d hd; cases hd
  | cons h1 _ ih =>
    intro d hd
    rcases List.mem_cons.1 hd with rfl | hd
    · cases h1 with | mk h1 => exact defn_shape h1 hn
    · exact ih (fun t ht => hn t ((locDefn_eats h1).eats.mem ht)) d hd

theorem parse_shape {input : Bytes} {d : Document} (h : parse pf input = .ok d) : ∀ x ∈ d.defs, bodyShape x.body := by
  obtain ⟨ts, ht, -⟩ := parse_tokens (pf := pf) (input := input)
  obtain ⟨e, rest, -, hm, -⟩ := (C15_exact_partial pf input ts ht d.defs).1 ⟨d, h, rfl⟩
  exact manyDefs_shape hm (tokens_named ht)

theorem parse_types {input : Bytes} {d : Document} (h : parse pf input = .ok d) : ∀ t ∈ typeDefs d.defs, Shape t := by
  intro t ht
  obtain ⟨x, hx, e⟩ := List.mem_filterMap.1 ht
  have := parse_shape h x hx
  cases hb : x.body <;> rw [hb] at e <;> first | cases e; done | skip
  rw [hb] at this
  cases e
  exact this

theorem parse_typeExts {input : Bytes} {d : Document} (h : parse pf input = .ok d) : ∀ t ∈ typeExts d.defs, Shape t := by
  intro t ht
  obtain ⟨x, hx, e⟩ := List.mem_filterMap.1 ht
  have := parse_shape h x hx
  cases hb : x.body <;> rw [hb] at e <;> first | cases e; done | skip
  rw [hb] at this
  cases e
  exact this

theorem parse_schemas {input : Bytes} {d : Document} (h : parse pf input = .ok d) : ∀ t ∈ schemaDefs d.defs, t.ops ≠ [] := by
  intro t ht
  obtain ⟨x, hx, e⟩ := List.mem_filterMap.1 ht
  have := parse_shape h x hx
  cases hb : x.body <;> rw [hb] at e <;> first | cases e; done | skip
  rw [hb] at this
  cases e
  exact this

end

end GQL
