/-
Every derivation gives directives that carry the place where they stand.
-/
import Verif.Spec.Strict

namespace GQL
open Spec

theorem many_all {α : Type} {R : Toks → α → Toks → Prop} {ok : α → Prop} {ts rest : Toks} {as : List α}
    (hm : Many R ts as rest) (h : ∀ ts a r, R ts a r → ok a) : ∀ a ∈ as, ok a := by
  induction hm with
  | nil => simp
  | cons h1 _ ih =>
    intro a ha
    rcases List.mem_cons.1 ha with rfl | ha
    · exact h _ _ _ h1
    · exact ih a ha

theorem sepBy_all {α : Type} {R : Toks → α → Toks → Prop} {ok : α → Prop} {l : Bytes} {ts rest : Toks} {as : List α}
    (hm : SepBy R l ts as rest) (h : ∀ ts a r, R ts a r → ok a) : ∀ a ∈ as, ok a := by
  induction hm with
  | one h1 _ => intro a ha; rw [List.mem_singleton] at ha; subst ha; exact h _ _ _ h1
  | cons h1 _ _ ih =>
    intro a ha
    rcases List.mem_cons.1 ha with rfl | ha
    · exact h _ _ _ h1
    · exact ih a ha

theorem block_all {α : Type} {R : Toks → α → Toks → Prop} {ok : α → Prop} {ts rest : Toks} {as : List α}
    (hm : Block R ts as rest) (h : ∀ ts a r, R ts a r → ok a) : ∀ a ∈ as, ok a := by
  cases hm with
  | none _ => simp
  | some _ h2 _ _ => exact many_all h2 h

section
variable {pf : Bytes → Option Nat} {lax : Bool}

theorem dirs_at {c loc ts ds rest} (h : Dirs pf lax c loc ts ds rest) : dirsAt loc ds :=
  many_all h.1 (fun _ _ _ h => by cases h; rfl)

mutual
theorem sel_at {ts s rest} : Sel pf lax ts s rest → selAt s
  | .leaf _ _ h _ => by unfold selAt; exact ⟨dirs_at h, by unfold selsAt; trivial⟩
  | .node _ _ h h4 => by unfold selAt; exact ⟨dirs_at h, selSet_at h4⟩
  | .spread _ _ _ h => by unfold selAt; exact dirs_at h
  | .inline _ _ h h4 => by unfold selAt; exact ⟨dirs_at h, selSet_at h4⟩
theorem sels_at {ts s rest} : Sels pf lax ts s rest → selsAt s
  | .one h => by unfold selsAt; exact ⟨sel_at h, by unfold selsAt; trivial⟩
  | .cons h1 h2 => by unfold selsAt; exact ⟨sel_at h1, sels_at h2⟩
theorem selSet_at {ts s rest} : SelSet pf lax ts s rest → selsAt s
  | .mk _ h2 _ => sels_at h2
end

theorem inputValue_at {loc ts i rest} (h : InputValue pf lax loc ts i rest) : inputAt loc i := by
  cases h with | mk _ _ _ _ _ h => exact dirs_at h

theorem argsDef_at {ts ds rest} (h : ArgsDef pf lax ts ds rest) : ∀ a ∈ ds, inputAt .argumentDefinition a := by
  cases h with
  | none _ => simp
  | some _ h _ _ => exact many_all h (fun _ _ _ => inputValue_at)

theorem fieldDefn_at {ts f rest} (h : FieldDefn pf lax ts f rest) : fieldAt f := by
  cases h with | mk _ _ h1 _ _ h2 => exact ⟨dirs_at h2, argsDef_at h1⟩

theorem enumVal_at {ts f rest} (h : EnumValDefn pf lax ts f rest) : dirsAt .enumValue f.dirs := by
  cases h with | mk _ _ _ _ _ h2 => exact dirs_at h2

theorem typeDefn_at {desc ts t rest} (h : TypeDefn pf lax desc ts t rest) : typeAt t := by
  cases h with
  | scalar _ _ h => exact ⟨dirs_at h, by simp, by simp, by simp⟩
  | object _ _ _ h h2 => exact ⟨dirs_at h, block_all h2 (fun _ _ _ => fieldDefn_at), by simp, by simp⟩
  | interface _ _ h h2 => exact ⟨dirs_at h, block_all h2 (fun _ _ _ => fieldDefn_at), by simp, by simp⟩
  | union _ _ h _ => exact ⟨dirs_at h, by simp, by simp, by simp⟩
  | enum _ _ h h2 => exact ⟨dirs_at h, by simp, block_all h2 (fun _ _ _ => enumVal_at), by simp⟩
  | input _ _ h h2 => exact ⟨dirs_at h, by simp, by simp, block_all h2 (fun _ _ _ => inputValue_at)⟩

theorem defn_at {ts b rest} (h : Defn pf lax ts b rest) : bodyAt b := by
  cases h with
  | op h => cases h with
    | shorthand h => exact ⟨(by intro d hd; cases hd), selSet_at h⟩
    | full _ _ _ h1 h2 => exact ⟨dirs_at h1, selSet_at h2⟩
  | frag h => cases h with | mk _ _ _ _ h1 h2 => exact ⟨dirs_at h1, selSet_at h2⟩
  | schema h => cases h with | mk _ h _ => exact dirs_at h
  | schemaDesc _ _ h => cases h with | mk _ h _ => exact dirs_at h
  | type _ h => exact typeDefn_at h
  | directive _ h => cases h with | mk _ _ _ h _ _ _ => exact argsDef_at h
  | schemaExt _ h => cases h with
    | ops _ h _ => exact dirs_at h
    | dirs _ h _ _ => exact dirs_at h
  | typeExt _ h _ => exact typeDefn_at h

theorem doc_at {ts ds} (h : Doc pf lax ts ds) : ∀ d ∈ ds, bodyAt d.body := by
  obtain ⟨_, _, _, hm, _⟩ := h
  exact many_all hm (fun _ _ _ h => by cases h with | mk h => exact defn_at h)

end
end GQL
