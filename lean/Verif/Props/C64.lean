/-
C64 Looking up enumeration values and fields by name.
-/
import Verif.Model.AstLookup
import Verif.Model.SchemaValidate

namespace GQL

/-- The call returns. -/
def EnumReturns (t : TypeDef) (name : Bytes) (r : EnumVal × Bool) : Prop := ∃ fuel, t.enumByName fuel name = .ret r

namespace Spec

/-- The first value of that name is `v`. -/
def FirstValue (vs : List EnumVal) (name : Bytes) (v : EnumVal) : Prop :=
  ∃ before after, vs = before ++ v :: after ∧ v.value = name ∧ ∀ u ∈ before, u.value ≠ name

/-- The first field of that name is `f`. -/
def FirstField (fs : List FieldDef) (name : Bytes) (f : FieldDef) : Prop :=
  ∃ before after, fs = before ++ f :: after ∧ f.name = name ∧ ∀ g ∈ before, g.name ≠ name

end Spec

open Spec

theorem enumLoop_found {name : Bytes} {len : Int} {v : EnumVal} (hv : v.value = name) {after : List EnumVal} : ∀ (before : List EnumVal) (fuel : Nat) (iter : Int),
    (∀ u ∈ before, u.value ≠ name) → iter + before.length < len → before.length < fuel → enumLoop name len fuel (before ++ v :: after) iter = .ret (v, true)
  | [], 0, _, _, _, h => absurd h (by simp)
  | [], fuel + 1, iter, _, hl, _ => by
    unfold enumLoop
    simp at hl
    simp [hl, hv]
  | u :: before, 0, _, _, _, h => absurd h (by simp)
  | u :: before, fuel + 1, iter, hb, hl, hf => by
    have hu : (u.value == name) = false := by simpa using hb u (.head _)
    unfold enumLoop
    simp only [List.cons_append, hu, List.tail_cons, List.isEmpty_cons]
    have : iter < len := by simp at hl; omega
    simp only [this, if_true]
    exact enumLoop_found hv before fuel (iter + 1) (fun x hx => hb x (.tail _ hx)) (by simp at hl; omega) (by simpa using hf)

theorem enumLoop_lost {name : Bytes} (hn : name ≠ []) {len : Int} (h0 : 0 ≤ len) : ∀ (fuel : Nat) (rest : List EnumVal) (iter : Int),
    (∀ u ∈ rest, u.value ≠ name) → (rest ≠ [] → iter + rest.length = len) → enumLoop name len fuel rest iter = .oof
  | 0, _, _, _, _ => rfl
  | fuel + 1, [], iter, hr, hi => by
    unfold enumLoop
    have h1 : (-1 : Int) < len := by omega
    have h2 : (([] : Bytes) == name) = false := by simpa using hn
    simp only [EnumVal.zero, h1, h2, if_true]
    exact enumLoop_lost hn h0 fuel [] _ hr (by simp)
  | fuel + 1, u :: rest, iter, hr, hi => by
    unfold enumLoop
    have hl := hi (by simp)
    simp at hl
    have h1 : iter < len := by omega
    have h2 : (u.value == name) = false := by simpa using hr u (.head _)
    simp only [h1, h2, if_true]
    exact enumLoop_lost hn h0 fuel rest _ (fun x hx => hr x (.tail _ hx)) (fun _ => by simp; omega)

theorem enumLoop_zero {len : Int} (h0 : 0 ≤ len) : ∀ (rest : List EnumVal) (iter : Int),
    (∀ u ∈ rest, u.value ≠ []) → (rest ≠ [] → iter + rest.length = len) → enumLoop [] len (rest.length + 1) rest iter = .ret (.zero, true)
  | [], iter, _, _ => by
    unfold enumLoop
    have h1 : (-1 : Int) < len := by omega
    simp [EnumVal.zero, h1]
  | u :: rest, iter, hr, hi => by
    unfold enumLoop
    have hl := hi (by simp)
    simp at hl
    have h1 : iter < len := by omega
    have h2 : (u.value == []) = false := by simpa using hr u (.head _)
    simp only [h1, h2, if_true]
    exact enumLoop_zero h0 rest _ (fun x hx => hr x (.tail _ hx)) (fun _ => by simp; omega)

theorem firstValue_or (vs : List EnumVal) (name : Bytes) : (∃ v, FirstValue vs name v) ∨ ∀ u ∈ vs, u.value ≠ name := by
  induction vs with
  | nil => exact .inr (by simp)
  | cons u vs ih =>
    by_cases h : u.value = name
    · exact .inl ⟨u, [], vs, rfl, h, by simp⟩
    · rcases ih with ⟨v, b, a, rfl, h1, h2⟩ | ih
      · exact .inl ⟨v, u :: b, a, rfl, h1, by simpa [h] using h2⟩
      · exact .inr (by simpa [h] using ih)

theorem enumLoop_mono {name : Bytes} {len : Int} {r : EnumVal × Bool} : ∀ (fuel k : Nat) (rest : List EnumVal) (iter : Int), fuel ≤ k →
    enumLoop name len fuel rest iter = .ret r → enumLoop name len k rest iter = .ret r
  | 0, _, _, _, _, h => by cases h
  | fuel + 1, 0, _, _, h, _ => absurd h (by omega)
  | fuel + 1, k + 1, rest, iter, hk, h => by
    cases rest with
    | nil =>
      simp only [enumLoop] at h ⊢
      split at h <;> rename_i hc
      · rw [if_pos hc]
        split at h <;> rename_i hv
        · rw [if_pos hv]; exact h
        · rw [if_neg hv]; exact enumLoop_mono fuel k _ _ (by omega) h
      · rw [if_neg hc]; exact h
    | cons u rest =>
      simp only [enumLoop] at h ⊢
      split at h <;> rename_i hc
      · rw [if_pos hc]
        split at h <;> rename_i hv
        · rw [if_pos hv]; exact h
        · rw [if_neg hv]; exact enumLoop_mono fuel k _ _ (by omega) h
      · rw [if_neg hc]; exact h

theorem enumReturns_unique {t : TypeDef} {name : Bytes} {r r' : EnumVal × Bool} (h : EnumReturns t name r) (h' : EnumReturns t name r') : r = r' := by
  obtain ⟨f, h⟩ := h
  obtain ⟨f', h'⟩ := h'
  unfold TypeDef.enumByName at h h'
  split at h
  · rename_i hk
    rw [if_pos hk] at h'
    have h1 := enumLoop_mono _ (max f f') _ _ (Nat.le_max_left ..) h
    have h2 := enumLoop_mono _ (max f f') _ _ (Nat.le_max_right ..) h'
    rw [h1] at h2
    exact Out.ret.inj h2
  · rename_i hk
    rw [if_neg hk] at h'
    rw [← Out.ret.inj h, ← Out.ret.inj h']

/-- **C64, exactly, for enumeration values**: what `EnumValueDefinitionByName` does.
* A type of another kind has no values: it reports "not found".
* If the enumeration has a value of that name it returns the first one.
* If it has none, it does not return, unless the name is the empty string: then it reports the zero value as found. -/
theorem C64_enum (t : TypeDef) (name : Bytes) (r : EnumVal × Bool) : EnumReturns t name r ↔
    (t.kind ≠ .enum ∧ r = (.zero, false)) ∨
    (t.kind = .enum ∧ r.2 = true ∧ (FirstValue t.values name r.1 ∨ (name = [] ∧ r.1 = .zero ∧ ∀ u ∈ t.values, u.value ≠ []))) := by
  by_cases hk : t.kind = .enum
  · have hk' : (t.kind == .enum) = true := by simp [hk]
    have ret : ∀ {f x}, enumLoop name t.values.length f t.values 0 = .ret x → EnumReturns t name x := fun {f x} h => ⟨f, by
      unfold TypeDef.enumByName; rw [if_pos hk']; exact h⟩
    rcases firstValue_or t.values name with ⟨v, hv⟩ | hv
    · have hret : EnumReturns t name (v, true) := by
        obtain ⟨b, a, e, h1, h2⟩ := hv
        refine ret (f := b.length + 1) ?_
        rw [e]
        exact enumLoop_found h1 b _ 0 h2 (by simp; omega) (by simp)
      constructor
      · intro h
        rw [enumReturns_unique h hret]
        exact .inr ⟨hk, rfl, .inl hv⟩
      · rintro (⟨h, -⟩ | ⟨-, h2, h | ⟨rfl, -, h⟩⟩)
        · exact absurd hk h
        · have : r = (v, true) := by
            obtain ⟨x, y⟩ := r
            dsimp only at h h2
            subst h2
            congr 1
            obtain ⟨b, a, e, h1, h2⟩ := hv
            obtain ⟨b', a', e', h1', h2'⟩ := h
            rw [e, List.append_eq_append_iff] at e'
            rcases e' with ⟨c, rfl, hc⟩ | ⟨c, rfl, hc⟩
            · cases c with
              | nil => simp at hc; exact hc.1.symm
              | cons w c => cases hc; exact absurd h1 (h2' v (by simp))
            · cases c with
              | nil => simp at hc; exact hc.1
              | cons w c => cases hc; exact absurd h1' (h2 x (by simp))
          rw [this]; exact hret
        · obtain ⟨b, a, e, h1, h2⟩ := hv
          exact absurd h1 (h v (by rw [e]; simp))
    · by_cases hn : name = []
      · subst hn
        have hret := ret (enumLoop_zero (len := t.values.length) (by omega) t.values 0 hv (fun _ => by simp))
        constructor
        · intro h
          rw [enumReturns_unique h hret]
          exact .inr ⟨hk, rfl, .inr ⟨rfl, rfl, hv⟩⟩
        · rintro (⟨h, -⟩ | ⟨-, h2, ⟨b, a, e, h1, -⟩ | ⟨-, h1, -⟩⟩)
          · exact absurd hk h
          · exact absurd h1 (hv _ (by rw [e]; simp))
          · have : r = (.zero, true) := by rw [← h1, ← h2]
            rw [this]; exact hret
      · constructor
        · rintro ⟨f, h⟩
          unfold TypeDef.enumByName at h
          rw [if_pos hk', enumLoop_lost hn (by omega) f t.values 0 hv (fun _ => by simp)] at h
          cases h
        · rintro (⟨h, -⟩ | ⟨-, -, ⟨b, a, e, h1, -⟩ | ⟨h, -⟩⟩)
          · exact absurd hk h
          · exact absurd h1 (hv _ (by rw [e]; simp))
          · exact absurd h hn
  · constructor
    · rintro ⟨f, h⟩
      unfold TypeDef.enumByName at h
      rw [if_neg (by simpa using hk)] at h
      exact .inl ⟨hk, (Out.ret.inj h).symm⟩
    · rintro (⟨-, rfl⟩ | ⟨h, -⟩)
      · exact ⟨0, by unfold TypeDef.enumByName; rw [if_neg (by simpa using hk)]⟩
      · exact absurd h hk

/-- **C64 for fields**: `FieldDefinitionByName` finds the first field of that name of an object or interface type, and nothing else. -/
theorem C64_field (t : TypeDef) (name : Bytes) (r : Option FieldDef) : t.fieldByName name = r ↔
    match r with
    | some f => (t.kind = .object ∨ t.kind = .interface) ∧ FirstField t.fields name f
    | none => ¬ (t.kind = .object ∨ t.kind = .interface) ∨ ∀ f ∈ t.fields, f.name ≠ name := by
  unfold TypeDef.fieldByName
  by_cases hk : t.kind = .object ∨ t.kind = .interface
  · rw [if_pos (by simpa using hk)]
    cases r with
    | none => simp [hk]
    | some f =>
      rw [List.find?_eq_some_iff_append]
      constructor
      · rintro ⟨h1, b, a, e, h2⟩
        exact ⟨hk, b, a, e, by simpa using h1, by simpa using h2⟩
      · rintro ⟨-, b, a, e, h1, h2⟩
        exact ⟨by simpa using h1, b, a, e, by simpa using h2⟩
  · rw [if_neg (by simpa using hk)]
    cases r <;> simp [hk]

/-- **C64 fails as stated**: asked for a value that an enumeration does not have, `EnumValueDefinitionByName` never returns, … -/
theorem C64_refuted (t : TypeDef) (name : Bytes) (hk : t.kind = .enum) (hn : name ≠ []) (h : ∀ u ∈ t.values, u.value ≠ name) :
    ¬ ∃ r, EnumReturns t name r := by
  rintro ⟨r, hr⟩
  rcases (C64_enum t name r).1 hr with ⟨h1, -⟩ | ⟨-, -, ⟨b, a, e, h1, -⟩ | ⟨h1, -⟩⟩
  · exact h1 hk
  · exact h _ (by rw [e]; simp) h1
  · exact hn h1

/-- … and every enumeration that has been parsed "has" a value with the empty name. -/
theorem C64_refuted_empty (t : TypeDef) (hk : t.kind = .enum) (h : ∀ u ∈ t.values, u.value ≠ []) : EnumReturns t [] (.zero, true) :=
  (C64_enum t [] _).2 (.inr ⟨hk, rfl, .inr ⟨rfl, rfl, h⟩⟩)

/-- `enum E { A B }`, for which the three cases arise. -/
def colours : TypeDef := ⟨[], b!"E", .enum, [], [], [], [], [⟨[], [], b!"A"⟩, ⟨b!"last", [], b!"B"⟩], []⟩

example : EnumReturns colours b!"B" (⟨b!"last", [], b!"B"⟩, true) := ⟨3, rfl⟩
example : ¬ ∃ r, EnumReturns colours b!"C" r := C64_refuted _ _ rfl (by decide) (by decide)
example : EnumReturns colours [] (.zero, true) := C64_refuted_empty _ rfl (by decide)
example : ∃ f, (⟨[], b!"T", .object, [], [], [⟨[], b!"a", [], .named b!"ID" false, []⟩], [], [], []⟩ : TypeDef).fieldByName b!"a" = some f := ⟨_, rfl⟩

end GQL
