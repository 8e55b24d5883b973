/-
C57–C59: alternatives and suggestions in error messages.
-/
import Verif.Model.Suggest
import Verif.Proofs.Decorate

namespace GQL

/-! ### C57 -/

theorem join_intercalate (sep : Bytes) : ∀ l, join sep l = List.intercalate sep l
  | [] => rfl
  | [a] => by simp [join, List.intercalate, List.intersperse]
  | a :: b :: l => by
    rw [join, join_intercalate sep (b :: l)]
    simp [List.intercalate, List.intersperse]

/-- **C57**: `OrList` panics for no items only.  One item is returned as it is, two are joined by ` or `; of three or more, the first five (or all) are
joined by `, `, with `, or ` before the last of them. -/
theorem C57 (items : List Bytes) :
    (orList items = .panic ↔ items = []) ∧
    (∀ a, items = [a] → orList items = .ret a) ∧
    (∀ a b, items = [a, b] → orList items = .ret (a ++ b!" or " ++ b)) ∧
    (∀ rest last, items.length ≥ 3 → items.take 5 = rest ++ [last] →
      orList items = .ret (List.intercalate b!", " rest ++ b!", or " ++ last)) := by
  have key : ∀ rest last, items.length ≥ 3 → items.take 5 = rest ++ [last] →
      orList items = .ret (List.intercalate b!", " rest ++ b!", or " ++ last) := by
    intro rest last hl ht
    have hr : (if items.length > 5 then upTo items 5 else .ret items) = .ret (items.take 5) := by
      split
      · unfold upTo; rw [if_pos (by omega)]
      · rw [List.take_of_length_le (by omega)]
    unfold orList
    rw [if_neg (by omega), if_neg (by omega), if_neg (by omega), hr, ht]
    simp [Out.bind, upTo, index, join_intercalate]
  refine ⟨⟨fun h => ?_, ?_⟩, ?_, ?_, key⟩
  · rcases items with _ | ⟨a, _ | ⟨b, _ | ⟨c, l⟩⟩⟩
    · rfl
    · cases h
    · cases h
    · have h5 : (a :: b :: c :: l).take 5 ≠ [] := by simp
      rw [key _ _ (by simp) (List.dropLast_concat_getLast h5).symm] at h
      cases h
  · rintro rfl; rfl
  · rintro a rfl; rfl
  · rintro a b rfl; rfl

example : orList [b!"a", b!"b", b!"c", b!"d", b!"e", b!"f"] = .ret b!"a, b, c, d, or e" := rfl
example : orList [b!"a", b!"b", b!"c"] = .ret b!"a, b, or c" := rfl

/-! ### C58 -/

/-- **C58, the value returned**: `QuotedOrList` returns what `OrList` returns for the items in quotation marks.
Missing for the full property: that the caller's slice is as it was (`C58_refuted`). -/
theorem C58_partial (items : List Bytes) : (quotedOrList items).1 = orList (items.map fun i => b!"\"" ++ i ++ b!"\"") := rfl

/-- **C58 as stated fails**, for every slice with an item: the caller's items are in quotation marks afterwards. -/
theorem C58_refuted (items : List Bytes) (h : items ≠ []) :
    (quotedOrList items).2 = items.map (fun i => b!"\"" ++ i ++ b!"\"") ∧ (quotedOrList items).2 ≠ items := by
  refine ⟨rfl, fun he => ?_⟩
  cases items with
  | nil => exact h rfl
  | cons a l =>
    have := congrArg (fun x : List Bytes => (x.head?.getD []).length) he
    simp [quotedOrList, quoteItems] at this
    omega

/-- So the same slice gives something else the second time. -/
example : (quotedOrList [b!"a", b!"b"]).1 = .ret b!"\"a\" or \"b\"" ∧
    (quotedOrList (quotedOrList [b!"a", b!"b"]).2).1 = .ret b!"\"\"a\"\" or \"\"b\"\"" := ⟨rfl, rfl⟩

/-! ### C59 -/

section
variable (lev : Bytes → Bytes → Nat) (lower : Bytes → Bytes) (s : SliceSort Bytes) (input : Bytes)

/-- How far an option is from the input: not at all if they are equal, 1 if they differ in case only, else the edit distance without regard to case. -/
def Spec.distance (option : Bytes) : Nat :=
  if input = option then 0 else if lower input = lower option then 1 else lev (lower input) (lower option)

/-- The option is at most half as far from the input as it, or the input, is long (or at most 1). -/
def Spec.Close (option : Bytes) : Prop :=
  Spec.distance lev lower input option ≤ max 1 (max (input.length / 2) (option.length / 2))

theorem lexicalDistance_eq (o : Bytes) : lexicalDistance lev lower input o = Spec.distance lev lower input o := by
  unfold lexicalDistance Spec.distance
  simp only [beq_iff_eq]

theorem threshold_eq (o : Bytes) : threshold input o = max 1 (max (input.length / 2) (o.length / 2)) := by
  unfold threshold
  dsimp only
  split <;> split <;> omega

theorem optionsByDistance_lookup : ∀ (os : List Bytes) (m : GMap Nat) (o : Bytes),
    (optionsByDistance lev lower input os m).lookup o =
      if o ∈ os ∧ lexicalDistance lev lower input o ≤ threshold input o then some (lexicalDistance lev lower input o) else m.lookup o
  | [], m, o => by simp [optionsByDistance]
  | a :: os, m, o => by
    rw [optionsByDistance, optionsByDistance_lookup os]
    by_cases ha : a = o
    · subst ha
      by_cases hd : lexicalDistance lev lower input a ≤ threshold input a
      · simp [hd, lookup_mapSet]
      · simp [hd]
    · by_cases ho : o ∈ os ∧ lexicalDistance lev lower input o ≤ threshold input o
      · rw [if_pos ho, if_pos ⟨List.mem_cons_of_mem _ ho.1, ho.2⟩]
      · have : ¬ (o ∈ a :: os ∧ lexicalDistance lev lower input o ≤ threshold input o) := by
          rintro ⟨h1, h2⟩
          rcases List.mem_cons.1 h1 with h | h
          · exact ha h.symm
          · exact ho ⟨h, h2⟩
        rw [if_neg ho, if_neg this]
        split
        · rw [lookup_mapSet]
          rw [if_neg]
          simpa using fun h : o = a => ha h.symm
        · rfl

theorem closer_weak (m : GMap Nat) : StrictWeak (closer m) := by
  constructor
  · intro a; simp [closer]
  · intro a b c h1 h2
    simp only [closer] at *
    split at h1 <;> split at h2 <;> split <;> simp only [decide_eq_true_eq] at * <;> omega
  · intro a b c h1 h2
    simp only [closer] at *
    split at h1 <;> split at h2 <;> split <;> simp only [decide_eq_false_iff_not] at * <;> omega

open Classical in
/-- **C59**: the suggestions are, with multiplicity, the options that are close to the input, in order of increasing distance and, at the same distance,
of decreasing length.  Whatever `sort.Slice` does with ties, and whatever the edit distance is. -/
theorem C59 (options : List Bytes) :
    (suggestionList lev lower s input options).Perm (options.filter fun o => Spec.Close lev lower input o) ∧
    (suggestionList lev lower s input options).Pairwise fun a b =>
      Spec.distance lev lower input a < Spec.distance lev lower input b ∨
      (Spec.distance lev lower input a = Spec.distance lev lower input b ∧ a.length ≥ b.length) := by
  have hp := s.perm (closer (optionsByDistance lev lower input options []))
    (options.filter fun o => ((optionsByDistance lev lower input options []).lookup o).isSome)
  have hl : ∀ o ∈ options, (optionsByDistance lev lower input options []).lookup o =
      if Spec.Close lev lower input o then some (Spec.distance lev lower input o) else none := by
    intro o ho
    rw [optionsByDistance_lookup]
    unfold Spec.Close
    rw [lexicalDistance_eq, threshold_eq]
    simp [ho]
  have hf : (options.filter fun o => ((optionsByDistance lev lower input options []).lookup o).isSome) =
      options.filter fun o => Spec.Close lev lower input o := by
    refine List.filter_congr fun o ho => ?_
    rw [hl o ho]
    split <;> simp [*]
  refine ⟨by rw [← hf]; exact hp, ?_⟩
  have hs := s.sorted (closer (optionsByDistance lev lower input options [])) (options.filter fun o => ((optionsByDistance lev lower input options []).lookup o).isSome)
    (closer_weak _)
  have hm : ∀ a ∈ suggestionList lev lower s input options, mapGet (optionsByDistance lev lower input options []) a = Spec.distance lev lower input a := by
    intro a ha
    have ha := hp.mem_iff.1 ha
    rw [hf, List.mem_filter] at ha
    unfold mapGet
    rw [hl a ha.1, if_pos (by simpa using ha.2)]
    rfl
  refine List.Pairwise.imp_of_mem ?_ hs
  intro a b ha hb h
  unfold closer at h
  rw [hm a ha, hm b hb] at h
  split at h <;> simp only [decide_eq_false_iff_not] at h <;> omega

end

theorem merged_sorted {α : Type} (less : α → α → Bool) (h : StrictWeak less) (l : List α) :
    (l.mergeSort (fun a b => !less b a)).Pairwise fun a b => less b a = false := by
  have := List.pairwise_mergeSort (le := fun a b => !less b a)
    (by intro a b c h1 h2; simp only [Bool.not_eq_true'] at *; exact h.ties c b a h2 h1)
    (by
      intro a b
      cases hab : less a b with
      | false => simp
      | true =>
        cases hba : less b a with
        | false => simp
        | true => have := h.trans a b a hab hba; rw [h.irrefl] at this; cases this) l
  exact this.imp fun h => by simpa using h

/-- There is such a sort. -/
def mergeSorter {α : Type} : SliceSort α where
  sort less l := l.mergeSort (fun a b => !less b a)
  perm less l := List.mergeSort_perm l _
  sorted less l h := merged_sorted less h l

/-- Suggestions for `strnig`, with a distance that counts the places where the texts differ. -/
example : suggestionList (fun a b => ((a.zip b).filter fun p => p.1 ≠ p.2).length + (max a.length b.length - min a.length b.length)) id mergeSorter b!"strnig"
    [b!"int", b!"strnigs", b!"string", b!"strnig", b!"strnag"] = [b!"strnig", b!"strnigs", b!"strnag", b!"string"] := by
  simp [suggestionList, optionsByDistance, lexicalDistance, threshold, mapSet, closer, mapGet, mergeSorter, List.mergeSort, List.lookup]

end GQL
