import Verif.Model.Parse

/-! White space and the words of a line, independently of the functions used in the model. -/

namespace BFit

/-- The code points python counts as white space. -/
def whiteCodes : List ℕ :=
  [9, 10, 11, 12, 13, 28, 29, 30, 31, 32, 133, 160, 5760, 8192, 8193, 8194, 8195, 8196, 8197, 8198, 8199,
    8200, 8201, 8202, 8232, 8233, 8239, 8287, 12288]

/-- White space. -/
def White (c : Char) : Prop := c.toNat ∈ whiteCodes

/-- A text without words. -/
def Blank (s : Str) : Prop := ∀ c ∈ s, White c

/-- The words of a text: the longest runs of characters that are not white space. -/
inductive Words : Str → List Str → Prop
  | nil {s : Str} (h : Blank s) : Words s []
  | cons {a w s : Str} {ws : List Str} (ha : Blank a) (hw : w ≠ []) (hw' : ∀ c ∈ w, ¬ White c)
      (hs : ∀ c ∈ s.head?, White c) (h : Words s ws) : Words (a ++ (w ++ s)) (w :: ws)

theorem white_iff {c : Char} : White c ↔ isSpace c = true := by
  unfold White whiteCodes isSpace
  simp only [List.mem_cons, List.not_mem_nil, or_false, Bool.or_eq_true, Bool.and_eq_true, decide_eq_true_eq]
  omega

theorem not_white_iff {c : Char} : ¬ White c ↔ isSpace c = false := by
  rw [white_iff, Bool.not_eq_true]

theorem splitAux_word (w s cur : Str) (hw : ∀ c ∈ w, ¬ White c) :
    splitAux (w ++ s) cur = splitAux s (w.reverse ++ cur) := by
  induction w generalizing cur with
  | nil => rfl
  | cons c w ih =>
    rw [List.cons_append, splitAux, if_neg (by rw [← white_iff]; exact hw c (by simp)),
      ih (c :: cur) (fun x hx => hw x (by simp [hx]))]
    simp

theorem splitAux_blank (a s : Str) (ha : Blank a) : splitAux (a ++ s) [] = splitAux s [] := by
  induction a with
  | nil => rfl
  | cons c a ih =>
    rw [List.cons_append, splitAux, if_pos (white_iff.1 (ha c (by simp))), if_pos rfl,
      ih (fun x hx => ha x (by simp [hx]))]

theorem splitWs_of_words {s : Str} {ws : List Str} (h : Words s ws) : splitWs s = ws := by
  unfold splitWs
  induction h with
  | nil h =>
    rename_i s
    have := splitAux_blank s [] h
    rw [List.append_nil] at this
    rw [this]
    simp [splitAux]
  | cons ha hw hw' hs _ ih =>
    rename_i a w s ws _
    rw [splitAux_blank _ _ ha, splitAux_word _ _ _ hw', List.append_nil]
    cases s with
    | nil =>
      rw [splitAux, if_neg (by simpa using hw), List.reverse_reverse]
      rw [splitAux, if_pos rfl] at ih
      rw [← ih]
    | cons c s =>
      have hc := white_iff.1 (hs c (by simp))
      rw [splitAux, if_pos hc, if_neg (by simpa using hw), List.reverse_reverse]
      rw [splitAux, if_pos hc, if_pos rfl] at ih
      rw [ih]

theorem words_exists (s : Str) : ∃ ws, Words s ws := by
  induction hn : s.length using Nat.strong_induction_on generalizing s with
  | _ n ih =>
    have e1 := List.takeWhile_append_dropWhile (p := isSpace) (l := s)
    have hblank : Blank (s.takeWhile isSpace) := fun c hc =>
      white_iff.2 (List.all_eq_true.1 List.all_takeWhile c hc)
    rcases hd : s.dropWhile isSpace with _ | ⟨c, t⟩
    · rw [hd, List.append_nil] at e1
      exact ⟨[], .nil (e1 ▸ hblank)⟩
    · have hc : isSpace c = false := by
        have := List.head?_dropWhile_not isSpace s
        rw [hd] at this
        simpa using this
      have e2 := List.takeWhile_append_dropWhile (p := fun x => !isSpace x) (l := c :: t)
      have hlen : ((c :: t).dropWhile fun x => !isSpace x).length < n := by
        rw [List.dropWhile_cons_of_pos (by simp [hc])]
        have h1 : (t.dropWhile fun x => !isSpace x).length ≤ t.length := (List.dropWhile_sublist _).length_le
        have h2 : (c :: t).length ≤ s.length := hd ▸ (List.dropWhile_sublist _).length_le
        simp only [List.length_cons] at h2
        omega
      obtain ⟨ws, hws⟩ := ih _ hlen _ rfl
      refine ⟨((c :: t).takeWhile fun x => !isSpace x) :: ws, ?_⟩
      rw [← e1, hd]
      nth_rewrite 1 [← e2]
      refine .cons hblank ?_ ?_ ?_ hws
      · rw [List.takeWhile_cons_of_pos (by simp [hc])]; simp
      · intro x hx
        have := List.all_eq_true.1 List.all_takeWhile x hx
        rw [not_white_iff]
        simpa using this
      · intro x hx
        have := List.head?_dropWhile_not (fun x => !isSpace x) (c :: t)
        rw [Option.mem_def.1 hx] at this
        rw [white_iff]
        simpa using this

/-- `str.split()` finds the words. -/
theorem words_iff {s : Str} {ws : List Str} : Words s ws ↔ splitWs s = ws := by
  refine ⟨splitWs_of_words, ?_⟩
  rintro rfl
  obtain ⟨ws, h⟩ := words_exists s
  rwa [splitWs_of_words h]

theorem blank_iff {s : Str} : Blank s ↔ splitWs s = [] := by
  refine ⟨fun h => splitWs_of_words (.nil h), fun h => ?_⟩
  cases words_iff.2 h with
  | nil h => exact h

theorem Blank.space {s : Str} (h : Blank s) : ∀ c ∈ s, isSpace c = true := fun c hc => white_iff.1 (h c hc)

theorem blank_of {s : Str} (h : ∀ c ∈ s, isSpace c = true) : Blank s := fun c hc => white_iff.2 (h c hc)

instance (c : Char) : Decidable (White c) := decidable_of_iff _ white_iff.symm

instance (s : Str) : Decidable (Blank s) := decidable_of_iff _ blank_iff.symm

instance (s : Str) (ws : List Str) : Decidable (Words s ws) := decidable_of_iff _ words_iff.symm

end BFit
