import Verif.Model.Greedy
import Verif.Spec.Greedy
import Mathlib.Data.List.InsertIdx
import Mathlib.Algebra.BigOperators.Intervals

/-!
# C46 – C48: the choice functions of greedy.py
-/

namespace BFit

open Classical

theorem npInsert_eq_insertIdx {α : Type} (l : List α) (i : ℕ) (v : α) (h : i ≤ l.length) :
    npInsert l i v = l.insertIdx i v := by
  induction l generalizing i with
  | nil =>
    have : i = 0 := by simpa using h
    subst this; rfl
  | cons a l ih =>
    cases i with
    | zero => rfl
    | succ i =>
      have := ih i (by simpa using h)
      simp only [npInsert] at this
      simp [npInsert, this]

theorem append_singleton_eq_insertIdx {α : Type} (l : List α) (v : α) :
    l ++ [v] = l.insertIdx l.length v := by
  rw [← npInsert_eq_insertIdx l _ v le_rfl]; simp [npInsert]

theorem npDelete_shift {α : Type} (l : List α) (k j : ℕ) :
    ((l.zipIdx k).filter (fun p => decide (p.2 ∉ [j + k]))).map Prod.fst = l.eraseIdx j := by
  induction l generalizing k j with
  | nil => simp
  | cons a l ih =>
    cases j with
    | zero =>
      have : (l.zipIdx (k + 1)).filter (fun p => decide (p.2 ∉ [0 + k])) = l.zipIdx (k + 1) := by
        apply List.filter_eq_self.mpr
        rintro ⟨x, m⟩ hm
        have := List.mem_zipIdx hm
        simp; omega
      rw [List.zipIdx_cons, List.filter_cons_of_neg (by simp), this]
      simp [List.zipIdx_map_fst]
    | succ j =>
      have := ih (k + 1) j
      rw [show j + (k + 1) = j + 1 + k by omega] at this
      rw [List.zipIdx_cons, List.filter_cons_of_pos (by simp), List.map_cons,
        List.eraseIdx_cons_succ, this]

theorem npDelete_singleton {α : Type} (l : List α) (j : ℕ) : npDelete l [j] = l.eraseIdx j :=
  npDelete_shift l 0 j

theorem insertAt_eq (factor v : XR) (cs es : List XR) (i : ℕ) (h : cs.length = es.length)
    (hi : i < es.length) : insertAt factor v cs es i = withNew factor v (cs, es) i := by
  unfold insertAt withNew newExponent
  by_cases h0 : i = 0
  · subst h0
    simp [npInsert_eq_insertIdx]
  · rw [if_neg h0, if_neg h0, if_neg hi.ne, npInsert_eq_insertIdx _ _ _ (by omega),
      npInsert_eq_insertIdx _ _ _ (by omega)]

theorem endpoint_eq (factor v : XR) (cs es : List XR) (h : cs.length = es.length)
    (he : es ≠ []) :
    (cs ++ [v], es ++ [es.getD (es.length - 1) 0 * factor]) = withNew factor v (cs, es) es.length := by
  unfold withNew newExponent
  have : es.length ≠ 0 := by simpa using he
  rw [if_neg this, if_pos rfl, append_singleton_eq_insertIdx, append_singleton_eq_insertIdx, h]

/-- A loop over indices that appends one more element at the last index. -/
theorem flatMap_range_last {α : Type} (n : ℕ) (hn : n ≠ 0) (f : ℕ → List α) (g : ℕ → List α) :
    ((List.range n).flatMap fun i => f i ++ (if i = n - 1 then g i else [])) =
      (List.range n).flatMap f ++ g (n - 1) := by
  obtain ⟨m, rfl⟩ := Nat.exists_eq_succ_of_ne_zero hn
  simp only [Nat.succ_eq_add_one, Nat.add_sub_cancel, List.range_succ, List.flatMap_append,
    List.flatMap_cons, List.flatMap_nil, List.append_nil, if_true, List.append_assoc]
  congr 1
  apply List.flatMap_congr
  intro i hi
  have := List.mem_range.mp hi
  rw [if_neg (by omega), List.append_nil]

theorem nextPairs_eq (factor v : XR) (cs es : List XR) (h : cs.length = es.length)
    (he : es ≠ []) :
    nextPairs factor cs es v = (List.range (es.length + 1)).map (withNew factor v (cs, es)) := by
  have hn : es.length ≠ 0 := by simpa using he
  unfold nextPairs
  have := flatMap_range_last es.length hn (fun i => [insertAt factor v cs es i])
    (fun i => [(cs ++ [v], es ++ [es.getD i 0 * factor])])
  simp only [List.singleton_append] at this
  simp only [this, endpoint_eq factor v cs es h he]
  rw [List.range_succ, List.map_append]
  congr 1
  rw [← List.map_eq_flatMap]
  apply List.map_congr_left
  intro i hi
  exact insertAt_eq _ _ _ _ _ h (List.mem_range.mp hi)

/-- **C46.**  For at least one function, `get_next_choices` returns exactly the `n + 1` guesses that
insert `coeff_val` at position `k` of the coefficients and the new exponent at position `k` of the
exponents, for `k = 0, …, n` in this order, coefficients first. -/
theorem C46_next_choices (factor v : XR) (cs es : List XR) (h : cs.length = es.length)
    (he : es ≠ []) :
    getNextChoices factor cs es v = (List.range (es.length + 1)).map (fun k =>
      cs.insertIdx k v ++ es.insertIdx k (newExponent factor es k)) := by
  have key : getNextChoices factor cs es v =
      (nextPairs factor cs es v).map (fun p => p.1 ++ p.2) := by
    unfold getNextChoices nextPairs
    simp only [List.map_flatMap, List.map_cons]
    congr 1
    funext i
    split <;> rfl
  rw [key, nextPairs_eq factor v cs es h he, List.map_map]
  rfl

/-- **C46**, number and sizes of the guesses. -/
theorem C46_sizes (factor v : XR) (cs es : List XR) (h : cs.length = es.length) (he : es ≠ []) :
    (getNextChoices factor cs es v).length = es.length + 1 ∧
      ∀ x ∈ getNextChoices factor cs es v, x.length = 2 * (es.length + 1) := by
  rw [C46_next_choices factor v cs es h he]
  refine ⟨by simp, ?_⟩
  intro x hx
  obtain ⟨k, hk, rfl⟩ := List.mem_map.mp hx
  have hk := List.mem_range.mp hk
  rw [List.length_append, List.length_insertIdx_of_le_length (by omega),
    List.length_insertIdx_of_le_length (by omega)]
  omega

/-- `get_next_choices` of no functions returns no guess. -/
theorem C46_empty (factor v : XR) (cs : List XR) : getNextChoices factor cs [] v = [] := rfl

/-- `newExponent` on finite exponents. -/
theorem newExponent_fins (f : ℝ) (hf : f ≠ 0) (es : List ℝ) (k : ℕ) (he : es ≠ [])
    (hk : k ≤ es.length) :
    ∃ e : ℝ, newExponent (XR.fin f) (fins es) k = XR.fin e ∧
      (k = 0 → e = es.getD 0 0 / f) ∧ (k = es.length → e = es.getD (es.length - 1) 0 * f) ∧
      (k ≠ 0 → k ≠ es.length → e = (es.getD (k - 1) 0 + es.getD k 0) / 2) := by
  have hg : ∀ i, (fins es).getD i 0 = XR.fin (es.getD i 0) := by
    intro i; simp [List.getD_eq_getElem?_getD, List.getElem?_map]
  have hn : es.length ≠ 0 := by simpa using he
  unfold newExponent
  rw [fins_length]
  simp only [hg]
  by_cases h0 : k = 0
  · subst h0
    refine ⟨es.getD 0 0 / f, ?_, fun _ => rfl, fun h => absurd h.symm hn, fun h => absurd rfl h⟩
    rw [if_pos rfl, XR.div_fin_of_ne _ hf]
  · rw [if_neg h0]
    by_cases h1 : k = es.length
    · exact ⟨es.getD (es.length - 1) 0 * f, by rw [if_pos h1, XR.mul_fin], fun h => absurd h h0,
        fun _ => rfl, fun _ h => absurd h1 h⟩
    · refine ⟨_, ?_, fun h => absurd h h0, fun h => absurd h h1, fun _ _ => rfl⟩
      rw [if_neg h1, XR.add_fin, XR.div_fin_of_ne _ two_ne_zero]

theorem pairwise_insertIdx {α : Type} {R : α → α → Prop} {l : List α} {k : ℕ} {v : α}
    (hk : k ≤ l.length) (hl : l.Pairwise R) (h1 : ∀ x ∈ l.take k, R x v)
    (h2 : ∀ x ∈ l.drop k, R v x) : (l.insertIdx k v).Pairwise R := by
  rw [← npInsert_eq_insertIdx l k v hk]
  unfold npInsert
  have hl' := hl
  rw [← List.take_append_drop k l, List.pairwise_append] at hl'
  rw [List.pairwise_append, List.pairwise_cons]
  refine ⟨hl'.1, ⟨h2, hl'.2.1⟩, ?_⟩
  intro a ha b hb
  rcases List.mem_cons.mp hb with rfl | hb
  · exact h1 a ha
  · exact hl'.2.2 a ha b hb

/-- **C46**, order.  With a factor at least one and positive ascending exponents every guess has
ascending positive exponents. -/
theorem C46_ascending (f v : ℝ) (hf : 1 ≤ f) (cs es : List ℝ) (h : cs.length = es.length)
    (he : es ≠ []) (hpos : ∀ e ∈ es, 0 < e) (hasc : es.Pairwise (· ≤ ·)) :
    ∀ x ∈ getNextChoices (XR.fin f) (fins cs) (fins es) (XR.fin v), ∃ c e : List ℝ,
      x = fins c ++ fins e ∧ c.length = es.length + 1 ∧ e.length = es.length + 1 ∧
        (∀ y ∈ e, 0 < y) ∧ e.Pairwise (· ≤ ·) := by
  intro x hx
  rw [C46_next_choices _ _ _ _ (by simpa using h) (by simpa using he)] at hx
  obtain ⟨k, hk, rfl⟩ := List.mem_map.mp hx
  have hk : k ≤ es.length := by have := List.mem_range.mp hk; simp at this; omega
  have hf0 : 0 < f := lt_of_lt_of_le one_pos hf
  obtain ⟨e, hen, h0, h1, h2⟩ := newExponent_fins f hf0.ne' es k he hk
  have hn : 0 < es.length := List.length_pos_of_ne_nil he
  have hget : ∀ i, i < es.length → ∃ hi : i < es.length, es.getD i 0 = es[i] := fun i hi =>
    ⟨hi, by simp [List.getD_eq_getElem?_getD, hi]⟩
  have hmono : ∀ i j (hi : i < es.length) (hj : j < es.length), i ≤ j → es[i] ≤ es[j] := by
    intro i j hi hj hij
    rcases hij.lt_or_eq with hlt | rfl
    · exact List.pairwise_iff_getElem.mp hasc i j hi hj hlt
    · exact le_rfl
  have hge : ∀ i (hi : i < es.length), 0 < es[i] := fun i hi => hpos _ (List.getElem_mem hi)
  have hposE : 0 < e := by
    by_cases k0 : k = 0
    · obtain ⟨hi, hg⟩ := hget 0 hn
      rw [h0 k0, hg]; exact div_pos (hge 0 hi) hf0
    · by_cases k1 : k = es.length
      · obtain ⟨hi, hg⟩ := hget (es.length - 1) (by omega)
        rw [h1 k1, hg]; exact mul_pos (hge _ hi) hf0
      · obtain ⟨hi, hg⟩ := hget (k - 1) (by omega)
        obtain ⟨hi', hg'⟩ := hget k (by omega)
        rw [h2 k0 k1, hg, hg']
        have := hge _ hi; have := hge _ hi'; linarith
  refine ⟨cs.insertIdx k v, es.insertIdx k e, ?_, ?_, ?_, ?_, ?_⟩
  · rw [hen]
    simp only [← npInsert_eq_insertIdx (fins cs) k _ (by simpa [h] using hk),
      ← npInsert_eq_insertIdx (fins es) k _ (by simpa using hk),
      ← npInsert_eq_insertIdx cs k _ (by omega), ← npInsert_eq_insertIdx es k _ hk]
    simp [npInsert, fins]
  · rw [List.length_insertIdx_of_le_length (by omega)]; omega
  · rw [List.length_insertIdx_of_le_length hk]
  · intro y hy
    rcases List.eq_or_mem_of_mem_insertIdx hy with rfl | hy
    · exact hposE
    · exact hpos y hy
  · apply pairwise_insertIdx hk hasc
    · intro y hy
      obtain ⟨i, hi, rfl⟩ := List.getElem_of_mem hy
      rw [List.length_take] at hi
      rw [List.getElem_take]
      by_cases k1 : k = es.length
      · obtain ⟨hi', hg⟩ := hget (es.length - 1) (by omega)
        rw [h1 k1, hg]
        calc es[i] ≤ es[es.length - 1] := hmono _ _ _ _ (by omega)
          _ ≤ es[es.length - 1] * f := le_mul_of_one_le_right (hge _ hi').le hf
      · obtain ⟨hi', hg⟩ := hget (k - 1) (by omega)
        obtain ⟨hi'', hg'⟩ := hget k (by omega)
        rw [h2 (by omega) k1, hg, hg']
        have a1 := hmono i (k - 1) (by omega) hi' (by omega)
        have a2 := hmono i k (by omega) hi'' (by omega)
        linarith
    · intro y hy
      obtain ⟨i, hi, rfl⟩ := List.getElem_of_mem hy
      rw [List.length_drop] at hi
      rw [List.getElem_drop]
      by_cases k0 : k = 0
      · obtain ⟨hi', hg⟩ := hget 0 hn
        rw [h0 k0, hg]
        calc es[0] / f ≤ es[0] := div_le_self (hge _ hi').le hf
          _ ≤ es[k + i] := hmono _ _ _ _ (by omega)
      · obtain ⟨hi', hg⟩ := hget (k - 1) (by omega)
        obtain ⟨hi'', hg'⟩ := hget k (by omega)
        rw [h2 k0 (by omega), hg, hg']
        have a1 := hmono (k - 1) (k + i) hi' (by omega) (by omega)
        have a2 := hmono k (k + i) hi'' (by omega) (by omega)
        linarith

/-- Example: three guesses from the exponents 1, 4 with factor 2. -/
example : getNextChoices (XR.fin 2) (fins [5, 7]) (fins [1, 4]) (XR.fin 100) =
    [fins [100, 5, 7, 1/2, 1, 4], fins [5, 100, 7, 1, 5/2, 4], fins [5, 7, 100, 1, 4, 8]] := by
  rw [C46_next_choices _ _ (fins [5, 7]) (fins [1, 4]) rfl (by simp)]
  simp [newExponent, List.range_succ, XR.div_fin_of_ne]
  norm_num

/-- **C47.**  `get_two_next_choices` returns exactly the guesses obtained by a pick-one insertion at
position `i` followed by one at position `k ≥ i`, `i = 0, …, n` and `k = i, …, n + 1`, coefficients
first. -/
theorem C47_two_choices (factor v : XR) (cs es : List XR) (h : cs.length = es.length)
    (he : es ≠ []) :
    getTwoNextChoices factor cs es v = (List.range (es.length + 1)).flatMap (fun i =>
      (List.range' i (es.length + 2 - i)).map (fun k =>
        let p := withNew factor v (withNew factor v (cs, es) i) k
        p.1 ++ p.2)) := by
  have hn : es.length ≠ 0 := by simpa using he
  unfold getTwoNextChoices
  simp only
  have hl : ∀ i, i ≤ es.length → (withNew factor v (cs, es) i).1.length = es.length + 1 ∧
      (withNew factor v (cs, es) i).2.length = es.length + 1 := by
    intro i hi
    constructor
    · simp only [withNew]; rw [List.length_insertIdx_of_le_length (by omega)]; omega
    · simp only [withNew]; rw [List.length_insertIdx_of_le_length hi]
  have hp : ∀ i, i ≤ es.length → nextPairs factor (withNew factor v (cs, es) i).1
      (withNew factor v (cs, es) i).2 v =
      (List.range (es.length + 2)).map (withNew factor v (withNew factor v (cs, es) i)) := by
    intro i hi
    obtain ⟨h1, h2⟩ := hl i hi
    rw [nextPairs_eq _ _ _ _ (by omega) (by rw [← List.length_pos_iff]; omega), h2]
  rw [flatMap_range_last es.length hn
    (fun i => sliceFrom (nextPairs factor (insertAt factor v cs es i).1
      (insertAt factor v cs es i).2 v) i)
    (fun i => sliceFrom (nextPairs factor (cs ++ [v]) (es ++ [es.getD i 0 * factor]) v) (-2))]
  have hend := endpoint_eq factor v cs es h he
  have e1 : cs ++ [v] = (withNew factor v (cs, es) es.length).1 := by rw [← hend]
  have e2 : es ++ [es.getD (es.length - 1) 0 * factor] = (withNew factor v (cs, es) es.length).2 := by
    rw [← hend]
  rw [e1, e2, hp _ le_rfl, List.range_succ (n := es.length), List.flatMap_append, List.map_append]
  have hdrop : ∀ i, i ≤ es.length → (List.range (es.length + 2)).drop i =
      List.range' i (es.length + 2 - i) := by
    intro i hi; rw [List.range_eq_range', List.drop_range']; simp
  congr 1
  · rw [List.map_flatMap]
    apply List.flatMap_congr
    intro i hi
    have hi := List.mem_range.mp hi
    rw [insertAt_eq _ _ _ _ _ h hi, hp i hi.le, sliceFrom_nat, ← List.map_drop, hdrop i hi.le,
      List.map_map]
    rfl
  · have : sliceFrom ((List.range (es.length + 2)).map
        (withNew factor v (withNew factor v (cs, es) es.length))) (-2) =
        ((List.range (es.length + 2)).map
        (withNew factor v (withNew factor v (cs, es) es.length))).drop es.length := by
      unfold sliceFrom
      rw [if_neg (by omega)]
      congr 1
      simp
    rw [this, ← List.map_drop, hdrop _ le_rfl, List.map_map]
    simp [Function.comp_def]

/-- **C47**, number of guesses: `(n² + 5 n + 4) / 2`. -/
theorem C47_count (factor v : XR) (cs es : List XR) (h : cs.length = es.length)
    (he : es ≠ []) :
    2 * (getTwoNextChoices factor cs es v).length = es.length ^ 2 + 5 * es.length + 4 := by
  rw [C47_two_choices factor v cs es h he]
  simp only [List.length_flatMap, List.length_map, List.length_range']
  have key : ∀ m n : ℕ, m ≤ n + 1 →
      2 * ((List.range m).map (fun i => n + 2 - i)).sum + m * m = m * (2 * n + 5) := by
    intro m
    induction m with
    | zero => intro n _; simp
    | succ m ih =>
      intro n hm
      have := ih n (by omega)
      rw [List.range_succ, List.map_append, List.sum_append]
      simp only [List.map_cons, List.map_nil, List.sum_cons, List.sum_nil, add_zero]
      obtain ⟨d, rfl⟩ := Nat.exists_eq_add_of_le (show m ≤ n by omega)
      have e : m + d + 2 - m = d + 2 := by omega
      rw [e]
      nlinarith
  have := key (es.length + 1) es.length le_rfl
  nlinarith

theorem sublist_insertIdx {α : Type} (l : List α) (k : ℕ) (v : α) :
    l.Sublist (l.insertIdx k v) := by
  induction l generalizing k with
  | nil => exact List.nil_sublist _
  | cons a l ih =>
    cases k with
    | zero => simp
    | succ k => simp [ih k]

/-- **C47**, content of the guesses: each consists of `n + 2` coefficients and `n + 2` exponents that
contain the old ones as a subsequence, and comes from two pick-one guesses in a row. -/
theorem C47_guess (factor v : XR) (cs es : List XR) (h : cs.length = es.length) (he : es ≠ []) :
    ∀ x ∈ getTwoNextChoices factor cs es v, ∃ c₁ e₁ c e : List XR, x = c ++ e ∧
      c.length = es.length + 2 ∧ e.length = es.length + 2 ∧ cs.Sublist c ∧ es.Sublist e ∧
      c₁ ++ e₁ ∈ getNextChoices factor cs es v ∧ c₁.length = e₁.length ∧
      c ++ e ∈ getNextChoices factor c₁ e₁ v := by
  intro x hx
  rw [C47_two_choices factor v cs es h he] at hx
  obtain ⟨i, hi, hx⟩ := List.mem_flatMap.mp hx
  obtain ⟨k, hk, rfl⟩ := List.mem_map.mp hx
  have hi := List.mem_range.mp hi
  have hk := List.mem_range'_1.mp hk
  have l1 : (withNew factor v (cs, es) i).1.length = es.length + 1 := by
    simp only [withNew]; rw [List.length_insertIdx_of_le_length (by omega)]; omega
  have l2 : (withNew factor v (cs, es) i).2.length = es.length + 1 := by
    simp only [withNew]; rw [List.length_insertIdx_of_le_length (by omega)]
  refine ⟨(withNew factor v (cs, es) i).1, (withNew factor v (cs, es) i).2, _, _, rfl, ?_, ?_, ?_,
    ?_, ?_, by omega, ?_⟩
  · simp only [withNew] at l1 ⊢; rw [List.length_insertIdx_of_le_length (by omega)]; omega
  · simp only [withNew] at l2 ⊢; rw [List.length_insertIdx_of_le_length (by omega)]; omega
  · exact (sublist_insertIdx _ _ _).trans (sublist_insertIdx _ _ _)
  · exact (sublist_insertIdx _ _ _).trans (sublist_insertIdx _ _ _)
  · rw [C46_next_choices _ _ _ _ h he]
    exact List.mem_map.mpr ⟨i, List.mem_range.mpr (by omega), rfl⟩
  · rw [C46_next_choices _ _ _ _ (by omega) (by rw [← List.length_pos_iff]; omega), l2]
    exact List.mem_map.mpr ⟨k, List.mem_range.mpr (by omega), rfl⟩

/-- Example: the five guesses from one function. -/
example : getTwoNextChoices (XR.fin 2) (fins [5]) (fins [1]) (XR.fin 100) =
    [fins [100, 100, 5, 1/4, 1/2, 1], fins [100, 100, 5, 1/2, 3/4, 1],
      fins [100, 5, 100, 1/2, 1, 2], fins [5, 100, 100, 1, 3/2, 2],
      fins [5, 100, 100, 1, 2, 4]] := by
  rw [C47_two_choices _ _ (fins [5]) (fins [1]) rfl (by simp)]
  simp [newExponent, withNew, List.range_succ, List.range'_succ, XR.div_fin_of_ne]
  norm_num

/-- **C48.**  `pick_two_lose_one` returns, for each pick-two guess in order, the `n + 2` guesses with
position `j = 0, …, n + 1` removed from both the coefficients and the exponents. -/
theorem C48_pick_two_lose_one (factor v : XR) (cs es : List XR) (h : cs.length = es.length)
    (he : es ≠ []) :
    ∃ two : List (List XR × List XR),
      getTwoNextChoices factor cs es v = two.map (fun p => p.1 ++ p.2) ∧
      (∀ p ∈ two, p.1.length = es.length + 2 ∧ p.2.length = es.length + 2) ∧
      pickTwoLoseOne factor cs es v = two.flatMap (fun p =>
        (List.range (es.length + 2)).map (fun j => p.1.eraseIdx j ++ p.2.eraseIdx j)) := by
  set two := (List.range (es.length + 1)).flatMap (fun i =>
      (List.range' i (es.length + 2 - i)).map (fun k =>
        withNew factor v (withNew factor v (cs, es) i) k)) with htwo
  have h1 : getTwoNextChoices factor cs es v = two.map (fun p => p.1 ++ p.2) := by
    rw [C47_two_choices factor v cs es h he, htwo, List.map_flatMap]
    simp only [List.map_map]
    rfl
  have h2 : ∀ p ∈ two, p.1.length = es.length + 2 ∧ p.2.length = es.length + 2 := by
    intro p hp
    obtain ⟨i, hi, hp⟩ := List.mem_flatMap.mp hp
    obtain ⟨k, hk, rfl⟩ := List.mem_map.mp hp
    have hi := List.mem_range.mp hi
    have hk := List.mem_range'_1.mp hk
    constructor
    · simp only [withNew]
      rw [List.length_insertIdx_of_le_length, List.length_insertIdx_of_le_length (by omega)]
      · omega
      · rw [List.length_insertIdx_of_le_length (by omega)]; omega
    · simp only [withNew]
      rw [List.length_insertIdx_of_le_length, List.length_insertIdx_of_le_length (by omega)]
      rw [List.length_insertIdx_of_le_length (by omega)]; omega
  refine ⟨two, h1, h2, ?_⟩
  unfold pickTwoLoseOne
  rw [h1, List.flatMap_map]
  apply List.flatMap_congr
  intro p hp
  obtain ⟨l1, l2⟩ := h2 p hp
  have hlen : (p.1 ++ p.2).length / 2 = es.length + 2 := by rw [List.length_append]; omega
  simp only [hlen]
  apply List.map_congr_left
  intro j _
  rw [npDelete_singleton, npDelete_singleton, List.take_left' l1, List.drop_left' l1]

/-- **C48**, number and sizes: `(n² + 5 n + 4) (n + 2) / 2` guesses of `n + 1` functions. -/
theorem C48_sizes (factor v : XR) (cs es : List XR) (h : cs.length = es.length) (he : es ≠ []) :
    2 * (pickTwoLoseOne factor cs es v).length =
        (es.length ^ 2 + 5 * es.length + 4) * (es.length + 2) ∧
      ∀ x ∈ pickTwoLoseOne factor cs es v, x.length = 2 * (es.length + 1) := by
  obtain ⟨two, h1, h2, h3⟩ := C48_pick_two_lose_one factor v cs es h he
  constructor
  · have hc := C47_count factor v cs es h he
    rw [h1, List.length_map] at hc
    rw [h3, List.length_flatMap]
    simp only [List.length_map, List.length_range, List.map_const', List.sum_replicate,
      smul_eq_mul]
    nlinarith
  · intro x hx
    rw [h3] at hx
    obtain ⟨p, hp, hx⟩ := List.mem_flatMap.mp hx
    obtain ⟨j, hj, rfl⟩ := List.mem_map.mp hx
    have hj := List.mem_range.mp hj
    obtain ⟨l1, l2⟩ := h2 p hp
    rw [List.length_append, List.length_eraseIdx_of_lt (by omega),
      List.length_eraseIdx_of_lt (by omega)]
    omega

/-- Example: fifteen guesses of two functions from one function; the first drops the new outermost
one of the first pick-two guess. -/
example : (pickTwoLoseOne (XR.fin 2) (fins [5]) (fins [1]) (XR.fin 100)).length = 15 ∧
    (pickTwoLoseOne (XR.fin 2) (fins [5]) (fins [1]) (XR.fin 100)).head? =
      some (fins [100, 5, 1/2, 1]) := by
  constructor
  · have := (C48_sizes (XR.fin 2) (XR.fin 100) (fins [5]) (fins [1]) rfl (by simp)).1
    rw [show (fins [1]).length = 1 from rfl] at this; omega
  · unfold pickTwoLoseOne
    rw [C47_two_choices _ _ (fins [5]) (fins [1]) rfl (by simp)]
    simp [newExponent, withNew, List.range_succ, List.range'_succ, XR.div_fin_of_ne,
      npDelete_singleton]

end BFit
