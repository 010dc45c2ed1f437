import Verif.Model.RoundGreedy
import Verif.Lemmas.RoundNear
import Verif.Props.GreedyChoices
import Verif.Props.GreedyRedund
import Mathlib.Tactic.IntervalCases

/-!
C152: the guesses of the greedy search and `remove_redundancies` when every operation is rounded.
-/

namespace BFit

open Classical

noncomputable section

section
variable {u : ℝ} (R : ROps u)

/-- Two exponents whose computed distance is below the threshold. -/
def RSim (es : List ℝ) (eps : ℝ) (i j : ℕ) : Prop := |R.sub (es.getD i 0) (es.getD j 0)| < eps

theorem r_mem_tail (es : List ℝ) (eps : ℝ) (i j : ℕ) :
    j ∈ (rSimilarIndexes R es eps i).tail ↔ i < j ∧ j < es.length ∧ RSim R es eps i j := by
  have key : (rSimilarIndexes R es eps i).tail =
      (List.range' (i + 1) (es.length - (i + 1))).filter
        (fun j => decide (|R.sub (es.getD i 0) (es.getD j 0)| < eps)) := by
    unfold rSimilarIndexes
    simp only
    split
    · next h => rw [h]; rfl
    · rfl
  rw [key, List.mem_filter, List.mem_range'_1]
  simp only [decide_eq_true_eq, RSim]
  constructor
  · rintro ⟨h1, h2⟩; exact ⟨by omega, by omega, h2⟩
  · rintro ⟨h1, h2, h3⟩; exact ⟨by omega, h3⟩

theorem r_ne_nil (es : List ℝ) (eps : ℝ) (i : ℕ) :
    rSimilarIndexes R es eps i ≠ [] ↔ (rSimilarIndexes R es eps i).tail ≠ [] := by
  unfold rSimilarIndexes
  simp only
  split
  · simp
  · next h => simpa using h

theorem r_mem_indices (es : List ℝ) (eps : ℝ) (j : ℕ) :
    j ∈ (rIndexesSame R es eps).flatMap List.tail ↔ j < es.length ∧ ∃ i < j, RSim R es eps i j := by
  unfold rIndexesSame
  simp only [List.mem_flatMap, List.mem_filter, List.mem_map, List.mem_range, decide_eq_true_eq]
  constructor
  · rintro ⟨g, ⟨⟨i, hi, rfl⟩, _⟩, hj⟩
    obtain ⟨h1, h2, h3⟩ := (r_mem_tail R es eps i j).mp hj
    exact ⟨h2, i, h1, h3⟩
  · rintro ⟨hj, i, hij, hs⟩
    have hm := (r_mem_tail R es eps i j).mpr ⟨hij, hj, hs⟩
    refine ⟨_, ⟨⟨i, by omega, rfl⟩, ?_⟩, hm⟩
    rw [r_ne_nil]
    intro h; rw [h] at hm; exact absurd hm List.not_mem_nil

theorem r_foldl_length (cs : List ℝ) (i : ℕ) (js : List ℕ) (new : List ℝ) :
    (js.foldl (fun nc j => nc.modify i (fun c => R.add c (cs.getD j 0))) new).length = new.length := by
  induction js generalizing new with
  | nil => rfl
  | cons j js ih => rw [List.foldl_cons, ih, List.length_modify]

theorem r_foldl_getD (cs : List ℝ) (i : ℕ) (js : List ℕ) (new : List ℝ) (k : ℕ)
    (hk : k < new.length) :
    (js.foldl (fun nc j => nc.modify i (fun c => R.add c (cs.getD j 0))) new).getD k 0 =
      if k = i then (js.map (fun j => cs.getD j 0)).foldl R.add (new.getD k 0) else new.getD k 0 := by
  induction js generalizing new with
  | nil =>
    split
    · rfl
    · rfl
  | cons j js ih =>
    rw [List.foldl_cons, ih _ (by rw [List.length_modify]; exact hk)]
    have : (new.modify i (fun c => R.add c (cs.getD j 0))).getD k 0 =
        if k = i then R.add (new.getD k 0) (cs.getD j 0) else new.getD k 0 := by
      simp only [List.getD_eq_getElem?_getD, List.getElem?_modify]
      by_cases h : k = i
      · subst h; simp [hk]
      · simp [h, Ne.symm h]
    rw [this]
    split
    · rw [List.map_cons, List.foldl_cons]
    · rfl

/-- The amount added to the coefficient at position `i`. -/
theorem r_addGroups_aux (cs es : List ℝ) (eps : ℝ) (m : ℕ) (hm : m ≤ es.length) :
    ((((List.range m).map (rSimilarIndexes R es eps)).foldl (rAddGroup R cs) cs).length = cs.length) ∧
    ∀ k < cs.length, (((List.range m).map (rSimilarIndexes R es eps)).foldl (rAddGroup R cs) cs).getD k 0 =
      if k < m then (((rSimilarIndexes R es eps k).tail).map (fun j => cs.getD j 0)).foldl R.add (cs.getD k 0)
      else cs.getD k 0 := by
  induction m with
  | zero => simp
  | succ m ih =>
    obtain ⟨h1, h2⟩ := ih (by omega)
    rw [List.range_succ, List.map_append, List.foldl_append]
    set new := ((List.range m).map (rSimilarIndexes R es eps)).foldl (rAddGroup R cs) cs
    have hadd : rAddGroup R cs new (rSimilarIndexes R es eps m) =
        (rSimilarIndexes R es eps m).tail.foldl (fun nc j => nc.modify m (fun c => R.add c (cs.getD j 0))) new := by
      unfold rAddGroup
      by_cases h : rSimilarIndexes R es eps m = []
      · rw [h]; rfl
      · have : (rSimilarIndexes R es eps m).headD 0 = m := by
          unfold rSimilarIndexes at h ⊢
          simp only at h ⊢
          split
          · next h' => rw [if_pos h'] at h; exact absurd rfl h
          · rfl
        rw [this]
    simp only [List.map_cons, List.map_nil, List.foldl_cons, List.foldl_nil]
    rw [hadd]
    refine ⟨by rw [r_foldl_length, h1], fun k hk => ?_⟩
    rw [r_foldl_getD R _ _ _ _ _ (by omega), h2 k hk]
    by_cases hkm : k = m
    · subst hkm; simp
    · rw [if_neg hkm]
      by_cases hlt : k < m
      · rw [if_pos hlt, if_pos (by omega)]
      · rw [if_neg hlt, if_neg (by omega)]

theorem r_filter_groups (cs : List ℝ) (gs : List (List ℕ)) (new : List ℝ) :
    (gs.filter (fun g => decide (g ≠ []))).foldl (rAddGroup R cs) new = gs.foldl (rAddGroup R cs) new := by
  induction gs generalizing new with
  | nil => rfl
  | cons g gs ih =>
    by_cases h : g = []
    · subst h
      rw [List.filter_cons_of_neg (by simp), List.foldl_cons, ih]
      rfl
    · rw [List.filter_cons_of_pos (by simpa using h), List.foldl_cons, List.foldl_cons, ih]

/-- The positions kept by `remove_redundancies`: those not similar to an earlier one. -/
noncomputable def rKept (es : List ℝ) (eps : ℝ) : List ℕ :=
  (List.range es.length).filter (fun j => decide (∀ i < j, ¬ RSim R es eps i j))

theorem mem_rKept {es : List ℝ} {eps : ℝ} {j : ℕ} :
    j ∈ rKept R es eps ↔ j < es.length ∧ ∀ i < j, ¬ RSim R es eps i j := by
  simp [rKept]

/-- What `remove_redundancies` computes: an exponent is kept when no earlier one is similar to it, and
its coefficient becomes the sum of its own and those of the later similar exponents. -/
theorem rRemove_eq (cs es : List ℝ) (eps : ℝ) (h : cs.length = es.length) :
    (rRemoveRedundancies R cs es eps).2 = (rKept R es eps).map (fun j => es.getD j 0) ∧
    (rRemoveRedundancies R cs es eps).1 = (rKept R es eps).map (fun i =>
      (((List.range es.length).filter (fun j => decide (i < j ∧ RSim R es eps i j))).map
        (fun j => cs.getD j 0)).foldl R.add (cs.getD i 0)) := by
  obtain ⟨l1, l2⟩ := r_addGroups_aux R cs es eps es.length le_rfl
  have hnew : (rIndexesSame R es eps).foldl (rAddGroup R cs) cs =
      ((List.range es.length).map (rSimilarIndexes R es eps)).foldl (rAddGroup R cs) cs := by
    unfold rIndexesSame; exact r_filter_groups R _ _ _
  have htail : ∀ k, (rSimilarIndexes R es eps k).tail =
      (List.range es.length).filter (fun j => decide (k < j ∧ RSim R es eps k j)) := by
    intro k
    have key : (rSimilarIndexes R es eps k).tail =
        (List.range' (k + 1) (es.length - (k + 1))).filter
          (fun j => decide (|R.sub (es.getD k 0) (es.getD j 0)| < eps)) := by
      unfold rSimilarIndexes
      simp only
      split
      · next h => rw [h]; rfl
      · rfl
    rw [key]
    by_cases hk : k + 1 ≤ es.length
    · have hsplit : List.range es.length =
          List.range' 0 (k + 1) ++ List.range' (k + 1) (es.length - (k + 1)) := by
        have := List.range'_append_1 (s := 0) (m := k + 1) (n := es.length - (k + 1))
        rw [Nat.zero_add] at this
        rw [List.range_eq_range', this]; congr 1; omega
      rw [hsplit, List.filter_append]
      have e1 : (List.range' 0 (k + 1)).filter (fun j => decide (k < j ∧ RSim R es eps k j)) = [] := by
        apply List.filter_eq_nil_iff.mpr
        intro j hj
        have := List.mem_range'_1.mp hj
        simp; omega
      rw [e1, List.nil_append]
      apply List.filter_congr
      intro j hj
      have := List.mem_range'_1.mp hj
      have hkj : k < j := by omega
      simp [RSim, hkj]
    · have : es.length - (k + 1) = 0 := by omega
      rw [this]
      simp only [List.range'_zero, List.filter_nil]
      symm
      apply List.filter_eq_nil_iff.mpr
      intro j hj
      have := List.mem_range.mp hj
      simp; omega
  have hdel : ∀ l : List ℝ, l.length = es.length →
      npDelete l ((rIndexesSame R es eps).flatMap List.tail) =
        (rKept R es eps).map (fun j => l.getD j 0) := by
    intro l hl
    rw [npDelete_eq 0, hl, rKept]
    congr 1
    apply List.filter_congr
    intro j hj
    have hj := List.mem_range.mp hj
    rw [decide_eq_decide, r_mem_indices]
    simp only [not_and, not_exists]
    exact ⟨fun h => h hj, fun h _ => h⟩
  have hall : (rKept R es eps).map (fun j => ((rIndexesSame R es eps).foldl (rAddGroup R cs) cs).getD j 0) =
      (rKept R es eps).map (fun i =>
      (((List.range es.length).filter (fun j => decide (i < j ∧ RSim R es eps i j))).map
        (fun j => cs.getD j 0)).foldl R.add (cs.getD i 0)) := by
    apply List.map_congr_left
    intro i hi
    have hi := ((mem_rKept R).mp hi).1
    rw [hnew, l2 i (by omega), if_pos hi, htail]
  unfold rRemoveRedundancies
  simp only
  split
  · refine ⟨hdel es rfl, ?_⟩
    rw [hdel _ (by rw [hnew, l1, h]), hall]
  · next hs =>
    have hs : rIndexesSame R es eps = [] := by simpa using hs
    have hk : rKept R es eps = List.range es.length := by
      apply List.filter_eq_self.mpr
      intro j hj
      have hj := List.mem_range.mp hj
      rw [decide_eq_true_eq]
      intro i hij hsim
      have := (r_mem_indices R es eps j).mpr ⟨hj, i, hij, hsim⟩
      rw [hs] at this
      exact absurd this List.not_mem_nil
    have hrange : ∀ l : List ℝ, l.length = es.length →
        l = (rKept R es eps).map (fun j => l.getD j 0) := by
      intro l hl
      rw [hk, ← hl]
      apply List.ext_getElem (by simp)
      intro i h1 h2
      simp [h1]
    refine ⟨hrange es rfl, ?_⟩
    rw [← hall]
    exact hrange _ (by rw [hnew, l1, h])


/-- The new exponent at position `k`. -/
def rNewExponent (factor : ℝ) (es : List ℝ) (k : ℕ) : ℝ :=
  if k = 0 then R.div (es.getD 0 0) factor
  else if k = es.length then R.mul (es.getD (es.length - 1) 0) factor
  else R.add (es.getD (k - 1) 0) (es.getD k 0) / 2

theorem rNextChoices_eq (factor v : ℝ) (cs es : List ℝ) (h : cs.length = es.length) (he : es ≠ []) :
    rNextChoices R factor cs es v = (List.range (es.length + 1)).map (fun k =>
      cs.insertIdx k v ++ es.insertIdx k (rNewExponent R factor es k)) := by
  have hn : es.length ≠ 0 := by simpa using he
  unfold rNextChoices
  have := flatMap_range_last es.length hn
    (fun i => [(rInsertAt R factor v cs es i).1 ++ (rInsertAt R factor v cs es i).2])
    (fun i => [(cs ++ [v]) ++ (es ++ [R.mul (es.getD i 0) factor])])
  simp only [List.singleton_append] at this
  simp only [this]
  rw [List.range_succ, List.map_append]
  congr 1
  · rw [← List.map_eq_flatMap]
    apply List.map_congr_left
    intro i hi
    have hi := List.mem_range.mp hi
    unfold rInsertAt rNewExponent
    by_cases h0 : i = 0
    · subst h0
      simp [npInsert_eq_insertIdx]
    · rw [if_neg h0, if_neg h0, if_neg hi.ne, npInsert_eq_insertIdx _ _ _ (by omega),
        npInsert_eq_insertIdx _ _ _ (by omega)]
  · unfold rNewExponent
    rw [List.map_singleton, if_neg hn, if_pos rfl, append_singleton_eq_insertIdx, append_singleton_eq_insertIdx, h]

theorem forall₂_insertIdx {r : ℝ → ℝ → Prop} (hr : ∀ x, r x x) {a b : ℝ} (hab : r a b) (l : List ℝ) (k : ℕ) :
    List.Forall₂ r (l.insertIdx k a) (l.insertIdx k b) := by
  induction l generalizing k with
  | nil =>
    cases k with
    | zero => exact .cons hab .nil
    | succ k => simp
  | cons x l ih =>
    cases k with
    | zero => exact .cons hab (List.forall₂_same.mpr fun y _ => hr y)
    | succ k => exact .cons (hr x) (ih k)

variable (h0 : 0 ≤ u) (h1 : u < 1)
include h0 h1

theorem rNewExponent_rel (f : ℝ) (hf : 0 < f) (es : List ℝ) (hpos : ∀ e ∈ es, 0 < e) (k : ℕ) (he : es ≠ [])
    (hk : k ≤ es.length) : ∃ e : ℝ, newExponent (XR.fin f) (fins es) k = XR.fin e ∧ 0 < e ∧ Rel u 1 (rNewExponent R f es k) e := by
  obtain ⟨e, hen, e0, e1, e2⟩ := newExponent_fins f hf.ne' es k he hk
  have hn : 0 < es.length := List.length_pos_of_ne_nil he
  have hg : ∀ i < es.length, 0 < es.getD i 0 := fun i hi => by
    rw [List.getD_eq_getElem _ _ hi]
    exact hpos _ (List.getElem_mem hi)
  refine ⟨e, hen, ?_⟩
  unfold rNewExponent
  by_cases hk0 : k = 0
  · rw [if_pos hk0, e0 hk0]
    exact ⟨div_pos (hg 0 hn) hf, Rel.of_fl h0 h1 (R.div_fl _ _)⟩
  · rw [if_neg hk0]
    by_cases hkn : k = es.length
    · rw [if_pos hkn, e1 hkn]
      exact ⟨mul_pos (hg _ (by omega)) hf, Rel.of_fl h0 h1 (R.mul_fl _ _)⟩
    · rw [if_neg hkn, e2 hk0 hkn]
      have a1 := hg (k - 1) (by omega)
      have a2 := hg k (by omega)
      exact ⟨by positivity, (Rel.of_fl h0 h1 (R.add_fl _ _)).div h0 h1 (Rel.refl h0 h1 2)⟩

/-- **C152** (guesses).  The computed guesses of the pick-one strategy are those of the model, in the same order; the coefficients
are the same and the exponents have one rounding error.  They are positive. -/
theorem C152_guesses (f v : ℝ) (hf : 0 < f) (cs es : List ℝ) (h : cs.length = es.length) (he : es ≠ [])
    (hpos : ∀ e ∈ es, 0 < e) :
    List.Forall₂ (fun x y => ∃ c e e' : List ℝ, x = c ++ e' ∧ y = fins (c ++ e) ∧ c.length = es.length + 1 ∧
        List.Forall₂ (Rel u 1) e' e ∧ ∀ a ∈ e', 0 < a)
      (rNextChoices R f cs es v) (getNextChoices (XR.fin f) (fins cs) (fins es) (XR.fin v)) := by
  rw [rNextChoices_eq R f v cs es h he, C46_next_choices _ _ _ _ (by simpa using h) (by simpa using he), fins_length,
    List.forall₂_map_left_iff, List.forall₂_map_right_iff, List.forall₂_same]
  intro k hk
  have hk : k ≤ es.length := by have := List.mem_range.mp hk; omega
  obtain ⟨e, hen, hp, hr⟩ := rNewExponent_rel R h0 h1 f hf es hpos k he hk
  refine ⟨cs.insertIdx k v, es.insertIdx k e, es.insertIdx k (rNewExponent R f es k), rfl, ?_, ?_, ?_, ?_⟩
  · rw [hen, fins, fins, fins, List.map_append, List.map_insertIdx, List.map_insertIdx]
  · rw [List.length_insertIdx_of_le_length (by omega)]; omega
  · exact forall₂_insertIdx (fun x => (Rel.refl h0 h1 x).mono h0 h1 (by omega)) hr es k
  · intro a ha
    rcases List.eq_or_mem_of_mem_insertIdx ha with rfl | ha
    · exact hr.pos h0 h1 hp
    · exact hpos a ha

/-- **C152** (order).  If neighbouring exponents differ by more than a rounding error of their sum and the factor is above
one by more than a rounding error, the new exponent of every computed guess is strictly between its neighbours. -/
theorem C152_between (f v : ℝ) (hf : 1 < f * (1 - u)) (cs es : List ℝ) (h : cs.length = es.length) (he : es ≠ [])
    (hpos : ∀ e ∈ es, 0 < e)
    (hgap : ∀ k, k + 1 < es.length → u * (es.getD k 0 + es.getD (k + 1) 0) < es.getD (k + 1) 0 - es.getD k 0) :
    ∀ k ≤ es.length, ∃ e, (rNextChoices R f cs es v)[k]? = some (cs.insertIdx k v ++ es.insertIdx k e) ∧
      (0 < k → es.getD (k - 1) 0 < e) ∧ (k < es.length → e < es.getD k 0) := by
  intro k hk
  have hf0 : 0 < f := by
    by_contra hc
    nlinarith
  have hn : 0 < es.length := List.length_pos_of_ne_nil he
  have hg : ∀ i < es.length, 0 < es.getD i 0 := fun i hi => by
    rw [List.getD_eq_getElem _ _ hi]
    exact hpos _ (List.getElem_mem hi)
  refine ⟨rNewExponent R f es k, ?_, ?_⟩
  · rw [rNextChoices_eq R f v cs es h he, List.getElem?_map, List.getElem?_range (by omega)]
    rfl
  unfold rNewExponent
  by_cases hk0 : k = 0
  · subst hk0
    refine ⟨fun h => absurd h (lt_irrefl 0), fun _ => ?_⟩
    rw [if_pos rfl]
    have hb := (Rel.of_fl h0 h1 (R.div_fl (es.getD 0 0) f)).bounds h0 h1 (div_pos (hg 0 hn) hf0).le
    have h2 := hb.2
    rw [pow_one, le_div_iff₀ hf0] at h2
    have h3 := hg 0 hn
    by_contra hc
    push Not at hc
    nlinarith [mul_le_mul_of_nonneg_right hc (by linarith : 0 ≤ f * (1 - u))]
  · rw [if_neg hk0]
    by_cases hkn : k = es.length
    · rw [if_pos hkn]
      refine ⟨fun _ => ?_, fun h => absurd h (by omega)⟩
      have h3 := hg (es.length - 1) (by omega)
      have hb := (Rel.of_fl h0 h1 (R.mul_fl (es.getD (es.length - 1) 0) f)).bounds h0 h1 (by positivity)
      rw [hkn]
      have h2 := hb.1
      rw [pow_one] at h2
      nlinarith
    · rw [if_neg hkn]
      have hgp := hgap (k - 1) (by omega)
      rw [Nat.sub_add_cancel (by omega)] at hgp
      have a1 := hg (k - 1) (by omega)
      have a2 := hg k (by omega)
      have hfl := R.add_fl (es.getD (k - 1) 0) (es.getD k 0)
      unfold Fl at hfl
      rw [abs_of_pos (by linarith : 0 < es.getD (k - 1) 0 + es.getD k 0), abs_le] at hfl
      exact ⟨fun _ => by linarith [hfl.1], fun _ => by linarith [hfl.2]⟩

omit h0 h1 in
/-- **C152** (kept).  The computed result of `remove_redundancies` is a subsequence of the exponents with pairwise distances of at
least `eps` up to a rounding error.  Whatever is dropped is closer than `eps`, up to a rounding error, to an earlier exponent. -/
theorem C152_kept (cs es : List ℝ) (eps : ℝ) (h : cs.length = es.length) :
    (rRemoveRedundancies R cs es eps).2.Sublist es ∧
      (rRemoveRedundancies R cs es eps).1.length = (rRemoveRedundancies R cs es eps).2.length ∧
      (rRemoveRedundancies R cs es eps).2.Pairwise (fun a b => eps ≤ (1 + u) * |a - b|) ∧
      ∃ kept : List ℕ, kept.Pairwise (· < ·) ∧ (rRemoveRedundancies R cs es eps).2 = kept.map (fun j => es.getD j 0) ∧
        ∀ j < es.length, j ∉ kept → ∃ i < j, (1 - u) * |es.getD i 0 - es.getD j 0| < eps := by
  obtain ⟨e1, e2⟩ := rRemove_eq R cs es eps h
  have up : ∀ x y : ℝ, |R.sub x y| ≤ (1 + u) * |x - y| := by
    intro x y
    have := R.sub_fl x y
    unfold Fl at this
    have t := abs_add_le (R.sub x y - (x - y)) (x - y)
    rw [sub_add_cancel] at t
    linarith
  have lo : ∀ x y : ℝ, (1 - u) * |x - y| ≤ |R.sub x y| := by
    intro x y
    have := R.sub_fl x y
    unfold Fl at this
    have t := abs_add_le ((x - y) - R.sub x y) (R.sub x y)
    rw [sub_add_cancel, abs_sub_comm (x - y) (R.sub x y)] at t
    linarith
  refine ⟨?_, by rw [e1, e2]; simp, ?_, rKept R es eps, List.pairwise_lt_range.filter _, e1, ?_⟩
  · rw [e1]
    have : es = (List.range es.length).map (fun j => es.getD j 0) := by
      apply List.ext_getElem (by simp)
      intro i h1 h2
      simp [h1]
    conv_rhs => rw [this]
    exact (List.filter_sublist).map _
  · rw [e1, List.pairwise_map]
    have hp : (rKept R es eps).Pairwise (· < ·) := List.pairwise_lt_range.filter _
    refine hp.imp_of_mem ?_
    intro i j _ hj hij
    have := ((mem_rKept R).mp hj).2 i hij
    unfold RSim at this
    exact (not_lt.mp this).trans (up _ _)
  · intro j hj hn
    rw [mem_rKept R] at hn
    push Not at hn
    obtain ⟨i, hi, hs⟩ := hn hj
    exact ⟨i, hi, (lo _ _).trans_lt hs⟩

theorem foldl_add_near (l : List ℝ) {k : ℕ} {a b B : ℝ} (hab : NearBy u k a b B) :
    NearBy u (k + l.length) (l.foldl R.add a) (b + l.sum) (B + (l.map fun y => |y|).sum) := by
  induction l generalizing k a b B with
  | nil => simpa using hab
  | cons x l ih =>
    have n1 := (hab.add h0 h1 ((NearBy.refl h0 h1 x).mono h0 h1 (Nat.zero_le k) le_rfl)).fl h0 h1 (R.add_fl a x)
    have := ih n1
    rw [List.foldl_cons, List.length_cons, List.sum_cons, List.map_cons, List.sum_cons]
    rw [add_assoc b, add_assoc B] at this
    exact this.mono h0 h1 (by omega) le_rfl

omit h0 h1 in
theorem sum_filter_le (f : ℕ → ℝ) (hf : ∀ j, 0 ≤ f j) (p : ℕ → Bool) (i : ℕ) (hi : p i = false) (l : List ℕ) (hl : i ∈ l) :
    f i + ((l.filter p).map f).sum ≤ (l.map f).sum := by
  have h1 : ∀ l : List ℕ, ((l.filter p).map f).sum ≤ (l.map f).sum := by
    intro l
    induction l with
    | nil => simp
    | cons x l ih =>
      by_cases hx : p x
      · rw [List.filter_cons_of_pos hx]; simpa using ih
      · rw [List.filter_cons_of_neg hx]
        have := hf x
        simp only [List.map_cons, List.sum_cons]
        linarith
  induction l with
  | nil => exact absurd hl List.not_mem_nil
  | cons x l ih =>
    by_cases hxi : i = x
    · subst hxi
      rw [List.filter_cons_of_neg (by simp [hi])]
      simpa using h1 l
    · have hl' : i ∈ l := by simpa [hxi] using hl
      have := ih hl'
      have hx0 := hf x
      by_cases hx : p x
      · rw [List.filter_cons_of_pos hx]
        simp only [List.map_cons, List.sum_cons]
        linarith
      · rw [List.filter_cons_of_neg hx]
        simp only [List.map_cons, List.sum_cons]
        linarith

/-- **C152** (same result).  If no distance of two exponents is within a rounding error of `eps`, the exponents are those of the
model, and every coefficient differs from that of the model by at most as many rounding errors as there are functions. -/
theorem C152_same (cs es : List ℝ) (eps : ℝ) (h : cs.length = es.length)
    (hd : ∀ i j, i < j → j < es.length → (1 + u) * |es.getD i 0 - es.getD j 0| < eps ∨
      eps ≤ (1 - u) * |es.getD i 0 - es.getD j 0|) :
    ∃ c : List ℝ, removeRedundancies (fins cs) (fins es) (XR.fin eps) = (fins c, fins (rRemoveRedundancies R cs es eps).2) ∧
      List.Forall₂ (fun x y => |x - y| ≤ (1 / (1 - u) ^ es.length - 1) * (cs.map fun y => |y|).sum)
        (rRemoveRedundancies R cs es eps).1 c := by
  obtain ⟨e1, e2⟩ := rRemove_eq R cs es eps h
  obtain ⟨f1, f2⟩ := C49_characterisation (fins cs) (fins es) (XR.fin eps) (by simpa using h)
  have hg : ∀ (l : List ℝ) i, (fins l).getD i 0 = XR.fin (l.getD i 0) := by
    intro l i; simp [List.getD_eq_getElem?_getD, List.getElem?_map]
  have hsim : ∀ i j, i < j → j < es.length → (Similar (fins es) (XR.fin eps) i j ↔ RSim R es eps i j) := by
    intro i j hij hj
    have s1 : Similar (fins es) (XR.fin eps) i j ↔ |es.getD i 0 - es.getD j 0| < eps := by
      unfold Similar
      rw [hg, hg, XR.sub_fin, XR.abs_fin]
      simp
    rw [s1]
    unfold RSim
    have hfl := R.sub_fl (es.getD i 0) (es.getD j 0)
    unfold Fl at hfl
    have t1 := abs_add_le (R.sub (es.getD i 0) (es.getD j 0) - (es.getD i 0 - es.getD j 0)) (es.getD i 0 - es.getD j 0)
    rw [sub_add_cancel] at t1
    have t2 := abs_add_le ((es.getD i 0 - es.getD j 0) - R.sub (es.getD i 0) (es.getD j 0)) (R.sub (es.getD i 0) (es.getD j 0))
    rw [sub_add_cancel, abs_sub_comm (es.getD i 0 - es.getD j 0)] at t2
    have ha := abs_nonneg (es.getD i 0 - es.getD j 0)
    rcases hd i j hij hj with hh | hh
    · exact ⟨fun _ => by nlinarith, fun _ => by nlinarith⟩
    · exact ⟨fun hx => absurd hx (by nlinarith), fun hx => absurd hx (by nlinarith)⟩
  have hkept : keptPos (fins es) (XR.fin eps) = rKept R es eps := by
    unfold keptPos rKept
    rw [fins_length]
    apply List.filter_congr
    intro j hj
    have hj := List.mem_range.mp hj
    rw [decide_eq_decide]
    exact forall_congr' fun i => forall_congr' fun hi => not_congr (hsim i j hi hj)
  have hfil : ∀ i, (List.range (fins es).length).filter (fun j => decide (i < j ∧ Similar (fins es) (XR.fin eps) i j)) =
      (List.range es.length).filter (fun j => decide (i < j ∧ RSim R es eps i j)) := by
    intro i
    rw [fins_length]
    apply List.filter_congr
    intro j hj
    have hj := List.mem_range.mp hj
    rw [decide_eq_decide]
    exact and_congr_right fun hi => hsim i j hi hj
  refine ⟨(rKept R es eps).map (fun i => cs.getD i 0 +
      (((List.range es.length).filter (fun j => decide (i < j ∧ RSim R es eps i j))).map (fun j => cs.getD j 0)).sum), ?_, ?_⟩
  · have hm : ∀ (g : ℕ → ℝ) (K : List ℕ), fins (K.map g) = K.map (fun i => XR.fin (g i)) := fun g K => by simp [fins]
    refine Prod.ext ?_ ?_
    · rw [f2, hkept]
      show _ = fins _
      rw [hm]
      apply List.map_congr_left
      intro i _
      rw [hfil, hg]
      rw [← XR.add_fin, ← sum_fins, hm]
      congr 2
      apply List.map_congr_left
      intro j _
      exact hg cs j
    · rw [f1, hkept]
      show _ = fins _
      rw [e1, hm]
      apply List.map_congr_left
      intro i _
      exact hg es i
  · rw [e2, List.forall₂_map_left_iff, List.forall₂_map_right_iff, List.forall₂_same]
    intro i hi
    have hi := ((mem_rKept R).mp hi).1
    have n := foldl_add_near R h0 h1
      (((List.range es.length).filter (fun j => decide (i < j ∧ RSim R es eps i j))).map (fun j => cs.getD j 0))
      (NearBy.refl h0 h1 (cs.getD i 0))
    refine (n.mono h0 h1 (l := es.length) ?_ ?_).1
    · have := List.length_filter_le (fun j => decide (i < j ∧ RSim R es eps i j)) (List.range es.length)
      rw [List.length_range] at this
      simpa using this
    · have hc : cs.map (fun y => |y|) = (List.range es.length).map (fun j => |cs.getD j 0|) := by
        apply List.ext_getElem (by simp [h])
        intro k k1 k2
        have hk : k < cs.length := by simpa using k1
        simp [hk]
      rw [hc, List.map_map]
      exact sum_filter_le (fun j => |cs.getD j 0|) (fun j => abs_nonneg _) _ i (by simp) _ (List.mem_range.mpr hi)

end

/-- **C152** (exact).  The functions of the model are those with exact operations. -/
theorem C152_exact {u : ℝ} (h0 : 0 ≤ u) : ∃ R : ROps u, ∀ cs es : List ℝ, cs.length = es.length →
    (∀ eps, removeRedundancies (fins cs) (fins es) (XR.fin eps) =
      (fins (rRemoveRedundancies R cs es eps).1, fins (rRemoveRedundancies R cs es eps).2)) ∧
    ∀ f v, f ≠ 0 → es ≠ [] →
      getNextChoices (XR.fin f) (fins cs) (fins es) (XR.fin v) = (rNextChoices R f cs es v).map fins := by
  have fr : ∀ x : ℝ, Fl u x x := fun x => by
    unfold Fl
    simpa using mul_nonneg h0 (abs_nonneg x)
  refine ⟨⟨(· + ·), (· - ·), (· * ·), (· / ·), fun _ _ => fr _, fun _ _ => fr _, fun _ _ => fr _, fun _ _ => fr _⟩, ?_⟩
  intro cs es h
  constructor
  · intro eps
    let R0 : ROps (0 : ℝ) := ⟨(· + ·), (· - ·), (· * ·), (· / ·), fun x y => by simp [Fl], fun x y => by simp [Fl],
      fun x y => by simp [Fl], fun x y => by simp [Fl]⟩
    obtain ⟨c, hc, hF⟩ := C152_same R0 le_rfl one_pos cs es eps h (by
      intro i j _ _
      rw [add_zero, sub_zero, one_mul]
      exact lt_or_ge _ _)
    have : (rRemoveRedundancies R0 cs es eps).1 = c := by
      rw [← List.forall₂_eq_eq_eq]
      refine hF.imp ?_
      intro x y hxy
      simp only [sub_zero, one_pow, div_one, sub_self, zero_mul] at hxy
      exact sub_eq_zero.mp (abs_eq_zero.mp (le_antisymm hxy (abs_nonneg _)))
    rw [hc, ← this]
    rfl
  · intro f v hf he
    rw [rNextChoices_eq _ f v cs es h he, C46_next_choices _ _ _ _ (by simpa using h) (by simpa using he), fins_length,
      List.map_map]
    apply List.map_congr_left
    intro k hk
    have hk : k ≤ es.length := by have := List.mem_range.mp hk; omega
    obtain ⟨e, hen, e0, e1, e2⟩ := newExponent_fins f hf es k he hk
    rw [hen]
    simp only [Function.comp_apply, fins, List.map_append, List.map_insertIdx]
    congr 3
    unfold rNewExponent
    by_cases hk0 : k = 0
    · rw [if_pos hk0, e0 hk0]
    · rw [if_neg hk0]
      by_cases hkn : k = es.length
      · rw [if_pos hkn, e1 hkn]
      · rw [if_neg hkn, e2 hk0 hkn]

/-- Example: the exponents 1, 2, 2.0001 and the threshold of the source meet the hypotheses of `C152_same` and the first two
those of `C152_between`, in double precision. -/
example : (∀ i j, i < j → j < [(1 : ℝ), 2, 2.0001].length →
      (1 + 2⁻¹ ^ 53) * |[(1 : ℝ), 2, 2.0001].getD i 0 - [(1 : ℝ), 2, 2.0001].getD j 0| < 0.001 ∨
      0.001 ≤ (1 - 2⁻¹ ^ 53) * |[(1 : ℝ), 2, 2.0001].getD i 0 - [(1 : ℝ), 2, 2.0001].getD j 0|) ∧
    ∀ k, k + 1 < [(1 : ℝ), 2].length →
      2⁻¹ ^ 53 * ([(1 : ℝ), 2].getD k 0 + [(1 : ℝ), 2].getD (k + 1) 0) < [(1 : ℝ), 2].getD (k + 1) 0 - [(1 : ℝ), 2].getD k 0 := by
  constructor
  · intro i j hij hj
    simp only [List.length_cons, List.length_nil] at hj
    interval_cases j
    · omega
    · have : i = 0 := by omega
      subst this
      right; norm_num [abs_of_neg]
    · interval_cases i
      · right; norm_num [abs_of_neg]
      · left; norm_num [abs_of_neg]
  · intro k hk
    have : k = 0 := by simp at hk; omega
    subst this
    norm_num

end
end BFit
