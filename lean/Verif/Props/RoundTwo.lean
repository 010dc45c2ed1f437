import Verif.Model.RoundTwo
import Verif.Lemmas.RoundQuad
import Verif.Props.RoundGreedy

/-!
C154: the pick-two and pick-two-lose-one guesses when every operation is rounded.
-/

namespace BFit

open Classical

noncomputable section

section
variable {u : ℝ} (R : ROps u)

/-- One insertion. -/
def rWithNew (f v : ℝ) (p : List ℝ × List ℝ) (k : ℕ) : List ℝ × List ℝ :=
  (p.1.insertIdx k v, p.2.insertIdx k (rNewExponent R f p.2 k))

theorem rInsertAt_eq (f v : ℝ) (cs es : List ℝ) (i : ℕ) (h : cs.length = es.length) (hi : i < es.length) :
    rInsertAt R f v cs es i = rWithNew R f v (cs, es) i := by
  unfold rInsertAt rWithNew rNewExponent
  by_cases h0 : i = 0
  · subst h0
    simp [npInsert_eq_insertIdx]
  · rw [if_neg h0, if_neg h0, if_neg hi.ne, npInsert_eq_insertIdx _ _ _ (by omega), npInsert_eq_insertIdx _ _ _ (by omega)]

theorem r_endpoint_eq (f v : ℝ) (cs es : List ℝ) (h : cs.length = es.length) (he : es ≠ []) :
    (cs ++ [v], es ++ [R.mul (es.getD (es.length - 1) 0) f]) = rWithNew R f v (cs, es) es.length := by
  unfold rWithNew rNewExponent
  have : es.length ≠ 0 := by simpa using he
  rw [if_neg this, if_pos rfl, append_singleton_eq_insertIdx, append_singleton_eq_insertIdx, h]

theorem rNextPairs_eq (f v : ℝ) (cs es : List ℝ) (h : cs.length = es.length) (he : es ≠ []) :
    rNextPairs R f cs es v = (List.range (es.length + 1)).map (rWithNew R f v (cs, es)) := by
  have hn : es.length ≠ 0 := by simpa using he
  unfold rNextPairs
  have := flatMap_range_last es.length hn (fun i => [rInsertAt R f v cs es i])
    (fun i => [(cs ++ [v], es ++ [R.mul (es.getD i 0) f])])
  simp only [List.singleton_append] at this
  simp only [this, r_endpoint_eq R f v cs es h he]
  rw [List.range_succ, List.map_append]
  congr 1
  rw [← List.map_eq_flatMap]
  apply List.map_congr_left
  intro i hi
  exact rInsertAt_eq _ _ _ _ _ _ h (List.mem_range.mp hi)

theorem rWithNew_length (f v : ℝ) (cs es : List ℝ) (h : cs.length = es.length) (i : ℕ) (hi : i ≤ es.length) :
    (rWithNew R f v (cs, es) i).1.length = es.length + 1 ∧ (rWithNew R f v (cs, es) i).2.length = es.length + 1 := by
  constructor
  · simp only [rWithNew]; rw [List.length_insertIdx_of_le_length (by omega)]; omega
  · simp only [rWithNew]; rw [List.length_insertIdx_of_le_length hi]

/-- The pairs of the pick-two guesses. -/
theorem rTwo_eq (f v : ℝ) (cs es : List ℝ) (h : cs.length = es.length) (he : es ≠ []) :
    rTwoNextChoices R f cs es v = ((List.range (es.length + 1)).flatMap (fun i =>
      (List.range' i (es.length + 2 - i)).map (fun k => rWithNew R f v (rWithNew R f v (cs, es) i) k))).map
        (fun p => p.1 ++ p.2) := by
  have hn : es.length ≠ 0 := by simpa using he
  unfold rTwoNextChoices
  simp only
  have hp : ∀ i, i ≤ es.length → rNextPairs R f (rWithNew R f v (cs, es) i).1 (rWithNew R f v (cs, es) i).2 v =
      (List.range (es.length + 2)).map (rWithNew R f v (rWithNew R f v (cs, es) i)) := by
    intro i hi
    obtain ⟨h1, h2⟩ := rWithNew_length R f v cs es h i hi
    rw [rNextPairs_eq _ _ _ _ _ (by omega) (by rw [← List.length_pos_iff]; omega), h2]
  rw [flatMap_range_last es.length hn
    (fun i => sliceFrom (rNextPairs R f (rInsertAt R f v cs es i).1 (rInsertAt R f v cs es i).2 v) i)
    (fun i => sliceFrom (rNextPairs R f (cs ++ [v]) (es ++ [R.mul (es.getD i 0) f]) v) (-2))]
  have hend := r_endpoint_eq R f v cs es h he
  have e1 : cs ++ [v] = (rWithNew R f v (cs, es) es.length).1 := by rw [← hend]
  have e2 : es ++ [R.mul (es.getD (es.length - 1) 0) f] = (rWithNew R f v (cs, es) es.length).2 := by rw [← hend]
  rw [e1, e2, hp _ le_rfl, List.range_succ (n := es.length), List.flatMap_append]
  have hdrop : ∀ i, i ≤ es.length → (List.range (es.length + 2)).drop i = List.range' i (es.length + 2 - i) := by
    intro i hi; rw [List.range_eq_range', List.drop_range']; simp
  congr 2
  · apply List.flatMap_congr
    intro i hi
    have hi := List.mem_range.mp hi
    rw [rInsertAt_eq _ _ _ _ _ _ h hi, hp i hi.le, sliceFrom_nat, ← List.map_drop, hdrop i hi.le]
  · have : sliceFrom ((List.range (es.length + 2)).map (rWithNew R f v (rWithNew R f v (cs, es) es.length))) (-2) =
        ((List.range (es.length + 2)).map (rWithNew R f v (rWithNew R f v (cs, es) es.length))).drop es.length := by
      unfold sliceFrom
      rw [if_neg (by omega)]
      congr 1
      simp
    rw [this, ← List.map_drop, hdrop _ le_rfl]
    simp

theorem forall₂_insertIdx₂ {r : ℝ → ℝ → Prop} {a b : ℝ} (hab : r a b) {l m : List ℝ} (h : List.Forall₂ r l m) (k : ℕ) :
    List.Forall₂ r (l.insertIdx k a) (m.insertIdx k b) := by
  induction h generalizing k with
  | nil =>
    cases k with
    | zero => exact .cons hab .nil
    | succ k => simp
  | cons x l ih =>
    cases k with
    | zero => exact .cons hab (.cons x l)
    | succ k => exact .cons x (ih k)

theorem forall₂_eraseIdx₂ {r : ℝ → ℝ → Prop} {l m : List ℝ} (h : List.Forall₂ r l m) (k : ℕ) :
    List.Forall₂ r (l.eraseIdx k) (m.eraseIdx k) := by
  induction h generalizing k with
  | nil => exact .nil
  | cons x l ih =>
    cases k with
    | zero => exact l
    | succ k => exact .cons x (ih k)

theorem forall₂_flatMap₂ {α β γ δ : Type} {r : α → β → Prop} {s : γ → δ → Prop} {l : List α} {m : List β} {f : α → List γ}
    {g : β → List δ} (h : List.Forall₂ r l m) (hfg : ∀ a b, r a b → List.Forall₂ s (f a) (g b)) :
    List.Forall₂ s (l.flatMap f) (m.flatMap g) := by
  induction h with
  | nil => exact .nil
  | cons x _ ih =>
    rw [List.flatMap_cons, List.flatMap_cons]
    exact List.rel_append (hfg _ _ x) ih

variable (h0 : 0 ≤ u) (h1 : u < 1)
include h0 h1

/-- A computed and an exact pair: the same coefficients, exponents with `j` rounding errors, all positive. -/
def RPair (u : ℝ) (j n : ℕ) (p : List ℝ × List ℝ) (q : List XR × List XR) : Prop :=
  ∃ e, q = (fins p.1, fins e) ∧ p.1.length = n ∧ p.2.length = n ∧ List.Forall₂ (Rel u j) p.2 e ∧ ∀ a ∈ e, 0 < a

theorem RPair.step {f v : ℝ} (hf : 0 < f) {j n k : ℕ} {p : List ℝ × List ℝ} {q : List XR × List XR} (h : RPair u j n p q)
    (hn : n ≠ 0) (hk : k ≤ n) : RPair u (j + 1) (n + 1) (rWithNew R f v p k) (withNew (XR.fin f) (XR.fin v) q k) := by
  obtain ⟨c, e'⟩ := p
  obtain ⟨e, rfl, l1, l2, hr, hp⟩ := h
  simp only at l1 l2 hr
  have hl := hr.length_eq
  have he : e ≠ [] := by rw [← List.length_pos_iff]; omega
  obtain ⟨a, han, a0, a1, a2⟩ := newExponent_fins f hf.ne' e k he (by omega)
  have hg : ∀ i < e.length, 0 < e.getD i 0 ∧ Rel u j (e'.getD i 0) (e.getD i 0) := fun i hi => by
    rw [List.getD_eq_getElem _ _ hi, List.getD_eq_getElem _ _ (hl ▸ hi)]
    exact ⟨hp _ (List.getElem_mem hi), hr.get (hl ▸ hi) hi⟩
  have key : 0 < a ∧ Rel u (j + 1) (rNewExponent R f e' k) a := by
    unfold rNewExponent
    by_cases hk0 : k = 0
    · rw [if_pos hk0, a0 hk0]
      obtain ⟨g1, g2⟩ := hg 0 (by omega)
      exact ⟨div_pos g1 hf, ((Rel.of_fl h0 h1 (R.div_fl _ _)).trans h0 h1 (g2.div h0 h1 (Rel.refl h0 h1 f))).mono h0 h1 (by omega)⟩
    · rw [if_neg hk0]
      by_cases hkn : k = e.length
      · rw [if_pos (by omega), a1 hkn, hl]
        obtain ⟨g1, g2⟩ := hg (e.length - 1) (by omega)
        exact ⟨mul_pos g1 hf, ((Rel.of_fl h0 h1 (R.mul_fl _ _)).trans h0 h1 (g2.mul h0 h1 (Rel.refl h0 h1 f))).mono h0 h1 (by omega)⟩
      · rw [if_neg (by omega), a2 hk0 hkn]
        obtain ⟨g1, g2⟩ := hg (k - 1) (by omega)
        obtain ⟨g3, g4⟩ := hg k (by omega)
        refine ⟨by positivity, ?_⟩
        have := (Rel.of_fl h0 h1 (R.add_fl (e'.getD (k - 1) 0) (e'.getD k 0))).trans h0 h1 (g2.add h0 h1 g4 g1.le g3.le)
        exact (this.div h0 h1 (Rel.refl h0 h1 2)).mono h0 h1 (by omega)
  refine ⟨e.insertIdx k a, ?_, ?_, ?_, ?_, ?_⟩
  · simp only [withNew, rWithNew]
    rw [han, fins, fins, fins, fins, List.map_insertIdx, List.map_insertIdx]
  · simp only [rWithNew]; rw [List.length_insertIdx_of_le_length (by omega)]; omega
  · simp only [rWithNew]; rw [List.length_insertIdx_of_le_length (by omega)]; omega
  · exact forall₂_insertIdx₂ key.2 (hr.imp fun _ _ h => h.mono h0 h1 (by omega)) k
  · intro b hb
    rcases List.eq_or_mem_of_mem_insertIdx hb with rfl | hb
    · exact key.1
    · exact hp b hb

theorem rTwo_pairs (f v : ℝ) (hf : 0 < f) (cs es : List ℝ) (h : cs.length = es.length) (he : es ≠ []) (hpos : ∀ e ∈ es, 0 < e) :
    List.Forall₂ (RPair u 2 (es.length + 2))
      ((List.range (es.length + 1)).flatMap (fun i =>
        (List.range' i (es.length + 2 - i)).map (fun k => rWithNew R f v (rWithNew R f v (cs, es) i) k)))
      ((List.range (es.length + 1)).flatMap (fun i => (List.range' i (es.length + 2 - i)).map (fun k =>
        withNew (XR.fin f) (XR.fin v) (withNew (XR.fin f) (XR.fin v) (fins cs, fins es) i) k))) := by
  have hn : es.length ≠ 0 := by simpa using he
  have p0 : RPair u 0 es.length (cs, es) (fins cs, fins es) :=
    ⟨es, rfl, h, rfl, List.forall₂_same.mpr fun x _ => Rel.refl h0 h1 x, hpos⟩
  refine forall₂_flatMap₂ (r := fun a b => a = b ∧ a ≤ es.length)
    (List.forall₂_same.mpr fun i hi => ⟨rfl, by have := List.mem_range.mp hi; omega⟩) ?_
  rintro i _ ⟨rfl, hi⟩
  rw [List.forall₂_map_left_iff, List.forall₂_map_right_iff, List.forall₂_same]
  intro k hk
  have hk := List.mem_range'_1.mp hk
  exact (p0.step R h0 h1 hf hn hi).step R h0 h1 hf (by omega) (by omega)

/-- **C154 (pick-two).** The computed guesses of the pick-two strategy are those of the model in the same order, with the same
coefficients and with positive exponents that have at most two rounding errors. -/
theorem C154_two (f v : ℝ) (hf : 0 < f) (cs es : List ℝ) (h : cs.length = es.length) (he : es ≠ []) (hpos : ∀ e ∈ es, 0 < e) :
    List.Forall₂ (fun x y => ∃ c e e' : List ℝ, x = c ++ e' ∧ y = fins (c ++ e) ∧ c.length = es.length + 2 ∧
        e'.length = es.length + 2 ∧ List.Forall₂ (Rel u 2) e' e ∧ ∀ a ∈ e', 0 < a)
      (rTwoNextChoices R f cs es v) (getTwoNextChoices (XR.fin f) (fins cs) (fins es) (XR.fin v)) := by
  have hC : getTwoNextChoices (XR.fin f) (fins cs) (fins es) (XR.fin v) =
      ((List.range (es.length + 1)).flatMap (fun i => (List.range' i (es.length + 2 - i)).map (fun k =>
        withNew (XR.fin f) (XR.fin v) (withNew (XR.fin f) (XR.fin v) (fins cs, fins es) i) k))).map (fun p => p.1 ++ p.2) := by
    rw [C47_two_choices _ _ _ _ (by simpa using h) (by simpa using he), List.map_flatMap, fins_length]
    simp only [List.map_map]
    rfl
  rw [rTwo_eq R f v cs es h he, hC, List.forall₂_map_left_iff, List.forall₂_map_right_iff]
  refine (rTwo_pairs R h0 h1 f v hf cs es h he hpos).imp ?_
  rintro p _ ⟨e, rfl, l1, l2, hr, hp⟩
  refine ⟨p.1, e, p.2, rfl, by simp [fins], l1, l2, hr, fun a ha => ?_⟩
  obtain ⟨i, hi, rfl⟩ := List.getElem_of_mem ha
  have hi' : i < e.length := hr.length_eq ▸ hi
  exact (hr.get hi hi').pos h0 h1 (hp _ (List.getElem_mem hi'))

/-- **C154 (pick-two-lose-one).** The same for the pick-two-lose-one strategy. -/
theorem C154_lose (f v : ℝ) (hf : 0 < f) (cs es : List ℝ) (h : cs.length = es.length) (he : es ≠ []) (hpos : ∀ e ∈ es, 0 < e) :
    List.Forall₂ (fun x y => ∃ c e e' : List ℝ, x = c ++ e' ∧ y = fins (c ++ e) ∧ c.length = es.length + 1 ∧
        e'.length = es.length + 1 ∧ List.Forall₂ (Rel u 2) e' e ∧ ∀ a ∈ e', 0 < a)
      (rPickTwoLoseOne R f cs es v) (pickTwoLoseOne (XR.fin f) (fins cs) (fins es) (XR.fin v)) := by
  unfold rPickTwoLoseOne pickTwoLoseOne
  refine forall₂_flatMap₂ (C154_two R h0 h1 f v hf cs es h he hpos) ?_
  rintro _ _ ⟨c, e, e', rfl, rfl, l1, l2, hr, hp⟩
  have l3 : e.length = es.length + 2 := by rw [← hr.length_eq, l2]
  have n1 : (c ++ e').length / 2 = es.length + 2 := by rw [List.length_append]; omega
  have n2 : (fins (c ++ e)).length / 2 = es.length + 2 := by rw [fins_length, List.length_append]; omega
  simp only [n1, n2]
  rw [List.forall₂_map_left_iff, List.forall₂_map_right_iff, List.forall₂_same]
  intro j hj
  have hj := List.mem_range.mp hj
  have hs : fins (c ++ e) = fins c ++ fins e := by simp [fins]
  rw [npDelete_singleton, npDelete_singleton, npDelete_singleton, npDelete_singleton, List.take_left' l1, List.drop_left' l1, hs,
    List.take_left' (by simpa using l1), List.drop_left' (by simpa using l1)]
  refine ⟨c.eraseIdx j, e.eraseIdx j, e'.eraseIdx j, rfl, ?_, ?_, ?_, forall₂_eraseIdx₂ hr j,
    fun a ha => hp a (List.mem_of_mem_eraseIdx ha)⟩
  · simp [fins, List.eraseIdx_map]
  · rw [List.length_eraseIdx_of_lt (by omega)]; omega
  · rw [List.length_eraseIdx_of_lt (by omega)]; omega

end

theorem forall₂_rel_zero {k : ℕ} {l m : List ℝ} (h : List.Forall₂ (Rel 0 k) l m) : l = m := by
  rw [← List.forall₂_eq_eq_eq]
  refine h.imp fun a b hab => ?_
  have := hab.abs_sub le_rfl one_pos
  simp only [sub_zero, one_pow, div_one, sub_self, zero_mul] at this
  exact sub_eq_zero.mp (abs_eq_zero.mp (le_antisymm this (abs_nonneg _)))

/-- **C154 (exact).** Exact operations are possible and give the guesses of the model. -/
theorem C154_exact {u : ℝ} (h0 : 0 ≤ u) : ∃ R : ROps u, ∀ (f v : ℝ) (cs es : List ℝ), 0 < f → cs.length = es.length → es ≠ [] →
    (∀ e ∈ es, 0 < e) →
    getTwoNextChoices (XR.fin f) (fins cs) (fins es) (XR.fin v) = (rTwoNextChoices R f cs es v).map fins ∧
      pickTwoLoseOne (XR.fin f) (fins cs) (fins es) (XR.fin v) = (rPickTwoLoseOne R f cs es v).map fins := by
  have fr : ∀ x : ℝ, Fl u x x := fun x => by
    unfold Fl
    simpa using mul_nonneg h0 (abs_nonneg x)
  refine ⟨⟨(· + ·), (· - ·), (· * ·), (· / ·), fun _ _ => fr _, fun _ _ => fr _, fun _ _ => fr _, fun _ _ => fr _⟩, ?_⟩
  intro f v cs es hf h he hpos
  let R0 : ROps (0 : ℝ) := ⟨(· + ·), (· - ·), (· * ·), (· / ·), fun x y => by simp [Fl], fun x y => by simp [Fl],
    fun x y => by simp [Fl], fun x y => by simp [Fl]⟩
  have key : ∀ {l : List (List ℝ)} {m : List (List XR)} {n : ℕ},
      List.Forall₂ (fun x y => ∃ c e e' : List ℝ, x = c ++ e' ∧ y = fins (c ++ e) ∧ c.length = n ∧ e'.length = n ∧
        List.Forall₂ (Rel 0 2) e' e ∧ ∀ a ∈ e', 0 < a) l m → m = l.map fins := by
    intro l m n hF
    induction hF with
    | nil => rfl
    | cons hx _ ih =>
      obtain ⟨c, e, e', rfl, rfl, -, -, hr, -⟩ := hx
      rw [List.map_cons, ih, forall₂_rel_zero hr]
  exact ⟨key (C154_two R0 le_rfl one_pos f v hf cs es h he hpos), key (C154_lose R0 le_rfl one_pos f v hf cs es h he hpos)⟩

/-- One function: five guesses, the first of them with the exponents `1/4`, `1/2` up to two rounding errors. -/
example (R : ROps (1 / 1000)) : (rTwoNextChoices R 2 [5] [1] 100).length = 5 ∧ ∃ a b, (rTwoNextChoices R 2 [5] [1] 100).head? = some [100, 100, 5, a, b, 1] ∧
    Rel (1 / 1000) 2 a (1 / 4) ∧ Rel (1 / 1000) 2 b (1 / 2) := by
  have := C154_two R (by norm_num) (by norm_num) 2 100 (by norm_num) [5] [1] rfl (by simp) (by simp)
  have hc := C47_count (XR.fin 2) (XR.fin 100) (fins [5]) (fins [1]) rfl (by simp)
  rw [show (fins [1]).length = 1 from rfl] at hc
  refine ⟨by rw [this.length_eq]; omega, ?_⟩
  rw [rTwo_eq R 2 100 [5] [1] rfl (by simp)]
  refine ⟨R.div (R.div 1 2) 2, R.div 1 2, by simp [rWithNew, rNewExponent, List.range_succ, List.range'_succ], ?_, ?_⟩
  · have a := (Rel.of_fl (by norm_num) (by norm_num) (R.div_fl (R.div 1 2) 2)).trans (by norm_num) (by norm_num)
      ((Rel.of_fl (by norm_num) (by norm_num) (R.div_fl 1 2)).div (by norm_num) (by norm_num)
        (Rel.refl (by norm_num) (by norm_num) 2))
    norm_num at a ⊢
    exact a
  · exact (Rel.of_fl (by norm_num) (by norm_num) (R.div_fl 1 2)).mono (by norm_num) (by norm_num) (by omega)

end
end BFit
