import Verif.Lemmas.Round

/-! Rounded integrals and basis functions compared with the exact ones. -/

namespace BFit

open Real Classical Finset

noncomputable section

theorem Fl.refl {u : ℝ} (h0 : 0 ≤ u) (x : ℝ) : Fl u x x := by
  simp only [Fl, sub_self, abs_zero]
  positivity

theorem Fl.zero {v x : ℝ} (h : Fl 0 v x) : v = x := by
  simp only [Fl, zero_mul] at h
  have := abs_nonpos_iff.mp h
  linarith

theorem Fu.refl {u τ : ℝ} (h0 : 0 ≤ u) (x : ℝ) : Fu u τ x x := .inl (Fl.refl h0 x)

theorem Fu.zero {τ v x : ℝ} (h : Fu 0 τ v x) : v = x := by
  rcases h with h | ⟨-, -, h, -⟩
  · exact h.zero
  · rw [zero_mul] at h
    have := abs_nonpos_iff.mp h
    linarith

theorem Fu.nonneg {u τ v x : ℝ} (h0 : 0 ≤ u) (h1 : u < 1) (h : Fu u τ v x) (hx : 0 ≤ x) : 0 ≤ v := by
  rcases h with h | ⟨h, -, -, h2⟩
  · exact (Rel.of_fl h0 h1 h).nonneg h0 h1 hx
  · exact nonneg_of_mul_nonneg_left h2 (lt_of_le_of_ne hx (abs_pos.mp h).symm)

/-- The exact sum is admissible. -/
theorem RSum.exact {u : ℝ} (h0 : 0 ≤ u) (l : List ℝ) : RSum u l l.sum := by
  induction l with
  | nil => exact RSum.nil
  | cons a l ih =>
    by_cases hl : l = []
    · subst hl
      simpa using RSum.one a
    · exact RSum.add (RSum.one a) ih (by simp) hl (by simp) (by simpa using Fl.refl h0 _)

/-- Grids on which the integral of a non-negative function is non-negative: ascending radial points, non-negative
weights. -/
def Grid.Positive : Grid → Prop
  | .radial g => ∃ x : List ℝ, g.points = fins x ∧ x.Pairwise (· ≤ ·)
  | .cubic g => ∃ w : List ℝ, g.weights = fins w ∧ ∀ a ∈ w, 0 ≤ a

/-- Grids with finite coordinates, and one finite weight per point. -/
def Grid.Finite : Grid → Prop
  | .radial g => ∃ x : List ℝ, g.points = fins x
  | .cubic g => ∃ w : List ℝ, g.weights = fins w ∧ w.length = g.points.length

theorem step_nonneg {x : List ℝ} (hx : x.Pairwise (· ≤ ·)) {i : ℕ} (hi : i + 1 < x.length) :
    0 ≤ x.getD (i + 1) 0 - x.getD i 0 := by
  rw [List.getD_eq_getElem _ _ hi, List.getD_eq_getElem _ _ (by omega)]
  have := List.pairwise_iff_getElem.mp hx i (i + 1) (by omega) hi (by omega)
  linarith

/-- The exact trapezoid sum of a table. -/
theorem quad_radial_value (x : List ℝ) (y : ℕ → ℝ) :
    integrateOn (.radial ⟨fins x⟩) false (fins (tab x.length y)) =
      .ok (XR.fin (∑ i ∈ range (x.length - 1),
        (x.getD (i + 1) 0 - x.getD i 0) * (y (i + 1) + y i) / 2)) := by
  unfold integrateOn
  rw [if_neg (by simp)]
  show (RadialGrid.mk (fins x)).integrate _ = _
  rw [C02_trapezoid_areas x _ (by simp), trapezoidAreas]
  congr 2
  refine sum_congr rfl fun i hi => ?_
  have hi := mem_range.mp hi
  rw [tab_getD _ _ _ (by omega), tab_getD _ _ _ (by omega)]
  ring

theorem quad_radial_spherical (x : List ℝ) (y : ℕ → ℝ) :
    integrateOn (.radial ⟨fins x⟩) true (fins (tab x.length y)) =
      .ok (XR.fin (∑ i ∈ range (x.length - 1), (x.getD (i + 1) 0 - x.getD i 0) *
        (y (i + 1) * 4 * π * x.getD (i + 1) 0 ^ 2 + y i * 4 * π * x.getD i 0 ^ 2) / 2)) := by
  have h1 := (quad_spherical x).fin y
  have h2 := (quad_plain (hasWeights_radial x)).fin fun i => y i * 4 * π * x.getD i 0 ^ 2
  rw [trapW_length] at h2
  rw [quad_radial_value] at h2
  rw [h1]
  congr 2
  injection h2 with h2
  injection h2 with h2
  rw [h2]
  refine sum_congr rfl fun i _ => ?_
  simp only [vec]
  ring

theorem quad_cubic_value {g : CubicGrid} {w : List ℝ} (hw : g.weights = fins w)
    (hl : w.length = g.points.length) (y : ℕ → ℝ) :
    integrateOn (.cubic g) false (fins (tab w.length y)) =
      .ok (XR.fin (∑ i ∈ range w.length, w.getD i 0 * y i)) := by
  unfold integrateOn
  rw [if_neg (by simp)]
  show g.integrate _ = _
  unfold CubicGrid.integrate ND.vec
  rw [if_neg (by simp [hl]), if_pos (by simp [hw, hl])]
  simp only [hw]
  have e : fins w = fins (tab w.length (vec w)) := by rw [tab, ← eq_range_map w _ rfl]
  rw [e, zipWith_tab (g := fun a b => a * b) (by simp), sum_fins, sum_tab_range]
  rfl

section
variable {u : ℝ} (h0 : 0 ≤ u) (h1 : u < 1)
include h0 h1

theorem Rel.add {k : ℕ} {a b c d : ℝ} (h : Rel u k a b) (h' : Rel u k c d) (hb : 0 ≤ b) (hd : 0 ≤ d) :
    Rel u k (a + c) (b + d) := by
  have e1 := h.bounds h0 h1 hb
  have e2 := h'.bounds h0 h1 hd
  exact Rel.of_bounds h0 h1 (add_nonneg hb hd) (by linarith [e1.1, e2.1]) (by linarith [e1.2, e2.2])

/-- Trapezoid sum of computed values on an ascending grid. -/
theorem RTrapz.rel_nonneg {x : List ℝ} (hx : x.Pairwise (· ≤ ·)) {y z : ℕ → ℝ} {v : ℝ} {j : ℕ}
    (h : RTrapz u 0 x.length (x.getD · 0) y v) (hy : ∀ i < x.length, Rel u j (y i) (z i))
    (hz : ∀ i < x.length, 0 ≤ z i) :
    Rel u (x.length + 2 + j) v
      (∑ i ∈ range (x.length - 1), (x.getD (i + 1) 0 - x.getD i 0) * (z (i + 1) + z i) / 2) := by
  obtain ⟨b, hb, rfl⟩ := h.rel h0 h1
  refine Rel.sum h0 h1 (fun i hi => ?_) fun i hi => ?_
  · refine (hb i hi).trans h0 h1 ?_
    have := ((Rel.refl h0 h1 (x.getD (i + 1) 0 - x.getD i 0)).mul h0 h1
      ((hy (i + 1) (by omega)).add h0 h1 (hy i (by omega)) (hz _ (by omega)) (hz _ (by omega)))).div h0 h1
      (Rel.refl h0 h1 2)
    simpa using this
  · have := step_nonneg hx (i := i) (by omega)
    have := hz i (by omega)
    have := hz (i + 1) (by omega)
    positivity

/-- An integral of computed non-negative values on a grid with non-negative weights. -/
theorem RIntegrate.rel {grid : Grid} {s : Bool} {N : ℕ} {W : ℕ → ℝ} (hg : grid.Positive)
    (hN : N = grid.len) (hq : Quad grid s N W) {y z : ℕ → ℝ} {v : ℝ} {j : ℕ}
    (h : RIntegrate u 0 grid s y v) (hy : ∀ i < N, Rel u j (y i) (z i)) (hz : ∀ i < N, 0 ≤ z i) :
    Rel u (N + 7 + j) v (∑ i ∈ range N, W i * z i) := by
  cases grid with
  | radial g =>
    obtain ⟨x, hx, hs⟩ := hg
    obtain ⟨x', hx', h⟩ := h
    have : x' = x := fins_injective (hx'.symm.trans hx)
    subst this
    obtain ⟨pts⟩ := g
    simp only at hx
    subst hx
    simp only [Grid.len, fins, List.length_map] at hN
    subst hN
    have hv := hq.fin z
    cases s with
    | false =>
      rw [quad_radial_value] at hv
      injection hv with hv
      injection hv with hv
      rw [← hv]
      simp only [Bool.false_eq_true, if_false] at h
      exact (h.rel_nonneg h0 h1 hs hy hz).mono h0 h1 (by omega)
    | true =>
      rw [quad_radial_spherical] at hv
      injection hv with hv
      injection hv with hv
      rw [← hv]
      simp only [if_true] at h
      obtain ⟨t, ht, h⟩ := h
      refine (h.rel_nonneg h0 h1 hs (j := 5 + j) (z := fun i => z i * 4 * π * x'.getD i 0 ^ 2)
        (fun i hi => ?_) fun i hi => ?_).mono h0 h1 (by omega)
      · obtain ⟨a, p, b, q, ha, hp, hb, hq, ht⟩ := ht i hi
        have r1 := (Rel.of_fu h0 h1 ha).trans h0 h1 ((hy i hi).mul h0 h1 (Rel.refl h0 h1 4))
        have r2 := (Rel.of_fu h0 h1 hb).trans h0 h1 (r1.mul h0 h1 (Rel.of_fl h0 h1 hp))
        have r3 := (Rel.of_fu h0 h1 ht).trans h0 h1 (r2.mul h0 h1 (Rel.of_fu h0 h1 hq))
        exact r3.mono h0 h1 (by omega)
      · have := hz i hi
        have := pi_pos
        positivity
  | cubic g =>
    obtain ⟨w, hw, hs⟩ := hg
    obtain ⟨rfl, w', hw', hl, h⟩ := h
    have : w' = w := fins_injective (hw'.symm.trans hw)
    subst this
    simp only [Grid.len] at hN
    rw [← hl] at hN
    subst hN
    have hv := hq.fin z
    rw [quad_cubic_value hw hl] at hv
    injection hv with hv
    injection hv with hv
    rw [← hv]
    obtain ⟨b, hb, rfl⟩ := h.rel h0 h1
    refine (Rel.sum h0 h1 (k := w'.length + j) (fun i hi => ?_) fun i hi => ?_).mono h0 h1 (by omega)
    · refine (hb i hi).trans h0 h1 ?_
      simpa using (Rel.refl h0 h1 (w'.getD i 0)).mul h0 h1 (hy i hi)
    · exact mul_nonneg (getD_nonneg hs i) (hz i hi)

omit h0 h1 in
/-- The weights of a grid on which something is integrated. -/
theorem RIntegrate.quad {τ : ℝ} {grid : Grid} {s : Bool} (hg : grid.Positive) {y : ℕ → ℝ} {v : ℝ}
    (h : RIntegrate u τ grid s y v) : ∃ W : ℕ → ℝ, (∀ i, 0 ≤ W i) ∧ Quad grid s grid.len W := by
  cases grid with
  | radial g =>
    obtain ⟨x, hx, hs⟩ := hg
    obtain ⟨pts⟩ := g
    simp only at hx
    subst hx
    simp only [Grid.len, fins, List.length_map]
    cases s with
    | false =>
      have hq := quad_plain (hasWeights_radial x)
      rw [trapW_length] at hq
      exact ⟨_, vec_nonneg (trapW_nonneg x hs), hq⟩
    | true => exact ⟨_, spherical_weights_nonneg hs, quad_spherical x⟩
  | cubic g =>
    obtain ⟨w, hw, hs⟩ := hg
    obtain ⟨rfl, w', hw', hl, -⟩ := h
    have : w' = w := fins_injective (hw'.symm.trans hw)
    subst this
    simp only [Grid.len]
    refine ⟨vec w', vec_nonneg hs, ⟨fun f => ?_, fun l hl' => ?_⟩⟩
    · rw [← hl]
      exact quad_cubic_value hw hl f
    · unfold integrateOn
      rw [if_neg (by simp)]
      exact grid_integrate_ok (.cubic g) (by simp [Grid.Full, hw, hl]) _ (by simpa [Grid.len] using hl')

/-- The rounded density of computed basis values with non-negative coefficients. -/
theorem RDens.rel {n j : ℕ} {φ ψ c : ℕ → ℝ} {m : ℝ} (h : RDens u 0 n φ c m)
    (hφ : ∀ k < n, Rel u j (φ k) (ψ k)) (hψ : ∀ k < n, 0 ≤ ψ k) (hc : ∀ k < n, 0 ≤ c k) :
    Rel u (n + j) m (∑ k ∈ range n, c k * ψ k) := by
  obtain ⟨t, ht, hs⟩ := h
  obtain ⟨b, hb, rfl⟩ := hs.rel_tab h0 h1
  refine Rel.sum h0 h1 (fun k hk => ?_) fun k hk => mul_nonneg (hc k hk) (hψ k hk)
  have r := (hb k hk).trans h0 h1 ((Rel.of_fu h0 h1 (ht k hk)).trans h0 h1
    ((hφ k hk).mul h0 h1 (Rel.refl h0 h1 (c k))))
  rw [mul_comm (ψ k)] at r
  exact r.mono h0 h1 (by omega)

theorem Rel.rpow {k l : ℕ} {a b p : ℝ} (h : Rel u k a b) (hb : 0 ≤ b) (hp : 0 ≤ p) (hl : k * p ≤ l) :
    Rel u l (a ^ p) (b ^ p) := by
  obtain ⟨t, ht, ht', rfl⟩ := h
  have hu : 0 < 1 - u := by linarith
  have hk : 0 < (1 - u) ^ k := pow_pos hu k
  have ht0 : 0 < t := hk.trans_le ht
  have hpow : ((1 - u) ^ k) ^ p = (1 - u) ^ (k * p) := by
    rw [← rpow_natCast, ← rpow_mul hu.le]
  have hle : (1 - u) ^ l ≤ (1 - u) ^ ((k : ℝ) * p) := by
    rw [← rpow_natCast]
    exact rpow_le_rpow_of_exponent_ge hu (by linarith) hl
  refine ⟨t ^ p, ?_, ?_, mul_rpow hb ht0.le⟩
  · rw [← hpow] at hle
    exact hle.trans (rpow_le_rpow hk.le ht hp)
  · have h2 : (t * (1 - u) ^ k) ^ p ≤ 1 := rpow_le_one (by positivity) ht' hp
    rw [mul_rpow ht0.le hk.le, hpow] at h2
    exact (mul_le_mul_of_nonneg_left hle (by positivity)).trans h2

/-- The exponential of an argument with two errors. -/
theorem Rel.exp_neg {a x : ℝ} (hu : u ≤ 1 / 10) (hx : 0 ≤ x) (h : Rel u 2 a x) {j : ℕ} (hj : 3 * x ≤ j) :
    Rel u j (exp (-a)) (exp (-x)) := by
  have hb := h.abs_sub h0 h1
  have hp : 0 < (1 - u) ^ 2 := by have : 0 < 1 - u := by linarith
                                  positivity
  have hc : 1 / (1 - u) ^ 2 - 1 ≤ 3 * u := by
    rw [sub_le_iff_le_add, div_le_iff₀ hp]
    nlinarith [mul_nonneg h0 h0, mul_nonneg (mul_nonneg h0 h0) h0]
  have hd : |a - x| ≤ u * j := by
    rw [abs_of_nonneg hx] at hb
    refine hb.trans ?_
    have h3 := mul_le_mul_of_nonneg_right hc hx
    have h4 := mul_le_mul_of_nonneg_left hj h0
    linarith
  have hlow : (1 - u) ^ j ≤ exp (-(u * j)) := by
    have h2 : 1 - u ≤ exp (-u) := by have := add_one_le_exp (-u); linarith
    have h3 := pow_le_pow_left₀ (by linarith) h2 j
    rw [← exp_nat_mul] at h3
    rwa [show -(u * (j : ℝ)) = j * -u by ring]
  rw [abs_le] at hd
  refine ⟨exp (-a + x), ?_, ?_, by rw [← exp_add]; ring_nf⟩
  · exact hlow.trans (exp_le_exp.mpr (by linarith))
  · calc exp (-a + x) * (1 - u) ^ j ≤ exp (-a + x) * exp (-(u * j)) :=
          mul_le_mul_of_nonneg_left hlow (exp_pos _).le
      _ = exp (-a + x - u * j) := by rw [← exp_add]; ring_nf
      _ ≤ 1 := exp_le_one_iff.mpr (by linarith)

/-- Computed values of basis functions. -/
theorem RBasis.rel {isS norm : Bool} {e r v : ℝ} (hu : u ≤ 1 / 10) (he : 0 ≤ e)
    (h : RBasis u 0 isS norm e r v) {j : ℕ} (hj : 3 * (e * r ^ 2) ≤ j) :
    Rel u (j + 10) v (bf isS norm e r) := by
  obtain ⟨r2, a, E, hr, ha, hE, h⟩ := h
  have q1 := Rel.of_fu h0 h1 hr
  have q2 : Rel u 2 (-a) (e * r ^ 2) := by
    have := (Rel.of_fu h0 h1 ha).trans h0 h1 ((Rel.refl h0 h1 (-e)).mul h0 h1 q1)
    obtain ⟨t, ht, ht', hat⟩ := this.mono h0 h1 (l := 2) (by omega)
    exact ⟨t, ht, ht', by rw [hat]; ring⟩
  have q3 := q2.exp_neg h0 h1 hu (by positivity) hj
  rw [neg_neg] at q3
  have q4 := (Rel.of_fu h0 h1 hE).trans h0 h1 q3
  have hexp : exp (-(e * r ^ 2)) = exp (-e * r ^ 2) := by ring_nf
  rw [hexp] at q4
  unfold bf
  cases isS with
  | true =>
    simp only [if_true] at h ⊢
    unfold sBasis
    cases norm with
    | true =>
      simp only [if_true] at h ⊢
      obtain ⟨p, d, n, hp, hd, hn, hv⟩ := h
      have w1 := (Rel.of_fu h0 h1 hd).trans h0 h1 ((Rel.refl h0 h1 e).div h0 h1 (Rel.of_fl h0 h1 hp))
      have w2 := w1.rpow h0 h1 (p := 3 / 2) (l := 3) (by have := pi_pos; positivity) (by norm_num)
        (by norm_num)
      have w3 := (Rel.of_fu h0 h1 hn).trans h0 h1 w2
      have w4 := (Rel.of_fu h0 h1 hv).trans h0 h1 (w3.mul h0 h1 q4 |> fun w => by rwa [mul_comm n E] at w)
      exact w4.mono h0 h1 (by omega)
    | false =>
      simp only [Bool.false_eq_true, if_false, one_mul] at h ⊢
      subst h
      exact q4.mono h0 h1 (by omega)
  | false =>
    simp only [Bool.false_eq_true, if_false] at h ⊢
    unfold pBasis
    obtain ⟨g, hg, h⟩ := h
    have w1 := (Rel.of_fu h0 h1 hg).trans h0 h1 (q4.mul h0 h1 q1)
    cases norm with
    | true =>
      simp only [if_true] at h ⊢
      obtain ⟨p, n, m, d, k, hp, hn, hm, hd, hk, hv⟩ := h
      have w2 := (Rel.of_fu h0 h1 hm).trans h0 h1 ((Rel.of_fl h0 h1 hp).rpow h0 h1 (p := 3 / 2) (l := 2)
        pi_pos.le (by norm_num) (by norm_num))
      have w3 := (Rel.of_fu h0 h1 hd).trans h0 h1 ((Rel.of_fu h0 h1 hn).div h0 h1 w2)
      have w4 := (Rel.of_fu h0 h1 hk).trans h0 h1 (w1.mul h0 h1 w3)
      have w5 := (Rel.of_fu h0 h1 hv).trans h0 h1 (w4.div h0 h1 (Rel.refl h0 h1 (3 / 2)))
      have hval : exp (-e * r ^ 2) * r ^ 2 * (e ^ (5 / 2 : ℝ) / π ^ (3 / 2 : ℝ)) / (3 / 2) =
          2 * e ^ (5 / 2 : ℝ) / (3 * π ^ (3 / 2 : ℝ)) * (r ^ 2 * exp (-e * r ^ 2)) := by
        have : π ^ (3 / 2 : ℝ) ≠ 0 := (rpow_pos_of_pos pi_pos _).ne'
        field_simp
      rw [hval] at w5
      exact w5.mono h0 h1 (by omega)
    | false =>
      simp only [Bool.false_eq_true, if_false, one_mul] at h ⊢
      subst h
      rw [mul_comm (r ^ 2)]
      exact w1.mono h0 h1 (by omega)

end

theorem Rel.zero {k : ℕ} {a b : ℝ} (h : Rel 0 k a b) : a = b := by
  obtain ⟨t, ht, ht', rfl⟩ := h
  simp at ht ht'
  rw [le_antisymm ht' ht, mul_one]

/-- Exact arithmetic as a special case. -/
theorem RIntegrate.exact {u τ : ℝ} (h0 : 0 ≤ u) {grid : Grid} (hg : grid.Finite) (s : Bool)
    (hs : s = true → ∃ g, grid = .radial g) (y : ℕ → ℝ) :
    ∃ I, integrateOn grid s (fins (tab grid.len y)) = .ok (XR.fin I) ∧ RIntegrate u τ grid s y I ∧
      ∀ v, RIntegrate 0 0 grid s y v → v = I := by
  cases grid with
  | radial g =>
    obtain ⟨x, hx⟩ := hg
    obtain ⟨pts⟩ := g
    simp only at hx
    subst hx
    simp only [Grid.len, fins, List.length_map]
    have htr : ∀ y : ℕ → ℝ, RTrapz u τ x.length (x.getD · 0) y
        (∑ i ∈ range (x.length - 1), (x.getD (i + 1) 0 - x.getD i 0) * (y (i + 1) + y i) / 2) := by
      intro y
      refine ⟨_, fun i _ => ⟨_, _, _, Fl.refl h0 _, Fl.refl h0 _, Fu.refl h0 _, Fu.refl h0 _⟩, ?_⟩
      rw [← sum_tab_range]
      exact RSum.exact h0 _
    cases s with
    | false =>
      refine ⟨_, quad_radial_value x y, ⟨x, rfl, ?_⟩, ?_⟩
      · simp only [Bool.false_eq_true, if_false]
        exact htr y
      · rintro v ⟨x', hx', hv⟩
        have : x' = x := (fins_injective hx').symm
        subst this
        simp only [Bool.false_eq_true, if_false] at hv
        obtain ⟨b, hb, rfl⟩ := hv.rel le_rfl one_pos
        exact sum_congr rfl fun i hi => (hb i (mem_range.mp hi)).zero
    | true =>
      refine ⟨_, quad_radial_spherical x y, ⟨x, rfl, ?_⟩, ?_⟩
      · simp only [if_true]
        refine ⟨fun i => y i * 4 * π * x.getD i 0 ^ 2, fun i _ => ⟨_, _, _, _, Fu.refl h0 _, Fl.refl h0 _,
          Fu.refl h0 _, Fu.refl h0 _, Fu.refl h0 _⟩, htr _⟩
      · rintro v ⟨x', hx', hv⟩
        have : x' = x := (fins_injective hx').symm
        subst this
        simp only [if_true] at hv
        obtain ⟨h, hh, hv⟩ := hv
        have hh' : ∀ i < x'.length, h i = y i * 4 * π * x'.getD i 0 ^ 2 := by
          intro i hi
          obtain ⟨a, p, b, q, ha, hp, hb, hq, ht⟩ := hh i hi
          rw [ht.zero, hb.zero, ha.zero, hp.zero, hq.zero]
        obtain ⟨b, hb, rfl⟩ := hv.rel le_rfl one_pos
        refine sum_congr rfl fun i hi => ?_
        have hi' := mem_range.mp hi
        rw [(hb i hi').zero, hh' i (by omega), hh' (i + 1) (by omega)]
  | cubic g =>
    obtain ⟨w, hw, hl⟩ := hg
    cases s with
    | true =>
      obtain ⟨_, h⟩ := hs rfl
      cases h
    | false =>
      simp only [Grid.len]
      rw [← hl]
      refine ⟨_, quad_cubic_value hw hl y, ⟨rfl, w, hw, hl, _, fun i _ => Fu.refl h0 _, ?_⟩, ?_⟩
      · rw [← sum_tab_range]
        exact RSum.exact h0 _
      · rintro v ⟨-, w', hw', -, hv⟩
        have : w' = w := fins_injective (hw'.symm.trans hw)
        subst this
        obtain ⟨b, hb, rfl⟩ := hv.rel le_rfl one_pos
        exact sum_congr rfl fun i hi => (hb i (mem_range.mp hi)).zero

end
end BFit
