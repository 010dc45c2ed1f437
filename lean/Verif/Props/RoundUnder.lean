import Verif.Props.Round
import Verif.Lemmas.RoundUnder

/-!
Rounding and gradual underflow (Model/Round with `τ > 0`; `u = 2⁻⁵³` and `τ = 2⁻¹⁰²²` for double precision).  All
bounds have a relative part, as in C113 to C115, and an absolute part with the factor `u τ`.
-/

namespace BFit

open Real Classical Finset

noncomputable section

/-! ### C116: integrals -/

/-- **C116** (radial grids).  For integrands of any sign and points in any order underflow adds at most `2 n u τ` to the
error of C113, up to roundings. -/
theorem C116_radial {u τ : ℝ} (h0 : 0 ≤ u) (h1 : u < 1) (hτ : 0 ≤ τ) (x y : List ℝ) (hy : y.length = x.length) :
    ∃ I, (RadialGrid.mk (fins x)).integrate (ND.vec (fins y)) = .ok (XR.fin I) ∧
      ∀ v, RIntegrate u τ (.radial ⟨fins x⟩) false (y.getD · 0) v →
        |v - I| ≤ (1 / (1 - u) ^ (x.length + 2) - 1) * ∑ i ∈ range (x.length - 1),
          |x.getD (i + 1) 0 - x.getD i 0| * |y.getD (i + 1) 0 + y.getD i 0| / 2 +
          2 * x.length * (u * τ) / (1 - u) ^ (x.length + 2) := by
  refine ⟨_, C02_trapezoid_areas x y hy, fun v hv => ?_⟩
  obtain ⟨x', hx', hv⟩ := hv
  have : x' = x := (fins_injective hx').symm
  subst this
  simp only [Bool.false_eq_true, if_false] at hv
  obtain ⟨b, hb, rfl⟩ := hv.ap h0 h1 hτ
  have := abs_sum_sub_le' h0 h1 hb
  have e1 : trapezoidAreas x' y = ∑ i ∈ range (x'.length - 1),
      (x'.getD (i + 1) 0 - x'.getD i 0) * (y.getD (i + 1) 0 + y.getD i 0) / 2 :=
    sum_congr rfl fun i _ => by ring
  rw [e1]
  refine this.trans (add_le_add (le_of_eq ?_) ?_)
  · congr 1
    refine sum_congr rfl fun i _ => ?_
    rw [abs_div, abs_mul, abs_of_pos (two_pos : (0 : ℝ) < 2)]
  · have hp : 0 < (1 - u) ^ (x'.length + 2) := pow_pos (by linarith) _
    refine div_le_div_of_nonneg_right ?_ hp.le
    have : ((x'.length - 1 : ℕ) : ℝ) ≤ x'.length := by exact_mod_cast Nat.sub_le _ _
    nlinarith [mul_nonneg h0 hτ]

theorem RSum.nonneg {u : ℝ} (h0 : 0 ≤ u) (h1 : u < 1) {n : ℕ} {t : ℕ → ℝ} {v : ℝ}
    (h : RSum u ((List.range n).map t) v) (ht : ∀ i < n, 0 ≤ t i) : 0 ≤ v := by
  obtain ⟨b, hb, rfl⟩ := h.rel_tab h0 h1
  exact sum_nonneg fun i hi => (hb i (mem_range.mp hi)).nonneg h0 h1 (ht i (mem_range.mp hi))

theorem RTrapz.nonneg {u τ : ℝ} (h0 : 0 ≤ u) (h1 : u < 1) {x : List ℝ} (hx : x.Pairwise (· ≤ ·)) {y : ℕ → ℝ}
    {v : ℝ} (h : RTrapz u τ x.length (x.getD · 0) y v) (hy : ∀ i < x.length, 0 ≤ y i) : 0 ≤ v := by
  obtain ⟨t, ht, hs⟩ := h
  refine hs.nonneg h0 h1 fun i hi => ?_
  obtain ⟨d, s, p, hd, hs, hp, ht⟩ := ht i (by omega)
  have e1 := (Rel.of_fl h0 h1 hd).nonneg h0 h1 (step_nonneg hx (by omega))
  have e2 := (Rel.of_fl h0 h1 hs).nonneg h0 h1 (add_nonneg (hy _ (by omega)) (hy _ (by omega)))
  exact ht.nonneg h0 h1 (div_nonneg (hp.nonneg h0 h1 (mul_nonneg e1 e2)) two_pos.le)

/-- Computed integrals of non-negative values are not negative. -/
theorem RIntegrate.nonneg {u τ : ℝ} (h0 : 0 ≤ u) (h1 : u < 1) {grid : Grid} (hg : grid.Positive) {s : Bool}
    {y : ℕ → ℝ} {v : ℝ} (h : RIntegrate u τ grid s y v) (hy : ∀ i < grid.len, 0 ≤ y i) : 0 ≤ v := by
  cases grid with
  | radial g =>
    obtain ⟨x, hx', hs⟩ := hg
    obtain ⟨x', hx'', h⟩ := h
    have : x' = x := fins_injective (hx''.symm.trans hx')
    subst this
    have hl : (Grid.radial g).len = x'.length := by simp [Grid.len, hx']
    rw [hl] at hy
    cases s with
    | false =>
      simp only [Bool.false_eq_true, if_false] at h
      exact h.nonneg h0 h1 hs hy
    | true =>
      simp only [if_true] at h
      obtain ⟨t, ht, h⟩ := h
      refine h.nonneg h0 h1 hs fun i hi => ?_
      obtain ⟨a, p, b, q, ha, hp, hb, hq, ht⟩ := ht i hi
      have e1 := ha.nonneg h0 h1 (mul_nonneg (hy i hi) (by norm_num))
      have e2 := hb.nonneg h0 h1 (mul_nonneg e1 ((Rel.of_fl h0 h1 hp).nonneg h0 h1 pi_pos.le))
      exact ht.nonneg h0 h1 (mul_nonneg e2 (hq.nonneg h0 h1 (sq_nonneg _)))
  | cubic g =>
    obtain ⟨w, hw, hs⟩ := hg
    obtain ⟨-, w', hw', hl, t, ht, h⟩ := h
    have : w' = w := fins_injective (hw'.symm.trans hw)
    subst this
    simp only [Grid.len] at hy
    rw [← hl] at hy
    exact h.nonneg h0 h1 fun i hi => (ht i hi).nonneg h0 h1 (mul_nonneg (getD_nonneg hs i) (hy i hi))

/-- Squared points do not underflow (needed for the factor `r ** 2` of spherical integrals). -/
def Grid.NoTinyPoint (grid : Grid) (τ : ℝ) : Prop :=
  ∀ x : List ℝ, grid = .radial ⟨fins x⟩ → ∀ a ∈ x, a = 0 ∨ τ ≤ a ^ 2

/-- A radial grid is not longer than `L`. -/
def Grid.LengthLe (grid : Grid) (L : ℝ) : Prop :=
  0 ≤ L ∧ ∀ x : List ℝ, grid = .radial ⟨fins x⟩ → x.getD (x.length - 1) 0 - x.getD 0 0 ≤ L

/-- **C116** (relative accuracy).  On an ascending radial grid of length at most `L` whose squared points do not
underflow, or on a cubic grid, integrals of non-negative functions are computed with a relative error of `n + 7`
roundings and an absolute error of `u τ (V + L + 2 n)`, `V` being the integral of one, and are not negative. -/
theorem C116_integral {u τ : ℝ} (h0 : 0 ≤ u) (h1 : u < 1) (hτ : 0 ≤ τ) {grid : Grid} (hg : grid.Positive) (s : Bool)
    (hx : grid.NoTinyPoint τ) {L : ℝ} (hL : grid.LengthLe L)
    (y : List ℝ) (hy : y.length = grid.len) (hp : ∀ a ∈ y, 0 ≤ a) (v : ℝ)
    (hv : RIntegrate u τ grid s (y.getD · 0) v) :
    ∃ I V, integrateOn grid s (fins y) = .ok (XR.fin I) ∧
      integrateOn grid s (fins (List.replicate y.length 1)) = .ok (XR.fin V) ∧ 0 ≤ v ∧
      I * (1 - u) ^ (y.length + 7) ≤ v + u * τ * (V + L + 2 * y.length) / (1 - u) ^ (y.length + 7) ∧
      v * (1 - u) ^ (y.length + 7) ≤ I + u * τ * (V + L + 2 * y.length) := by
  obtain ⟨W, hW, hq⟩ := hv.quad hg
  have hfin := hq.fin (vec y)
  rw [← hy, tab, ← eq_range_map y _ rfl] at hfin
  have hone := hq.fin fun _ => 1
  have e1 : tab grid.len (fun _ => (1 : ℝ)) = List.replicate y.length 1 := by
    rw [hy, tab]; simp
  rw [e1] at hone
  have hz : ∀ i < grid.len, 0 ≤ vec y i := fun i _ => getD_nonneg hp i
  have r := RIntegrate.ap h0 h1 hτ hg rfl hq hL.1 (fun i _ => hW i) hL.2 (fun _ => hx) hv hz
  have hI : 0 ≤ ∑ i ∈ range grid.len, W i * vec y i :=
    sum_nonneg fun i _ => mul_nonneg (hW i) (getD_nonneg hp i)
  have hb := r.bounds h0 h1 hI
  rw [← hy] at hb hone
  simp only [mul_one] at hone
  exact ⟨_, _, hfin, hone, hv.nonneg h0 h1 hg hz, hb.1, hb.2⟩

example (v : ℝ) (hv : RIntegrate (2 ^ (-53 : ℤ)) (2 ^ (-1022 : ℤ)) (.radial ⟨fins [0, 1, 3]⟩) true ([1, 2, 4].getD · 0) v) :
    0 ≤ v := by
  obtain ⟨I, V, -, -, h, -⟩ := C116_integral (by positivity) (by norm_num) (by positivity)
    (grid := .radial ⟨fins [0, 1, 3]⟩) ⟨[0, 1, 3], rfl, by norm_num⟩ true
    (by
      intro x hx
      simp only [Grid.radial.injEq, RadialGrid.mk.injEq] at hx
      rw [← fins_injective hx]
      have h2 : (2 : ℝ) ^ (-1022 : ℤ) ≤ 1 := zpow_le_one_of_nonpos₀ (by norm_num) (by norm_num)
      intro a ha
      simp only [List.mem_cons, List.not_mem_nil, or_false] at ha
      rcases ha with rfl | rfl | rfl
      · exact .inl rfl
      · exact .inr (by linarith)
      · exact .inr (by linarith))
    (L := 3) ⟨by norm_num, by
      intro x hx
      simp only [Grid.radial.injEq, RadialGrid.mk.injEq] at hx
      rw [← fins_injective hx]
      norm_num⟩ [1, 2, 4] rfl (by norm_num) v hv
  exact h

/-! ### C117: number of electrons -/

/-- The absolute error of an update in units of `u τ`: `C` and `nb` are the sum and the number of the old coefficients,
`V`, `R`, `M` the integrals of one, of the computed ratio and of the computed model, `L` the length of the grid,
`N` the number of points. -/
def updateSlack (C V R M L lm : ℝ) (N nb : ℕ) : ℝ :=
  (C + nb) * R + M + C * (2 * V + L + 2 * N + 1) + nb * (lm + 1)

theorem update_ap {u τ : ℝ} (h0 : 0 ≤ u) (h1 : u < 1) (hτ : 0 ≤ τ) {grid : Grid} (hg : grid.Positive) {s : Bool}
    {N nb : ℕ} (hN : N = grid.len) (hx : grid.NoTinyPoint τ) {L : ℝ} (hL : grid.LengthLe L) {f : ℕ → ℝ}
    (hf : ∀ i < N, 0 ≤ f i) {μ lm : ℝ} (hlm : 0 < lm) {φ rad : ℕ → ℕ → ℝ} {pref c c' e' : ℕ → ℝ}
    (hφ : ∀ i < N, ∀ k < nb, 0 ≤ φ i k) (hc : ∀ k < nb, 0 ≤ c k) {W : ℕ → ℝ} (hW : ∀ i, 0 ≤ W i)
    (hq : Quad grid s N W) (U : RUpdate u τ grid s N nb f μ lm φ rad pref c c' e') :
    (∀ k < nb, 0 ≤ c' k) ∧
      Ap u (N + 2 * nb + 13) (u * τ * updateSlack (∑ k ∈ range nb, c k) (∑ i ∈ range N, W i)
          (∑ i ∈ range N, W i * U.ratio i) (∑ i ∈ range N, W i * U.m i) L lm N nb)
        (lm * ∑ k ∈ range nb, c' k)
        (∑ i ∈ range N, W i * if μ < U.m i ∧ U.z i < U.m i then f i else U.m i) := by
  have hn := mul_nonneg h0 hτ
  have hm0 : ∀ i < N, 0 ≤ U.m i := fun i hi => by
    obtain ⟨t, ht, hs⟩ := U.h_m i hi
    exact hs.nonneg h0 h1 fun k hk => (ht k hk).nonneg h0 h1 (mul_nonneg (hφ i hi k hk) (hc k hk))
  have hz0 : ∀ i < N, 0 ≤ U.z i := fun i hi => (U.h_z i hi).nonneg h0 h1 (mul_nonneg (hf i hi) tiny_pos.le)
  have hr0 : ∀ i < N, 0 ≤ U.ratio i := fun i hi => by
    have := U.h_ratio i hi
    split_ifs at this
    · exact this.nonneg h0 h1 (div_nonneg (hf i hi) (hm0 i hi))
    · rw [this]; exact zero_le_one
  have hy0 : ∀ k < nb, ∀ i < N, 0 ≤ U.integrand k i := fun k hk i hi =>
    (U.h_integrand k hk i hi).nonneg h0 h1 (mul_nonneg (hr0 i hi)
      ((U.h_dm i hi k hk).nonneg h0 h1 (hφ i hi k hk)))
  -- one point
  set d : ℕ → ℝ := fun i => ∑ k ∈ range nb, c k * φ i k with hd
  set C := ∑ k ∈ range nb, c k with hC
  have hC0 : 0 ≤ C := sum_nonneg fun k hk => hc k (mem_range.mp hk)
  have hd0 : ∀ i < N, 0 ≤ d i := fun i hi =>
    sum_nonneg fun k hk => mul_nonneg (hc k (mem_range.mp hk)) (hφ i hi k (mem_range.mp hk))
  set h : ℕ → ℝ := fun i => if μ < U.m i ∧ U.z i < U.m i then f i else U.m i with hh
  have hh0 : ∀ i < N, 0 ≤ h i := fun i hi => by
    simp only [hh]; split_ifs
    · exact hf i hi
    · exact hm0 i hi
  have p1 : ∀ i < N, Ap u (2 * nb + 1) (u * τ * (U.ratio i * nb + U.m i)) (U.ratio i * d i) (h i) := by
    intro i hi
    have r1 := (((U.h_m i hi).ap h0 h1 hτ (hφ i hi) hc).symm h0 h1).const_mul h0 h1 (hr0 i hi)
    have hmn := mul_nonneg hn (hm0 i hi)
    have hrr := U.h_ratio i hi
    by_cases hk : μ < U.m i ∧ U.z i < U.m i
    · rw [if_pos hk] at hrr
      have hmp : 0 < U.m i := (hz0 i hi).trans_lt hk.2
      have r2 := (Ap.of_fu h0 h1 hτ hrr).mul_const h0 h1 hmp.le
      rw [div_mul_cancel₀ _ hmp.ne'] at r2
      have r3 := r1.trans h0 h1 r2
      simp only [hh, if_pos hk]
      exact r3.mono h0 h1 le_rfl (le_of_eq (by ring))
    · rw [if_neg hk] at hrr
      simp only [hh, if_neg hk]
      rw [hrr] at r1 ⊢
      rw [one_mul (U.m i)] at r1
      refine r1.mono h0 h1 (by omega) ?_
      linarith
  have p2 : ∀ i < N, Ap u 2 (u * τ * (C * (1 + U.ratio i))) (∑ k ∈ range nb, c k * U.integrand k i)
      (U.ratio i * d i) := by
    intro i hi
    have r1 : ∀ k < nb, Ap u 2 (c k * (u * τ * (1 + U.ratio i))) (c k * U.integrand k i)
        (c k * (U.ratio i * φ i k)) := by
      intro k hk
      have r2 := (Ap.of_fu h0 h1 hτ (U.h_integrand k hk i hi)).trans h0 h1
        ((Ap.of_fu h0 h1 hτ (U.h_dm i hi k hk)).const_mul h0 h1 (hr0 i hi))
      exact (r2.const_mul h0 h1 (hc k hk)).mono h0 h1 le_rfl (le_of_eq (by ring))
    have r3 := Ap.sum h0 h1 r1 fun k hk => mul_nonneg (hc k hk) (mul_nonneg (hr0 i hi) (hφ i hi k hk))
    have e1 : ∑ k ∈ range nb, c k * (U.ratio i * φ i k) = U.ratio i * d i := by
      simp only [hd, mul_sum]
      exact sum_congr rfl fun k _ => by ring
    have e2 : ∑ k ∈ range nb, c k * (u * τ * (1 + U.ratio i)) = u * τ * (C * (1 + U.ratio i)) := by
      rw [← sum_mul]; ring
    rwa [e1, e2] at r3
  have p3 : Ap u (2 * nb + 3) (∑ i ∈ range N, W i * (u * τ * (C * (1 + U.ratio i) + (U.ratio i * nb + U.m i))))
      (∑ i ∈ range N, W i * ∑ k ∈ range nb, c k * U.integrand k i) (∑ i ∈ range N, W i * h i) := by
    refine Ap.sum h0 h1 (fun i hi => ?_) fun i hi => mul_nonneg (hW i) (hh0 i hi)
    exact (((p2 i hi).trans h0 h1 (p1 i hi)).const_mul h0 h1 (hW i)).mono h0 h1 (by omega)
      (le_of_eq (by ring))
  -- the integrals
  set V := ∑ i ∈ range N, W i with hV
  have p4 : ∀ k < nb, Ap u (N + 10) (u * τ * (lm + 1 + c k * (1 + (V + L + 2 * N)))) (lm * c' k)
      (c k * ∑ i ∈ range N, W i * U.integrand k i) := by
    intro k hk
    obtain ⟨v, hv, hva⟩ := U.h_avrg1 k hk
    have r1 := RIntegrate.ap h0 h1 hτ hg hN hq hL.1 (fun i _ => hW i) hL.2 (fun _ => hx) hv (hy0 k hk)
    have r2 := ((Ap.of_fu h0 h1 hτ hva).trans h0 h1 r1).const_mul h0 h1 (hc k hk)
    have r3 := (Ap.of_fu h0 h1 hτ (U.h_a k hk)).trans h0 h1 r2
    have r4 := (Ap.of_fu h0 h1 hτ (U.h_c k hk)).const_mul h0 h1 hlm.le
    rw [mul_div_cancel₀ _ hlm.ne'] at r4
    exact (r4.trans h0 h1 r3).mono h0 h1 (by omega) (le_of_eq (by ring))
  have hA0 : ∀ k < nb, 0 ≤ ∑ i ∈ range N, W i * U.integrand k i := fun k hk =>
    sum_nonneg fun i hi => mul_nonneg (hW i) (hy0 k hk i (mem_range.mp hi))
  have p5 := Ap.sum h0 h1 p4 fun k hk => mul_nonneg (hc k hk) (hA0 k hk)
  have e1 : ∑ k ∈ range nb, c k * ∑ i ∈ range N, W i * U.integrand k i =
      ∑ i ∈ range N, W i * ∑ k ∈ range nb, c k * U.integrand k i := by
    simp only [mul_sum]
    rw [sum_comm]
    exact sum_congr rfl fun i _ => sum_congr rfl fun k _ => by ring
  rw [← mul_sum (f := c'), e1] at p5
  have p6 := p5.trans h0 h1 p3
  refine ⟨fun k hk => ?_, p6.mono h0 h1 (l := N + 2 * nb + 13) (by omega) (le_of_eq ?_)⟩
  · obtain ⟨v, hv, hva⟩ := U.h_avrg1 k hk
    have i1 := hva.nonneg h0 h1 (hv.nonneg h0 h1 hg (by rw [← hN]; exact hy0 k hk))
    exact (U.h_c k hk).nonneg h0 h1 (div_nonneg ((U.h_a k hk).nonneg h0 h1 (mul_nonneg (hc k hk) i1)) hlm.le)
  · have e2 : ∑ k ∈ range nb, u * τ * (lm + 1 + c k * (1 + (V + L + 2 * N))) =
        u * τ * (nb * (lm + 1) + C * (1 + (V + L + 2 * N))) := by
      rw [← mul_sum, sum_add_distrib, ← sum_mul, sum_const, card_range, nsmul_eq_mul]
    have e3 : ∑ i ∈ range N, W i * (u * τ * (C * (1 + U.ratio i) + (U.ratio i * nb + U.m i))) =
        u * τ * (C * V + (C + nb) * (∑ i ∈ range N, W i * U.ratio i) + ∑ i ∈ range N, W i * U.m i) := by
      rw [hV, mul_sum, mul_sum, ← sum_add_distrib, ← sum_add_distrib, mul_sum]
      exact sum_congr rfl fun i _ => by ring
    rw [e2, e3]
    unfold updateSlack
    ring

/-- **C117**.  With rounding, gradual underflow and masked points, whatever the computed values of the basis functions:
the new coefficients are not negative, and the multiplier times their sum is the integral of the function that equals
the density where the computed model is not masked and the computed model elsewhere, up to `N + 2 n + 13` roundings
and `u τ` times `updateSlack`. -/
theorem C117_update {u τ : ℝ} (h0 : 0 ≤ u) (h1 : u < 1) (hτ : 0 ≤ τ) {grid : Grid} (hg : grid.Positive) {s : Bool}
    {N nb : ℕ} (hN : N = grid.len) (hx : grid.NoTinyPoint τ) {L : ℝ} (hL : grid.LengthLe L) {f : ℕ → ℝ}
    (hf : ∀ i < N, 0 ≤ f i) {μ T lm : ℝ} (hm : RMultiplier u τ grid s f T lm) (hlm : 0 < lm) {φ rad : ℕ → ℕ → ℝ}
    {pref c c' e' : ℕ → ℝ} (hφ : ∀ i < N, ∀ k < nb, 0 ≤ φ i k) (hc : ∀ k < nb, 0 ≤ c k)
    (U : RUpdate u τ grid s N nb f μ lm φ rad pref c c' e') :
    (∀ k < nb, 0 ≤ c' k) ∧ ∃ H V R M : ℝ,
      integrateOn grid s (fins (tab N fun i => if μ < U.m i ∧ U.z i < U.m i then f i else U.m i)) =
        .ok (XR.fin H) ∧
      integrateOn grid s (fins (tab N fun _ => 1)) = .ok (XR.fin V) ∧
      integrateOn grid s (fins (tab N U.ratio)) = .ok (XR.fin R) ∧
      integrateOn grid s (fins (tab N U.m)) = .ok (XR.fin M) ∧
      H * (1 - u) ^ (N + 2 * nb + 13) ≤ lm * (∑ k ∈ range nb, c' k) +
        u * τ * updateSlack (∑ k ∈ range nb, c k) V R M L lm N nb / (1 - u) ^ (N + 2 * nb + 13) ∧
      lm * (∑ k ∈ range nb, c' k) * (1 - u) ^ (N + 2 * nb + 13) ≤
        H + u * τ * updateSlack (∑ k ∈ range nb, c k) V R M L lm N nb := by
  obtain ⟨v, hv, -⟩ := hm
  obtain ⟨W, hW, hq⟩ := hv.quad hg
  rw [← hN] at hq
  obtain ⟨p1, p2⟩ := update_ap h0 h1 hτ hg hN hx hL hf hlm hφ hc hW hq U
  have hone := hq.fin fun _ => 1
  simp only [mul_one] at hone
  refine ⟨p1, _, _, _, _, hq.fin _, hone, hq.fin _, hq.fin _, ?_⟩
  refine p2.bounds h0 h1 (sum_nonneg fun i hi => mul_nonneg (hW i) ?_)
  have hi := mem_range.mp hi
  split_ifs
  · exact hf i hi
  · obtain ⟨t, ht, hs⟩ := U.h_m i hi
    exact hs.nonneg h0 h1 fun k hk => (ht k hk).nonneg h0 h1 (mul_nonneg (hφ i hi k hk) (hc k hk))

/-- **C117** (number of electrons).  If no point is masked the sum of the new coefficients is `integral_dens` up to
`3 N + 2 n + 29` roundings and an absolute error with the factor `u τ`. -/
theorem C117_electrons {u τ : ℝ} (h0 : 0 ≤ u) (h1 : u < 1) (hτ : 0 ≤ τ) {grid : Grid} (hg : grid.Positive) {s : Bool}
    {N nb : ℕ} (hN : N = grid.len) (hx : grid.NoTinyPoint τ) {L : ℝ} (hL : grid.LengthLe L) {f : ℕ → ℝ}
    (hf : ∀ i < N, 0 ≤ f i) {μ T lm : ℝ} (hT : 0 < T) (hm : RMultiplier u τ grid s f T lm) (hlm : 0 < lm)
    {φ rad : ℕ → ℕ → ℝ} {pref c c' e' : ℕ → ℝ} (hφ : ∀ i < N, ∀ k < nb, 0 ≤ φ i k) (hc : ∀ k < nb, 0 ≤ c k)
    (U : RUpdate u τ grid s N nb f μ lm φ rad pref c c' e') (hu : ∀ i < N, μ < U.m i ∧ U.z i < U.m i) :
    ∃ V R M E : ℝ, integrateOn grid s (fins (tab N fun _ => 1)) = .ok (XR.fin V) ∧
      integrateOn grid s (fins (tab N U.ratio)) = .ok (XR.fin R) ∧
      integrateOn grid s (fins (tab N U.m)) = .ok (XR.fin M) ∧
      E = u * τ * (updateSlack (∑ k ∈ range nb, c k) V R M L lm N nb + (T + V + L + 2 * N)) / lm ∧
      T * (1 - u) ^ (3 * N + 2 * nb + 29) ≤
        ∑ k ∈ range nb, c' k + E / (1 - u) ^ (3 * N + 2 * nb + 29) ∧
      (∑ k ∈ range nb, c' k) * (1 - u) ^ (3 * N + 2 * nb + 29) ≤ T + E := by
  obtain ⟨v, hv, hvl⟩ := hm
  obtain ⟨W, hW, hq⟩ := hv.quad hg
  rw [← hN] at hq
  obtain ⟨-, p2⟩ := update_ap h0 h1 hτ hg hN hx hL hf hlm hφ hc hW hq U
  have hone := hq.fin fun _ => 1
  simp only [mul_one] at hone
  refine ⟨_, _, _, _, hone, hq.fin _, hq.fin _, rfl, ?_⟩
  have e1 : (∑ i ∈ range N, W i * if μ < U.m i ∧ U.z i < U.m i then f i else U.m i) =
      ∑ i ∈ range N, W i * f i := sum_congr rfl fun i hi => by rw [if_pos (hu i (mem_range.mp hi))]
  rw [e1] at p2
  have q1 := RIntegrate.ap h0 h1 hτ hg hN hq hL.1 (fun i _ => hW i) hL.2 (fun _ => hx) hv hf
  have q2 := (Ap.of_fu h0 h1 hτ hvl).const_mul h0 h1 hT.le
  rw [mul_div_cancel₀ _ hT.ne'] at q2
  have q3 := (q2.trans h0 h1 q1).symm h0 h1
  have q4 := (p2.trans h0 h1 q3).const_mul h0 h1 (z := 1 / lm) (by positivity)
  have e2 : 1 / lm * (lm * ∑ k ∈ range nb, c' k) = ∑ k ∈ range nb, c' k := by field_simp
  have e3 : 1 / lm * (T * lm) = T := by field_simp
  rw [e2, e3] at q4
  have q5 := q4.mono h0 h1 (l := 3 * N + 2 * nb + 29) (by omega) le_rfl
  have e4 : 1 / lm * (u * τ * updateSlack (∑ k ∈ range nb, c k) (∑ i ∈ range N, W i)
      (∑ i ∈ range N, W i * U.ratio i) (∑ i ∈ range N, W i * U.m i) L lm N nb +
        (T * (u * τ) + u * τ * (∑ i ∈ range N, W i + L + 2 * N))) =
      u * τ * (updateSlack (∑ k ∈ range nb, c k) (∑ i ∈ range N, W i)
      (∑ i ∈ range N, W i * U.ratio i) (∑ i ∈ range N, W i * U.m i) L lm N nb +
        (T + ∑ i ∈ range N, W i + L + 2 * N)) / lm := by ring
  rw [e4] at q5
  exact q5.bounds h0 h1 hT.le

/-- The hypotheses of C117 can be met, here with the constants of double precision. -/
example : ∃ (c' e' : ℕ → ℝ) (U : RUpdate (2 ^ (-53 : ℤ)) (2 ^ (-1022 : ℤ)) (.radial ⟨fins [0, 1]⟩) false 2 1
    (fun _ => 1) 0 1 (fun _ _ => 1) (fun _ _ => 1) (fun _ => 3 / 2) (fun _ => 1) c' e'),
    (∀ i < 2, 0 < U.m i ∧ U.z i < U.m i) ∧
      RMultiplier (2 ^ (-53 : ℤ)) (2 ^ (-1022 : ℤ)) (.radial ⟨fins [0, 1]⟩) false (fun _ => 1) 1 1 ∧
      (∀ k < 1, 0 ≤ c' k) ∧ Grid.NoTinyPoint (.radial ⟨fins [0, 1]⟩) (2 ^ (-1022 : ℤ)) ∧
      Grid.LengthLe (.radial ⟨fins [0, 1]⟩) 1 := by
  have h2 : (2 : ℝ) ^ (-1022 : ℤ) ≤ 1 := zpow_le_one_of_nonpos₀ (by norm_num) (by norm_num)
  have hu : (0 : ℝ) ≤ 2 ^ (-53 : ℤ) := by positivity
  have hfin : Grid.Finite (.radial ⟨fins [0, 1]⟩) := ⟨[0, 1], rfl⟩
  obtain ⟨c', e', U, hU⟩ := rupdate_exists (τ := 2 ^ (-1022 : ℤ)) hu hfin (s := false) (by simp) 2 1
    (fun _ => 1) 0 1 (fun _ _ => 1) (fun _ _ => 1) (fun _ => 3 / 2) (fun _ => 1)
  have hx : Grid.NoTinyPoint (.radial ⟨fins [0, 1]⟩) (2 ^ (-1022 : ℤ)) := by
    intro x hx a ha
    simp only [Grid.radial.injEq, RadialGrid.mk.injEq] at hx
    rw [← fins_injective hx] at ha
    simp only [List.mem_cons, List.not_mem_nil, or_false] at ha
    rcases ha with rfl | rfl
    · exact .inl rfl
    · exact .inr (by linarith)
  have hL : Grid.LengthLe (.radial ⟨fins [0, 1]⟩) 1 := by
    refine ⟨by norm_num, fun x hx => ?_⟩
    simp only [Grid.radial.injEq, RadialGrid.mk.injEq] at hx
    rw [← fins_injective hx]
    norm_num
  have hm : RMultiplier (2 ^ (-53 : ℤ)) (2 ^ (-1022 : ℤ)) (.radial ⟨fins [0, 1]⟩) false (fun _ => 1) 1 1 := by
    obtain ⟨I, h1, h2, -⟩ := RIntegrate.exact (τ := 2 ^ (-1022 : ℤ)) hu hfin false (by simp) fun _ => 1
    have h3 := quad_radial_value [0, 1] fun _ => 1
    simp only [Grid.len, fins, List.length_map] at h1
    rw [h3] at h1
    injection h1 with h1
    injection h1 with h1
    norm_num at h1
    subst h1
    exact ⟨1, h2, .inl (by norm_num [Fl])⟩
  refine ⟨c', e', U, fun i _ => ?_, hm, ?_, hx, hL⟩
  · rw [(hU i).1, (hU i).2]
    simp only [sum_range_one, mul_one, one_mul]
    exact ⟨one_pos, tiny_lt_one⟩
  · exact (C117_update hu (by norm_num) (by positivity) (grid := .radial ⟨fins [0, 1]⟩)
      ⟨[0, 1], rfl, by norm_num⟩ rfl hx hL
      (fun _ _ => zero_le_one) hm one_pos (fun _ _ _ _ => zero_le_one) (fun _ _ => zero_le_one) U).1

end
end BFit
