import Verif.Lemmas.EM
import Verif.Props.Gibbs
import Mathlib.Tactic.IntervalCases

/-! Properties of the base class of the fits and of the constructor of `KLDivergenceFPI`. -/

namespace BFit

open Real Classical Finset

noncomputable section

/-! ### C32 -/

/-- **C32** (integration).  With `spherical` a fit on a radial grid integrates `4 π r² f` with its
grid, that is, it returns the sum of the trapezoid areas of that product; without it `f`. -/
theorem C32_integrate (F : Fit) :
    (F.spherical = false → ∀ l, F.integrate l = F.grid.integrate (ND.vec l)) ∧
    (∀ x : List ℝ, F.grid = .radial ⟨fins x⟩ → F.spherical = true → ∀ f : List ℝ, f.length = x.length →
      F.integrate (fins f) =
        F.grid.integrate (ND.vec (fins (List.zipWith (fun r v => 4 * π * r ^ 2 * v) x f))) ∧
      F.integrate (fins f) =
        .ok (XR.fin (trapezoidAreas x (List.zipWith (fun r v => 4 * π * r ^ 2 * v) x f)))) := by
  constructor
  · intro h l
    simp [Fit.integrate, integrateOn, h]
  · intro x hg hs f hf
    have h1 : F.integrate (fins f) =
        F.grid.integrate (ND.vec (fins (List.zipWith (fun r v => 4 * π * r ^ 2 * v) x f))) := by
      have e1 : f = tab x.length (vec f) := eq_range_map f _ hf
      have e2 : x = tab x.length (vec x) := eq_range_map x _ rfl
      simp only [Fit.integrate, hg, hs, integrateOn, if_true]
      unfold bcast
      rw [if_pos (by simp [hf])]
      simp only
      congr 2
      conv_lhs => rw [e1]
      conv_lhs => rw [e2]
      conv_rhs => rw [e1]
      conv_rhs => rw [e2]
      simp only [fins, tab, List.map_map, List.zipWith_map, List.zipWith_self, List.length_map,
        List.length_range, Function.comp_def]
      apply List.map_congr_left
      intro i _
      simp
      ring
    refine ⟨h1, ?_⟩
    rw [h1, hg]
    exact C02_trapezoid_areas x _ (by simp [hf])

theorem integrateOn_ok {grid : Grid} {density : List XR} {spherical : Bool}
    (hs : spherical = true → ∃ g, grid = .radial g) (hl : density.length = grid.len) (hg : grid.Full) :
    ∃ v, integrateOn grid spherical density = .ok v := by
  unfold integrateOn
  split
  · obtain ⟨g, rfl⟩ := hs (by assumption)
    simp only
    unfold bcast
    have hl' : density.length = g.points.length := hl
    rw [if_pos (by simp [hl'])]
    exact grid_integrate_ok (.radial _) trivial _ (by simp [Grid.len, hl'])
  · exact grid_integrate_ok _ hg _ hl

theorem construct_of {grid : Grid} {density : List XR} (model : GModel) (T : Option XR)
    {spherical : Bool} (mask : XR) (hn : ∀ x ∈ density, ¬ x < XR.fin 0)
    (hs : spherical = true → ∃ g, grid = .radial g) (hi : ∃ v, integrateOn grid spherical density = .ok v) :
    ∃ F, Fit.init grid density model T spherical mask = .ok F ∧ F.grid = grid ∧ F.density = density ∧
      F.model = model ∧ F.spherical = spherical ∧ F.maskValue = mask ∧
      (∀ v, T = some v → F.integralDens = v) ∧
      (T = none → F.integrate density = .ok F.integralDens) := by
  unfold Fit.init
  rw [if_neg (by push Not; exact hn), if_neg]
  swap
  · rintro ⟨h1, h2⟩
    obtain ⟨g, rfl⟩ := hs h2
    simp [Grid.multiDim] at h1
  cases T with
  | some v => exact ⟨_, rfl, rfl, rfl, rfl, rfl, rfl, by simp, by simp⟩
  | none =>
    obtain ⟨v, hv⟩ := hi
    simp only [hv]
    exact ⟨_, rfl, rfl, rfl, rfl, rfl, rfl, by simp, by simp [Fit.integrate, hv]⟩

/-- **C32** (construction).  Negative densities and spherical fits on cubic grids are refused with
ValueError; otherwise an object with exactly the given data is made, and an omitted `integral_dens`
is the (spherical) integral of the density. -/
theorem C32_construct (grid : Grid) (density : List XR) (model : GModel) (T : Option XR)
    (spherical : Bool) (mask : XR) :
    ((∃ x ∈ density, x < XR.fin 0) → Fit.init grid density model T spherical mask = .error .valueError) ∧
    ((∃ g, grid = .cubic g) → spherical = true →
      Fit.init grid density model T spherical mask = .error .valueError) ∧
    ((∀ x ∈ density, ¬ x < XR.fin 0) → (spherical = true → ∃ g, grid = .radial g) →
      density.length = grid.len → grid.Full →
      ∃ F, Fit.init grid density model T spherical mask = .ok F ∧ F.grid = grid ∧ F.density = density ∧
        F.model = model ∧ F.spherical = spherical ∧ F.maskValue = mask ∧
        (∀ v, T = some v → F.integralDens = v) ∧
        (T = none → F.integrate density = .ok F.integralDens)) := by
  refine ⟨?_, ?_, ?_⟩
  · intro h
    unfold Fit.init
    rw [if_pos h]; rfl
  · rintro ⟨g, rfl⟩ hs
    unfold Fit.init
    split
    · rfl
    · rw [if_pos ⟨rfl, hs⟩]; rfl
  · intro hn hs hl hg
    exact construct_of model T mask hn hs (integrateOn_ok hs hl hg)

/-- A spherical integral: the constant function `1` on the grid `0, 1, 2`. -/
example (d : List XR) (m : GModel) : (Fit.mk (.radial ⟨fins [0, 1, 2]⟩) d m (XR.fin 1) true
    (XR.fin 0)).integrate (fins [1, 1, 1]) = .ok (XR.fin (12 * π)) := by
  rw [((C32_integrate _).2 [0, 1, 2] rfl rfl [1, 1, 1] rfl).2]
  norm_num [trapezoidAreas, Finset.sum_range_succ]
  ring

/-! ### C33 -/

/-- **C33**.  `goodness_of_fit` returns the integral of the model, the L1, L∞ and squared L2
distances of density and model, and the integrated Kullback-Leibler values; the L∞ distance is
attained; on a grid with non-negative weights the L1 distance bounds the difference of the integrals;
and the four distances vanish for a model that reproduces a positive density (above the mask). -/
theorem C33_goodness {F : Fit} {norm : Bool} {S : Shape} {N : ℕ} {W f : ℕ → ℝ}
    (h : FitData F norm S N W f) (hN : 0 < N) (c e : List ℝ) (hc : c.length = S.nb)
    (he : e.length = S.nb) (hpos : norm = true → ∀ a ∈ e, 0 ≤ a) :
    ∃ (i l1 linf ls : ℝ) (kl : XR),
      F.goodness (fins c) (fins e) =
        .ok ⟨XR.fin i, XR.fin l1, XR.fin linf, XR.fin ls, kl⟩ ∧
      i = ∑ j ∈ range N, W j * S.dens norm (vec c) (vec e) j ∧
      l1 = ∑ j ∈ range N, W j * |f j - S.dens norm (vec c) (vec e) j| ∧
      ls = ∑ j ∈ range N, W j * (f j - S.dens norm (vec c) (vec e) j) ^ 2 ∧
      (∀ j < N, |f j - S.dens norm (vec c) (vec e) j| ≤ linf) ∧
      (∃ j < N, |f j - S.dens norm (vec c) (vec e) j| = linf) ∧
      ((∀ j < N, 0 ≤ W j) → |∑ j ∈ range N, W j * f j - i| ≤ l1) ∧
      (∀ μ, F.maskValue = XR.fin μ → (∀ j < N, 0 < f j) →
        (∀ j < N, Unmasked μ (f j) (S.dens norm (vec c) (vec e) j)) →
        kl = XR.fin (∑ j ∈ range N, W j * klInt (f j) (S.dens norm (vec c) (vec e) j))) ∧
      ((∀ j < N, S.dens norm (vec c) (vec e) j = f j) → l1 = 0 ∧ linf = 0 ∧ ls = 0) ∧
      (∀ μ, F.maskValue = XR.fin μ → (∀ j < N, 0 < f j) →
        (∀ j < N, S.dens norm (vec c) (vec e) j = f j) → kl = XR.fin 0) := by
  obtain ⟨M, kl, h1, h2, h3, h4⟩ := goodness_fins h hN c e hc he hpos
  refine ⟨_, _, M, _, kl, h1, rfl, rfl, rfl, h3, h2, ?_, ?_, ?_, ?_⟩
  · intro hW
    rw [← Finset.sum_sub_distrib]
    refine (Finset.abs_sum_le_sum_abs _ _).trans (le_of_eq ?_)
    apply Finset.sum_congr rfl
    intro j hj
    rw [← mul_sub, abs_mul, abs_of_nonneg (hW j (mem_range.mp hj))]
  · intro μ hμ hf hu
    rw [h4 μ hμ hf fun j hj => (unmasked_pos (hf j hj).le (hu j hj)).le]
    congr 1
    exact Finset.sum_congr rfl fun j hj => by rw [klVal_unmasked (hu j (mem_range.mp hj))]
  · intro heq
    refine ⟨?_, ?_, ?_⟩
    · exact Finset.sum_eq_zero fun j hj => by rw [heq j (mem_range.mp hj)]; simp
    · obtain ⟨j, hj, hj2⟩ := h2
      rw [← hj2, heq j hj]; simp
    · exact Finset.sum_eq_zero fun j hj => by rw [heq j (mem_range.mp hj)]; simp
  · intro μ hμ hf heq
    rw [h4 μ hμ hf fun j hj => (heq j hj).symm ▸ (hf j hj).le]
    congr 1
    apply Finset.sum_eq_zero
    intro j hj
    have hj := mem_range.mp hj
    rw [heq j hj]
    unfold klVal
    split
    · unfold klInt; rw [div_self (hf j hj).ne']; simp
    · simp

/-- An atomic model with one s-type function on the grid `0, 1, 2`. -/
def demoS (norm : Bool) : Atomic :=
  { points := .one (fins [0, 1, 2]), coord := fins [0], radii := fins [0, 1, 2], ns := 1, np := 0,
    normalized := norm }

theorem demoS_isModel (norm : Bool) :
    IsModel (.atom (demoS norm)) norm (atomShape [0, 1, 2] 1 0) 3 :=
  atom_isModel (rs := [0, 1, 2]) ⟨rfl, rfl, rfl⟩ (by simp)

theorem demo_quad : Quad (.radial ⟨fins [0, 1, 2]⟩) false 3 (vec [1 / 2, 1, 1 / 2]) := by
  have h := quad_plain (hasWeights_radial [0, 1, 2])
  have e : trapW [0, 1, 2] = [1 / 2, 1, 1 / 2] := by norm_num [trapW, trapWAux]
  rw [e] at h
  exact h

/-- A fit of the densities `f 0, f 1, f 2`. -/
def demoFit (norm : Bool) (f : ℕ → ℝ) : Fit :=
  ⟨.radial ⟨fins [0, 1, 2]⟩, fins (tab 3 f), .atom (demoS norm), XR.fin 1, false, XR.fin 0⟩

theorem demoFit_data (norm : Bool) (f : ℕ → ℝ) :
    FitData (demoFit norm f) norm (atomShape [0, 1, 2] 1 0) 3 (vec [1 / 2, 1, 1 / 2]) f :=
  ⟨demoS_isModel norm, rfl, demo_quad⟩

/-- The density `exp(-r²)` is reproduced by the unnormalised model with coefficient and exponent 1. -/
example : ∃ p, (demoFit false fun i => exp (-(i : ℝ) ^ 2)).goodness (fins [1]) (fins [1]) = .ok p ∧
    p.l1 = XR.fin 0 ∧ p.linf = XR.fin 0 ∧ p.ls = XR.fin 0 ∧ p.kl = XR.fin 0 := by
  obtain ⟨i, l1, linf, ls, kl, h, -, -, -, -, -, -, -, h8, h9⟩ := C33_goodness
    (demoFit_data false fun i => exp (-(i : ℝ) ^ 2)) (by norm_num) [1] [1] rfl rfl (by simp)
  have heq : ∀ j < 3, (atomShape [0, 1, 2] 1 0).dens false (vec [1]) (vec [1]) j =
      exp (-(j : ℝ) ^ 2) := by
    intro j hj
    interval_cases j <;> simp [Shape.dens, atomShape, bf, sBasis, vec]
  obtain ⟨rfl, rfl, rfl⟩ := h8 heq
  exact ⟨_, h, rfl, rfl, rfl, h9 0 rfl (fun j _ => exp_pos _) heq⟩

/-! ### C34 -/

theorem lagrange_of {grid : Grid} {density : List XR} (model : GModel) (T : Option XR)
    {spherical : Bool} (mask : XR) (hn : ∀ x ∈ density, ¬ x < XR.fin 0)
    (hs : spherical = true → ∃ g, grid = .radial g) {v : XR} (hv : integrateOn grid spherical density = .ok v) :
      (FPI.init grid density model mask T spherical = .error .runtimeError ↔
        v / T.getD v = XR.fin 0 ∨ v / T.getD v = XR.nan) ∧
      (¬ (v / T.getD v = XR.fin 0 ∨ v / T.getD v = XR.nan) →
        ∃ F, FPI.init grid density model mask T spherical = .ok F ∧ F.lm = v / T.getD v ∧
          F.integralDens = T.getD v ∧ F.grid = grid ∧ F.density = density ∧ F.model = model ∧
          F.spherical = spherical ∧ F.maskValue = mask) := by
  obtain ⟨F, hF, h1, h2, h3, h4, h5, h6, h7⟩ := construct_of model T mask hn hs ⟨v, hv⟩
  have hT : F.integralDens = T.getD v := by
    cases T with
    | some t => simpa using h6 t rfl
    | none =>
      have := h7 rfl
      simp only [Fit.integrate, h1, h4, hv] at this
      injection this with this
      simp [this]
  have hi : F.integrate F.density = .ok v := by
    simp [Fit.integrate, h1, h2, h4, hv]
  unfold FPI.init
  rw [hF]
  simp only [hi, hT]
  by_cases hz : v / T.getD v = XR.fin 0 ∨
      v / T.getD v = XR.nan
  · rw [if_pos hz]
    exact ⟨⟨fun _ => hz, fun _ => rfl⟩, fun h => absurd hz h⟩
  · rw [if_neg hz]
    refine ⟨⟨fun h => by simp at h, fun h => absurd h hz⟩, fun _ => ⟨_, rfl, rfl, hT, h1, h2, h3, h4, h5⟩⟩

/-- **C34** (general).  The constructor stores the quotient of the integral of the density and
`integral_dens`, for arbitrary (also infinite or NaN) values, and raises RuntimeError exactly when
the quotient is zero or NaN. -/
theorem C34_lagrange (grid : Grid) (density : List XR) (model : GModel) (T : Option XR)
    (spherical : Bool) (mask : XR) (hn : ∀ x ∈ density, ¬ x < XR.fin 0)
    (hs : spherical = true → ∃ g, grid = .radial g) (hl : density.length = grid.len)
    (hg : grid.Full) :
    ∃ v, integrateOn grid spherical density = .ok v ∧
      (FPI.init grid density model mask T spherical = .error .runtimeError ↔
        v / T.getD v = XR.fin 0 ∨ v / T.getD v = XR.nan) ∧
      (¬ (v / T.getD v = XR.fin 0 ∨ v / T.getD v = XR.nan) →
        ∃ F, FPI.init grid density model mask T spherical = .ok F ∧ F.lm = v / T.getD v ∧
          F.integralDens = T.getD v ∧ F.grid = grid ∧ F.density = density ∧ F.model = model ∧
          F.spherical = spherical ∧ F.maskValue = mask) := by
  obtain ⟨v, hv⟩ := integrateOn_ok hs hl hg
  exact ⟨v, hv, lagrange_of model T mask hn hs hv⟩

/-- A `KLDivergenceFPI` object on finite data that fits the density `f` with mask `μ`, target
integral `T` and a non-zero multiplier. -/
structure IsFPI (F : FPI) (norm : Bool) (S : Shape) (N : ℕ) (W f : ℕ → ℝ) (μ T : ℝ) : Prop where
  data : FitData F.toFit norm S N W f
  f_nonneg : ∀ i < N, 0 ≤ f i
  mask : F.maskValue = XR.fin μ
  target : F.integralDens = XR.fin T
  lm : F.lm = XR.fin ((∑ i ∈ range N, W i * f i) / T)
  lm_ne : (∑ i ∈ range N, W i * f i) / T ≠ 0

/-- **C34** (finite data).  With a non-zero target `T` (given, or the integral of the density) and a
non-zero integral the constructor succeeds with multiplier integral / target, which is `1` when the
target is omitted; with a zero integral it raises RuntimeError. -/
theorem C34_finite {grid : Grid} {spherical norm : Bool} {model : GModel} {S : Shape} {N : ℕ}
    {W f : ℕ → ℝ} (μ : ℝ) (T : Option ℝ) (hm : IsModel model norm S N) (hq : Quad grid spherical N W)
    (hs : spherical = true → ∃ g, grid = .radial g) (hf : ∀ i < N, 0 ≤ f i) :
    (∑ i ∈ range N, W i * f i ≠ 0 → T ≠ some 0 →
      ∃ F, FPI.init grid (fins (tab N f)) model (XR.fin μ) (T.map XR.fin) spherical = .ok F ∧
        IsFPI F norm S N W f μ (T.getD (∑ i ∈ range N, W i * f i)) ∧
        (T = none → F.lm = XR.fin 1)) ∧
    (∑ i ∈ range N, W i * f i = 0 →
      FPI.init grid (fins (tab N f)) model (XR.fin μ) (T.map XR.fin) spherical =
        .error .runtimeError) := by
  have hn : ∀ x ∈ fins (tab N f), ¬ x < XR.fin 0 := by
    intro x hx
    simp only [fins, tab, List.mem_map, List.mem_range] at hx
    obtain ⟨_, ⟨i, hi, rfl⟩, rfl⟩ := hx
    simpa using hf i hi
  obtain ⟨v, hv⟩ : ∃ v, XR.fin (∑ i ∈ range N, W i * f i) = v := ⟨_, rfl⟩
  obtain ⟨h1, h2⟩ := lagrange_of model (T.map XR.fin) (XR.fin μ) hn hs ((hq.fin f).trans (congrArg _ hv))
  have hT : (T.map XR.fin).getD v = XR.fin (T.getD (∑ i ∈ range N, W i * f i)) := by
    cases T <;> simp [← hv]
  rw [hT, ← hv] at h1 h2
  constructor
  · intro h0 hT0
    have hT1 : T.getD (∑ i ∈ range N, W i * f i) ≠ 0 := by
      cases T with
      | none => simpa using h0
      | some t => simpa using hT0
    rw [XR.div_fin_of_ne _ hT1] at h2
    have hne := div_ne_zero h0 hT1
    obtain ⟨F, hF, f1, f2, f3, f4, f5, f6, f7⟩ := h2 (by simp [h0, hT1])
    refine ⟨F, hF, ⟨⟨?_, f4, ?_⟩, hf, f7, f2, f1, hne⟩, ?_⟩
    · rw [f5]; exact hm
    · rw [f3, f6]; exact hq
    · rintro rfl
      rw [f1]
      simp [div_self h0]
  · intro h0
    apply h1.mpr
    rw [h0]
    by_cases hT1 : T.getD 0 = 0
    · right; rw [hT1, XR.div_fin, if_pos rfl]; simp
    · left; rw [XR.div_fin_of_ne _ hT1]; simp

/-- A zero target is accepted: the multiplier is infinite (unless the density integrates to zero). -/
theorem C34_zero_target {grid : Grid} {spherical : Bool} {model : GModel} {N : ℕ}
    {W f : ℕ → ℝ} (mask : XR) (hq : Quad grid spherical N W)
    (hs : spherical = true → ∃ g, grid = .radial g) (hf : ∀ i < N, 0 ≤ f i)
    (hpos : 0 < ∑ i ∈ range N, W i * f i) :
    ∃ F, FPI.init grid (fins (tab N f)) model mask (some (XR.fin 0)) spherical = .ok F ∧
      F.lm = XR.pinf := by
  have hn : ∀ x ∈ fins (tab N f), ¬ x < XR.fin 0 := by
    intro x hx
    simp only [fins, tab, List.mem_map, List.mem_range] at hx
    obtain ⟨_, ⟨i, hi, rfl⟩, rfl⟩ := hx
    simpa using hf i hi
  obtain ⟨h1, h2⟩ := lagrange_of model (some (XR.fin 0)) mask hn hs (hq.fin f)
  have : XR.fin (∑ i ∈ range N, W i * f i) / XR.fin 0 = XR.pinf := by
    rw [XR.div_fin, if_pos rfl, XR.sgnInf_pos hpos]
  simp only [Option.getD_some, this] at h2
  obtain ⟨F, hF, f1, -⟩ := h2 (by simp)
  exact ⟨F, hF, f1⟩

/-- An object for density `1, 2, 3` on `0, 1, 2` with target 8: the multiplier is 4 / 8. -/
example : ∃ F, FPI.init (.radial ⟨fins [0, 1, 2]⟩) (fins (tab 3 fun i => (i : ℝ) + 1))
    (.atom (demoS true)) (XR.fin 0) (some (XR.fin 8)) false = .ok F ∧ F.lm = XR.fin (1 / 2) := by
  obtain ⟨F, h1, h2, -⟩ := (C34_finite (f := fun i => (i : ℝ) + 1) 0 (some 8) (demoS_isModel true)
    demo_quad (by simp) (by intros; positivity)).1
    (by norm_num [Finset.sum_range_succ, vec]) (by norm_num)
  exact ⟨F, h1, by rw [h2.lm]; norm_num [Finset.sum_range_succ, vec]⟩

end
end BFit
