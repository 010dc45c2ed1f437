import Verif.Model.Grid
import Verif.Spec.Py
import Verif.Lemmas.Trapz
import Mathlib.Data.List.Sort
import Mathlib.Tactic.FieldSimp
import Mathlib.Tactic.NormNum

/-! Properties C01-C05: radial grids (`bfit/grid.py`). -/

namespace BFit

/-- Specification of "the integral is the sum of the trapezoid areas of consecutive points". -/
noncomputable def trapezoidAreas (x f : List ℝ) : ℝ :=
  ∑ i ∈ Finset.range (x.length - 1),
    (x.getD (i + 1) 0 - x.getD i 0) * ((f.getD i 0 + f.getD (i + 1) 0) / 2)

theorem integrate_fins (x f : List ℝ) (h : f.length = x.length) :
    (RadialGrid.mk (fins x)).integrate (ND.vec (fins f)) = .ok (XR.fin (trapezoid x f)) := by
  unfold RadialGrid.integrate ND.vec
  rw [if_neg (by simp [h]), trapz_fins f x h]

/-- **C01** (shape part).  `integrate` raises ValueError exactly for arrays that do not have one
entry per grid point, and raises nothing else. -/
theorem C01_shape_check (g : RadialGrid) (arr : ND XR) :
    (g.integrate arr = .error .valueError ↔ arr.shape ≠ [g.points.length]) ∧
    (arr.shape = [g.points.length] → ∃ v, g.integrate arr = .ok v) := by
  unfold RadialGrid.integrate raise
  constructor
  · split <;> simp_all
  · intro h; simp [h]

/-- **C01** (linearity).  On every finite grid, in any order, integration is linear. -/
theorem C01_linear (x f g : List ℝ) (a b : ℝ) (hf : f.length = x.length) (hg : g.length = x.length) :
    ∃ F G : ℝ,
      (RadialGrid.mk (fins x)).integrate (ND.vec (fins f)) = .ok (XR.fin F) ∧
      (RadialGrid.mk (fins x)).integrate (ND.vec (fins g)) = .ok (XR.fin G) ∧
      (RadialGrid.mk (fins x)).integrate
          (ND.vec (List.zipWith (fun u v => XR.fin a * u + XR.fin b * v) (fins f) (fins g)))
        = .ok (XR.fin (a * F + b * G)) := by
  refine ⟨trapezoid x f, trapezoid x g, integrate_fins x f hf, integrate_fins x g hg, ?_⟩
  rw [zipWith_fins (g := fun u v => a * u + b * v) (by simp),
    integrate_fins _ _ (by simp [hf, hg]), trapezoid_eq_wsum _ _ (by simp [hf, hg]),
    wsum_linear _ _ _ _ _ (by simp [trapW_length, hf]) (by simp [trapW_length, hg]),
    trapezoid_eq_wsum _ _ hf, trapezoid_eq_wsum _ _ hg]

example : (RadialGrid.mk (fins [0, 1, 3])).integrate (ND.vec (fins [1, 2, 4])) =
    .ok (XR.fin (15 / 2)) := by
  rw [integrate_fins [0, 1, 3] [1, 2, 4] rfl]; norm_num [trapezoid]

/-- **C02** (areas).  `integrate` returns the sum of the trapezoid areas of consecutive points. -/
theorem C02_trapezoid_areas (x f : List ℝ) (hf : f.length = x.length) :
    (RadialGrid.mk (fins x)).integrate (ND.vec (fins f)) = .ok (XR.fin (trapezoidAreas x f)) := by
  rw [integrate_fins x f hf, trapezoid_eq_sum x f hf, trapezoidAreas]
  simp only [mul_div_assoc]

/-- **C02** (exactness).  Straight lines are integrated exactly on every non-empty grid. -/
theorem C02_exact_for_lines (x : List ℝ) (hx : x ≠ []) (a b : ℝ) :
    (RadialGrid.mk (fins x)).integrate (ND.vec (fins (x.map fun r => a + b * r))) =
      .ok (XR.fin (a * (x.getLast hx - x.head hx) + b * (x.getLast hx ^ 2 - x.head hx ^ 2) / 2)) := by
  rw [integrate_fins _ _ (by simp)]
  cases x with
  | nil => exact absurd rfl hx
  | cons x₀ xs => rw [trapezoid_line _ a b x₀ xs rfl]; rfl

example : (RadialGrid.mk (fins [1, 2, 5])).integrate (ND.vec (fins [5, 7, 13])) =
    .ok (XR.fin 36) := by
  have := C02_exact_for_lines [1, 2, 5] (by simp) 3 2
  norm_num at this ⊢
  exact this

/-- **C03**.  On an ascending grid integration is monotone. -/
theorem C03_monotone (x f g : List ℝ) (hx : x.Pairwise (· ≤ ·)) (hf : f.length = x.length)
    (hfg : List.Forall₂ (· ≤ ·) f g) :
    ∃ F G : ℝ, F ≤ G ∧
      (RadialGrid.mk (fins x)).integrate (ND.vec (fins f)) = .ok (XR.fin F) ∧
      (RadialGrid.mk (fins x)).integrate (ND.vec (fins g)) = .ok (XR.fin G) := by
  have hg : g.length = x.length := by rw [← hfg.length_eq, hf]
  refine ⟨_, _, ?_, integrate_fins x f hf, integrate_fins x g hg⟩
  rw [trapezoid_eq_wsum _ _ hf, trapezoid_eq_wsum _ _ hg]
  exact wsum_mono _ _ _ (trapW_nonneg x hx) hfg

/-- **C03** (corollary).  A non-negative integrand never integrates to a negative number on an
ascending grid. -/
theorem C03_nonneg (x f : List ℝ) (hx : x.Pairwise (· ≤ ·)) (hf : f.length = x.length)
    (hpos : ∀ v ∈ f, 0 ≤ v) :
    ∃ F : ℝ, 0 ≤ F ∧ (RadialGrid.mk (fins x)).integrate (ND.vec (fins f)) = .ok (XR.fin F) := by
  refine ⟨_, ?_, integrate_fins x f hf⟩
  rw [trapezoid_eq_wsum _ _ hf]
  exact wsum_nonneg _ _ (trapW_nonneg x hx) hpos

/-- The hypotheses of C03 are met by a three-point grid; the ordering hypothesis matters: on a
descending grid the same integrand has a negative integral. -/
example : ([0, 1, 3] : List ℝ).Pairwise (· ≤ ·) ∧
    (RadialGrid.mk (fins [3, 1, 0])).integrate (ND.vec (fins [1, 1, 1])) = .ok (XR.fin (-3)) := by
  constructor
  · norm_num
  · rw [integrate_fins [3, 1, 0] [1, 1, 1] rfl]; norm_num [trapezoid]

/-! ### C04: uniform grids -/

/-- The real points of `np.linspace`. -/
noncomputable def linspaceR (a b : ℝ) (n : ℕ) : List ℝ :=
  (List.range n).map (fun (i : ℕ) => a + i * ((b - a) / ((n : ℝ) - 1)))

theorem npLinspace_fins (a b : ℝ) (n : ℕ) (hn : 0 < n) :
    npLinspace (XR.fin a) (XR.fin b) n = fins (linspaceR a b n) := by
  unfold npLinspace linspaceR
  by_cases h1 : n = 1
  · subst h1; simp
  · have h2 : 2 ≤ n := by omega
    have hne : ((n : ℝ) - 1) ≠ 0 := by
      have : (2 : ℝ) ≤ n := by exact_mod_cast h2
      linarith
    rw [if_neg h1, if_neg (by omega)]
    obtain ⟨m, rfl⟩ : ∃ m, n = m + 1 := ⟨n - 1, by omega⟩
    rw [Nat.add_sub_cancel, List.range_succ, List.map_append, fins_append]
    congr 1
    · simp only [fins, List.map_map]
      apply List.map_congr_left
      intro i _
      simp only [Function.comp, XR.sub_fin, XR.div_fin_of_ne _ hne, XR.mul_fin, XR.add_fin]
      rw [add_comm]
    · simp only [List.map_cons, List.map_nil, List.cons.injEq, and_true,
        XR.fin_inj]
      push_cast at hne ⊢
      rw [add_sub_cancel_right] at hne ⊢
      rw [mul_div_cancel₀ _ hne]; ring

/-- **C04** (points).  For `n > 0` and finite `a < b` the grid has `n` points `pts`, starts at
`a`, ends at `b` (for `n ≥ 2`), has constant step `(b-a)/(n-1)`, is strictly increasing and stays
inside `[a, b]`. -/
theorem C04_uniform_points (n : ℤ) (hn : 0 < n) (nObj aObj bObj : PyObj) (a b : ℝ) (hab : a < b)
    (hnO : nObj.IsInt n) (haO : aObj.IsNumber (XR.fin a)) (hbO : bObj.IsNumber (XR.fin b)) :
    ∃ pts : List ℝ, uniformRadialGrid nObj aObj bObj = .ok ⟨fins pts⟩ ∧
      (pts.length : ℤ) = n ∧ pts[0]? = some a ∧ (2 ≤ n → pts.getLast? = some b) ∧
      (∀ i u v, pts[i]? = some u → pts[i + 1]? = some v → v - u = (b - a) / ((n : ℝ) - 1)) ∧
      pts.Pairwise (· < ·) ∧ ∀ r ∈ pts, a ≤ r ∧ r ≤ b := by
  rw [isInt_iff] at hnO
  rw [isNumber_iff] at haO hbO
  obtain ⟨m, rfl⟩ : ∃ m : ℕ, n = m + 1 := ⟨(n - 1).toNat, by omega⟩
  refine ⟨linspaceR a b (m + 1), ?_, ?_, ?_, ?_, ?_, ?_, ?_⟩
  · unfold uniformRadialGrid
    rw [hnO]
    simp only
    rw [if_neg (by omega), haO, hbO]
    simp only [XR.le_fin]
    rw [if_neg (not_le.mpr hab)]
    have : ((m : ℤ) + 1).toNat = m + 1 := by omega
    rw [this, npLinspace_fins _ _ _ (by omega)]
  · simp [linspaceR]
  · simp [linspaceR]
  · intro h2
    have hm : (m : ℝ) ≠ 0 := by
      have : 1 ≤ m := by omega
      positivity
    simp only [linspaceR, List.range_succ, List.map_append, List.map_cons, List.map_nil,
      List.getLast?_append, List.getLast?_singleton, Option.some_or, Option.some.injEq]
    push_cast
    rw [add_sub_cancel_right, mul_div_cancel₀ _ hm]; ring
  · intro i u v hu hv
    simp only [linspaceR, List.getElem?_map, Option.map_eq_some_iff] at hu hv
    obtain ⟨j, hj, rfl⟩ := hu
    obtain ⟨k, hk, rfl⟩ := hv
    rw [List.getElem?_range (by
      by_contra hc; rw [List.getElem?_eq_none (by simpa using hc)] at hj; simp at hj)] at hj
    rw [List.getElem?_range (by
      by_contra hc; rw [List.getElem?_eq_none (by simpa using hc)] at hk; simp at hk)] at hk
    simp only [Option.some.injEq] at hj hk
    subst hj; subst hk
    push_cast; ring
  · unfold linspaceR
    rcases Nat.eq_zero_or_pos m with rfl | hm
    · simp
    · rw [List.pairwise_map]
      have hstep : 0 < (b - a) / (((m + 1 : ℕ) : ℝ) - 1) := by
        have : (0 : ℝ) < m := by exact_mod_cast hm
        push_cast; rw [add_sub_cancel_right]
        exact div_pos (by linarith) this
      refine List.Pairwise.imp ?_ List.pairwise_lt_range
      intro i j hij
      have : (i : ℝ) < j := by exact_mod_cast hij
      have := mul_lt_mul_of_pos_right this hstep
      linarith
  · intro r hr
    simp only [linspaceR, List.mem_map, List.mem_range] at hr
    obtain ⟨i, hi, rfl⟩ := hr
    rcases Nat.eq_zero_or_pos m with rfl | hm
    · have : i = 0 := by omega
      subst this; simp [hab.le]
    · have hm' : (0 : ℝ) < m := by exact_mod_cast hm
      have hi' : (i : ℝ) ≤ m := by exact_mod_cast (by omega : i ≤ m)
      have hstep : 0 ≤ (b - a) / (((m + 1 : ℕ) : ℝ) - 1) := by
        push_cast; rw [add_sub_cancel_right]
        exact (div_pos (by linarith) hm').le
      constructor
      · have := mul_nonneg (Nat.cast_nonneg (α := ℝ) i) hstep
        linarith
      · have h1 := mul_le_mul_of_nonneg_right hi' hstep
        have h2 : (m : ℝ) * ((b - a) / (((m + 1 : ℕ) : ℝ) - 1)) = b - a := by
          push_cast; rw [add_sub_cancel_right, mul_div_cancel₀ _ hm'.ne']
        linarith

/-- **C04** (errors).  TypeError exactly when the count is not a positive integer or a bound is not
a number; ValueError exactly when the arguments have the right types and `max <= min`. -/
theorem C04_uniform_errors (nObj aObj bObj : PyObj) :
    (uniformRadialGrid nObj aObj bObj = .error .typeError ↔
      (∀ n, nObj.IsInt n → n ≤ 0) ∨ (∀ x, ¬ aObj.IsNumber x) ∨ ∀ x, ¬ bObj.IsNumber x) ∧
    (uniformRadialGrid nObj aObj bObj = .error .valueError ↔
      ∃ n lo hi, nObj.IsInt n ∧ 0 < n ∧ aObj.IsNumber lo ∧ bObj.IsNumber hi ∧ hi ≤ lo) ∧
    (∀ e, uniformRadialGrid nObj aObj bObj = .error e → e = .typeError ∨ e = .valueError) := by
  simp only [not_isNumber_iff]
  simp only [isInt_iff, isNumber_iff]
  unfold uniformRadialGrid raise
  rcases hn : nObj.asInt? with _ | n
  · simp [eq_comm]
  · by_cases h0 : n ≤ 0
    · simp [h0, eq_comm]
    · have h0' : 0 < n := by omega
      rcases ha : aObj.asReal? with _ | lo
      · simp [h0, eq_comm]
      · rcases hb : bObj.asReal? with _ | hi
        · simp [h0, eq_comm]
        · by_cases hc : hi ≤ lo
          · simp [h0, hc, h0', eq_comm]
          · simp [h0, hc]

example : ∃ g, uniformRadialGrid (.int 3) (.int 0) (.float (XR.fin 1)) = .ok g ∧
    g.points = fins [0, 1 / 2, 1] := by
  refine ⟨⟨npLinspace (XR.fin 0) (XR.fin 1) 3⟩, ?_, ?_⟩
  · simp [uniformRadialGrid, PyObj.asInt?, PyObj.asReal?]
  · show npLinspace (XR.fin 0) (XR.fin 1) 3 = _
    rw [npLinspace_fins _ _ _ (by norm_num)]
    norm_num [linspaceR, List.range_succ]

/-! ### C05: Clenshaw-Curtis grids -/

/-- Documented core points: `(1 - cos(pi p / 2n)) / 2Z` for `p = 0..n-1` (or `1..n`). -/
noncomputable def coreSpec (z : ℤ) (n : ℕ) (o : Bool) : List ℝ :=
  (List.range n).map fun (p : ℕ) =>
    (1 - Real.cos (Real.pi * ((p + (if o then 0 else 1) : ℕ) : ℝ) / (2 * n))) / (2 * z)

/-- Documented diffuse points: `25 (1 - cos(pi p / 2n))` for `p = 1..n`. -/
noncomputable def diffuseSpec (n : ℕ) : List ℝ :=
  (List.range n).map fun (p : ℕ) =>
    25 * (1 - Real.cos (Real.pi * ((p + 1 : ℕ) : ℝ) / (2 * n)))

theorem clenshaw_core (z : ℤ) (hz : 0 < z) (n : ℕ) (o : Bool) :
    clenshawPoints z n .core o = fins (coreSpec z n o) := by
  simp only [clenshawPoints, coreSpec, fins, List.map_map]
  apply List.map_congr_left
  intro p hp
  have hn : (n : ℝ) ≠ 0 := by
    have : 0 < n := by have := List.mem_range.mp hp; omega
    positivity
  have hz' : (2 * (z : ℝ)) ≠ 0 := by
    have : (0 : ℝ) < z := by exact_mod_cast hz
    positivity
  simp only [Function.comp, XR.mul_fin, XR.div_fin_of_ne _ hn, XR.cos_fin, XR.sub_fin,
    XR.div_fin_of_ne _ hz', XR.fin_inj]
  congr 3
  cases o <;> (push_cast; field_simp; norm_num <;> ring)

theorem clenshaw_diffuse (z : ℤ) (n : ℕ) (o : Bool) :
    clenshawPoints z n .diffuse o = fins (diffuseSpec n) := by
  simp only [clenshawPoints, diffuseSpec, fins, List.map_map]
  apply List.map_congr_left
  intro p hp
  have hn : (n : ℝ) ≠ 0 := by
    have : 0 < n := by have := List.mem_range.mp hp; omega
    positivity
  simp only [Function.comp, XR.mul_fin, XR.div_fin_of_ne _ hn, XR.cos_fin, XR.sub_fin, XR.fin_inj]
  congr 3
  push_cast; field_simp; norm_num

theorem npLe_trans (a b c : XR) : npLe a b = true → npLe b c = true → npLe a c = true := by
  simp only [npLe, decide_eq_true_eq]
  cases a <;> cases b <;> cases c <;> simp
  exact le_trans

theorem npLe_total (a b : XR) : (npLe a b || npLe b a) = true := by
  simp only [npLe, Bool.or_eq_true, decide_eq_true_eq]
  cases a <;> cases b <;> simp
  exact le_total _ _

theorem npSort_perm (l : List XR) : (npSort l).Perm l := List.mergeSort_perm l _

theorem npSort_sorted (l : List XR) : (npSort l).Pairwise (fun x y => npLe x y = true) :=
  List.pairwise_mergeSort npLe_trans npLe_total l

theorem npSort_fins (l : List ℝ) :
    ∃ s : List ℝ, npSort (fins l) = fins s ∧ s.Perm l ∧ s.Pairwise (· ≤ ·) := by
  have hmem : ∀ x ∈ npSort (fins l), ∃ r, x = XR.fin r := by
    intro x hx
    have := (npSort_perm (fins l)).mem_iff.mp hx
    obtain ⟨r, _, rfl⟩ := List.mem_map.mp this
    exact ⟨r, rfl⟩
  have hex : ∀ m : List XR, (∀ x ∈ m, ∃ r, x = XR.fin r) → ∃ s, m = fins s := by
    intro m
    induction m with
    | nil => intro _; exact ⟨[], rfl⟩
    | cons a m ih =>
      intro h
      obtain ⟨r, rfl⟩ := h a (by simp)
      obtain ⟨s, rfl⟩ := ih (fun x hx => h x (by simp [hx]))
      exact ⟨r :: s, rfl⟩
  obtain ⟨s, hs⟩ := hex _ hmem
  refine ⟨s, hs, ?_, ?_⟩
  · have h1 := npSort_perm (fins l)
    rw [hs] at h1
    have hinv : ∀ l : List ℝ, (fins l).map (fun x => match x with | XR.fin r => r | _ => 0) = l := by
      intro l; simp [fins, Function.comp_def]
    have h2 := h1.map (fun x => match x with | XR.fin r => r | _ => 0)
    rwa [hinv, hinv] at h2
  · have h1 := npSort_sorted (fins l)
    rw [hs, fins, List.pairwise_map] at h1
    refine h1.imp ?_
    intro a b h
    simpa [npLe] using h

/-- What the code does with `extra_pts`: an empty or missing argument contributes no points, a
list of numbers contributes its entries. -/
def ExtraIs (extra : PyObj) (l : List ℝ) : Prop :=
  (extra = .none ∧ l = []) ∨ extra = .seq (fins l)

/-- **C05** (points).  A Clenshaw grid is the ascending arrangement of the documented core points,
diffuse points and the extra points. -/
theorem C05_clenshaw_points (z : ℤ) (hz : 0 < z) (m n : ℕ) (extra : PyObj) (l : List ℝ)
    (he : ExtraIs extra l) (o : Bool) :
    ∃ pts : List ℝ,
      clenshawRadialGrid (.int z) (.int m) (.int n) extra (.bool o) = .ok ⟨fins pts⟩ ∧
      pts.length = m + n + l.length ∧ pts.Pairwise (· ≤ ·) ∧
      pts.Perm (coreSpec z m o ++ diffuseSpec n ++ l) := by
  obtain ⟨s, hs, hperm, hsort⟩ := npSort_fins (coreSpec z m o ++ diffuseSpec n ++ l)
  refine ⟨s, ?_, ?_, hsort, hperm⟩
  · unfold clenshawRadialGrid
    simp only [PyObj.asInt?]
    rw [if_neg (by omega), if_neg (by omega), if_neg (by omega)]
    simp only [Int.toNat_natCast, clenshaw_core z hz, clenshaw_diffuse]
    rw [fins_append, fins_append] at hs
    rcases he with ⟨rfl, rfl⟩ | rfl
    · simp only [extraPoints]
      rw [fins_nil, List.append_nil] at hs
      rw [hs]
    · cases l with
      | nil =>
        simp only [extraPoints, fins_nil, if_pos]
        rw [fins_nil, List.append_nil] at hs
        rw [hs]
      | cons a l =>
        simp only [extraPoints, fins_cons]
        rw [if_neg (by simp)]
        rw [fins_cons] at hs
        simp only [hs]
  · rw [hperm.length_eq]; simp [coreSpec, diffuseSpec]; omega

/-- Ranges of the documented formulas. -/
theorem clenshaw_spec_ranges (z : ℤ) (hz : 0 < z) (m n : ℕ) (o : Bool) :
    (∀ r ∈ coreSpec z m o, 0 ≤ r ∧ r ≤ 1 / (2 * z)) ∧
    (∀ r ∈ diffuseSpec n, 0 < r ∧ r ≤ 25) ∧
    ((0 : ℝ) ∈ coreSpec z m o ↔ o = true ∧ 0 < m) := by
  have hz' : (0 : ℝ) < 2 * z := by
    have : (0 : ℝ) < z := by exact_mod_cast hz
    positivity
  -- angles are in [0, pi/2]
  have hang : ∀ p k : ℕ, p ≤ k → 0 < k →
      0 ≤ Real.pi * (p : ℝ) / (2 * k) ∧ Real.pi * (p : ℝ) / (2 * k) ≤ Real.pi / 2 := by
    intro p k hpk hk
    have hk' : (0 : ℝ) < k := by exact_mod_cast hk
    have hp' : (p : ℝ) ≤ k := by exact_mod_cast hpk
    refine ⟨by positivity, ?_⟩
    rw [div_le_div_iff₀ (by positivity) (by norm_num)]
    nlinarith [Real.pi_pos]
  have hcos0 : ∀ p k : ℕ, p ≤ k → 0 < k → 0 ≤ Real.cos (Real.pi * (p : ℝ) / (2 * k)) := by
    intro p k hpk hk
    obtain ⟨h1, h2⟩ := hang p k hpk hk
    exact Real.cos_nonneg_of_mem_Icc ⟨by linarith [Real.pi_pos], h2⟩
  have hcos1 : ∀ p k : ℕ, 0 < p → p ≤ k → Real.cos (Real.pi * (p : ℝ) / (2 * k)) < 1 := by
    intro p k hp hpk
    have hk : 0 < k := by omega
    obtain ⟨h1, h2⟩ := hang p k hpk hk
    have hpos : 0 < Real.pi * (p : ℝ) / (2 * k) := by
      have : (0 : ℝ) < p := by exact_mod_cast hp
      have : (0 : ℝ) < k := by exact_mod_cast hk
      positivity
    rw [← Real.cos_zero]
    exact Real.cos_lt_cos_of_nonneg_of_le_pi_div_two le_rfl h2 hpos
  refine ⟨?_, ?_, ?_⟩
  · intro r hr
    simp only [coreSpec, List.mem_map, List.mem_range] at hr
    obtain ⟨p, hp, rfl⟩ := hr
    have hle : p + (if o then 0 else 1) ≤ m := by split <;> omega
    have h1 := hcos0 _ m hle (by omega)
    have h2 := Real.cos_le_one (Real.pi * ((p + (if o then 0 else 1) : ℕ) : ℝ) / (2 * m))
    constructor
    · exact div_nonneg (by linarith) hz'.le
    · exact div_le_div_of_nonneg_right (by linarith) hz'.le
  · intro r hr
    simp only [diffuseSpec, List.mem_map, List.mem_range] at hr
    obtain ⟨p, hp, rfl⟩ := hr
    have h1 := hcos0 (p + 1) n (by omega) (by omega)
    have h2 := hcos1 (p + 1) n (by omega) (by omega)
    constructor <;> linarith
  · simp only [coreSpec, List.mem_map, List.mem_range]
    constructor
    · rintro ⟨p, hp, h⟩
      refine ⟨?_, by omega⟩
      cases o with
      | true => rfl
      | false =>
        exfalso
        have h2 := hcos1 (p + 1) m (by omega) (by omega)
        have : (1 - Real.cos (Real.pi * ((p + 1 : ℕ) : ℝ) / (2 * m))) = 0 := by
          rcases div_eq_zero_iff.mp h with h | h
          · simpa using h
          · exact absurd h hz'.ne'
        linarith
    · rintro ⟨rfl, hm⟩
      exact ⟨0, hm, by simp⟩

/-- **C05** (ranges).  The points of a Clenshaw grid are `m` core points in `[0, 1/(2Z)]`, `n` diffuse
points in `(0, 25]` and the extra points; the origin is a grid point exactly when it is included and
there is a core point, or when it is an extra point. -/
theorem C05_clenshaw_ranges (z : ℤ) (hz : 0 < z) (m n : ℕ) (extra : PyObj) (l : List ℝ)
    (he : ExtraIs extra l) (o : Bool) :
    ∃ pts core diffuse : List ℝ,
      clenshawRadialGrid (.int z) (.int m) (.int n) extra (.bool o) = .ok ⟨fins pts⟩ ∧
      pts.Perm (core ++ diffuse ++ l) ∧ core.length = m ∧ diffuse.length = n ∧
      (∀ r ∈ core, 0 ≤ r ∧ r ≤ 1 / (2 * z)) ∧ (∀ r ∈ diffuse, 0 < r ∧ r ≤ 25) ∧
      ((0 : ℝ) ∈ pts ↔ (o = true ∧ 0 < m) ∨ (0 : ℝ) ∈ l) := by
  obtain ⟨pts, h, _, _, hp⟩ := C05_clenshaw_points z hz m n extra l he o
  obtain ⟨h1, h2, h3⟩ := clenshaw_spec_ranges z hz m n o
  refine ⟨pts, coreSpec z m o, diffuseSpec n, h, hp, by simp [coreSpec], by simp [diffuseSpec], h1, h2,
    ?_⟩
  rw [hp.mem_iff, List.mem_append, List.mem_append, h3]
  have h0 : (0 : ℝ) ∉ diffuseSpec n := fun h => lt_irrefl _ (h2 0 h).1
  tauto

/-- **C05** (errors).  Arguments of the wrong type or sign raise TypeError. -/
theorem C05_clenshaw_type_errors (zObj mObj nObj extra oObj : PyObj)
    (h : (∀ z, zObj.IsInt z → z ≤ 0) ∨ (∀ m, mObj.IsInt m → m < 0) ∨ (∀ n, nObj.IsInt n → n < 0) ∨ (∀ b, oObj ≠ .bool b) ∨
      (∃ s, s ≠ "" ∧ extra = .str s) ∨ (∃ x, x ≠ XR.fin 0 ∧ extra = .float x) ∨
      (∃ k, k ≠ 0 ∧ extra = .int k)) :
    clenshawRadialGrid zObj mObj nObj extra oObj = .error .typeError := by
  simp only [isInt_iff] at h
  unfold clenshawRadialGrid raise
  rcases hz : zObj.asInt? with _ | z
  · rfl
  · by_cases hz0 : z ≤ 0
    · simp [hz0]
    rcases hm : mObj.asInt? with _ | m
    · simp [hz0]
    by_cases hm0 : m < 0
    · simp [hz0, hm0]
    rcases hn : nObj.asInt? with _ | n
    · simp [hz0, hm0]
    by_cases hn0 : n < 0
    · simp [hz0, hm0, hn0]
    simp only [hz0, hm0, hn0, if_false]
    rcases h with h | h | h | h | h | h | h
    · exact absurd (h z hz) hz0
    · exact absurd (h m hm) hm0
    · exact absurd (h n hn) hn0
    · cases oObj <;> first | rfl | exact absurd rfl (h _)
    all_goals
      obtain ⟨s, hs, rfl⟩ := h
      cases oObj <;> simp [extraPoints, raise, hs]

example : ∃ pts : List ℝ, clenshawRadialGrid (.int 6) (.int 2) (.int 3) (.seq (fins [30, 50]))
    (.bool true) = .ok ⟨fins pts⟩ ∧ pts.length = 7 := by
  obtain ⟨pts, h, hl, _⟩ := C05_clenshaw_points 6 (by norm_num) 2 3 (.seq (fins [30, 50])) [30, 50]
    (Or.inr rfl) true
  exact ⟨pts, h, by simpa using hl⟩

end BFit
