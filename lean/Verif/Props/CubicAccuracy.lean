import Verif.Props.CubicGrid
import Mathlib.MeasureTheory.Function.Jacobian
import Mathlib.Analysis.Calculus.FDeriv.Linear
import Mathlib.Analysis.Calculus.FDeriv.Add
import Mathlib.MeasureTheory.Measure.Lebesgue.Basic
import Mathlib.Topology.UniformSpace.HeineCantor

/-!
Property C95: `CubicGrid.integrate` against the integral over the box spanned by the grid.
-/

namespace BFit

open MeasureTheory Set

noncomputable section

/-- The point with (real) grid coordinates `t`. -/
def boxPoint (o : Fin 3 → ℝ) (a : Fin 3 → Fin 3 → ℝ) (t : Fin 3 → ℝ) : Fin 3 → ℝ :=
  fun d => o d + t 0 * a 0 d + t 1 * a 1 d + t 2 * a 2 d

/-- The box covered by the cells of a cubic grid: each point is the corner of one cell. -/
def gridBox (o : Fin 3 → ℝ) (a : Fin 3 → Fin 3 → ℝ) (nx ny nz : ℕ) : Set (Fin 3 → ℝ) :=
  boxPoint o a '' {t | (0 ≤ t 0 ∧ t 0 < nx) ∧ (0 ≤ t 1 ∧ t 1 < ny) ∧ (0 ≤ t 2 ∧ t 2 < nz)}

/-- One unit cube of grid coordinates. -/
def unitCube (m : ℕ × ℕ × ℕ) : Set (Fin 3 → ℝ) :=
  {t | ((m.1 : ℝ) ≤ t 0 ∧ t 0 < m.1 + 1) ∧ ((m.2.1 : ℝ) ≤ t 1 ∧ t 1 < m.2.1 + 1) ∧
    ((m.2.2 : ℝ) ≤ t 2 ∧ t 2 < m.2.2 + 1)}

theorem unitCube_eq (m : ℕ × ℕ × ℕ) : unitCube m = Set.pi univ fun d =>
    Ico ((![(m.1 : ℝ), (m.2.1 : ℝ), (m.2.2 : ℝ)]) d) ((![(m.1 : ℝ) + 1, (m.2.1 : ℝ) + 1, (m.2.2 : ℝ) + 1]) d) := by
  ext t
  simp [unitCube, Fin.forall_fin_succ]

theorem measurableSet_unitCube (m : ℕ × ℕ × ℕ) : MeasurableSet (unitCube m) := by
  rw [unitCube_eq]
  exact MeasurableSet.univ_pi fun _ => measurableSet_Ico

theorem volume_unitCube (m : ℕ × ℕ × ℕ) : volume (unitCube m) = 1 := by
  rw [unitCube_eq, Real.volume_pi_Ico]
  simp [Fin.prod_univ_succ]

theorem unitCube_disjoint {m n : ℕ × ℕ × ℕ} (h : m ≠ n) : Disjoint (unitCube m) (unitCube n) := by
  rw [Set.disjoint_left]
  intro t h1 h2
  apply h
  have key : ∀ (i j : ℕ) (x : ℝ), (i : ℝ) ≤ x → x < i + 1 → (j : ℝ) ≤ x → x < j + 1 → i = j := by
    intro i j x a b c d
    have e1 : (i : ℝ) < (j : ℝ) + 1 := by linarith
    have e2 : (j : ℝ) < (i : ℝ) + 1 := by linarith
    have e1' : i < j + 1 := by exact_mod_cast e1
    have e2' : j < i + 1 := by exact_mod_cast e2
    omega
  obtain ⟨a1, a2, a3⟩ := h1
  obtain ⟨b1, b2, b3⟩ := h2
  refine Prod.ext ?_ (Prod.ext ?_ ?_)
  · exact key _ _ _ a1.1 a1.2 b1.1 b1.2
  · exact key _ _ _ a2.1 a2.2 b2.1 b2.2
  · exact key _ _ _ a3.1 a3.2 b3.1 b3.2

theorem box_eq_iUnion (nx ny nz : ℕ) :
    {t : Fin 3 → ℝ | (0 ≤ t 0 ∧ t 0 < nx) ∧ (0 ≤ t 1 ∧ t 1 < ny) ∧ (0 ≤ t 2 ∧ t 2 < nz)} =
      ⋃ m ∈ Finset.range nx ×ˢ (Finset.range ny ×ˢ Finset.range nz), unitCube m := by
  ext t
  simp only [mem_ofPred_eq, mem_iUnion, Finset.mem_product, Finset.mem_range]
  constructor
  · rintro ⟨⟨a1, a2⟩, ⟨b1, b2⟩, c1, c2⟩
    refine ⟨(⌊t 0⌋₊, ⌊t 1⌋₊, ⌊t 2⌋₊), ⟨?_, ?_, ?_⟩, ?_⟩
    · exact (Nat.floor_lt a1).mpr a2
    · exact (Nat.floor_lt b1).mpr b2
    · exact (Nat.floor_lt c1).mpr c2
    · exact ⟨⟨Nat.floor_le a1, Nat.lt_floor_add_one _⟩, ⟨Nat.floor_le b1, Nat.lt_floor_add_one _⟩,
        Nat.floor_le c1, Nat.lt_floor_add_one _⟩
  · rintro ⟨⟨i, j, k⟩, ⟨hi, hj, hk⟩, ⟨a1, a2⟩, ⟨b1, b2⟩, c1, c2⟩
    simp only at *
    have e : ∀ (i n : ℕ) (x : ℝ), i < n → (i : ℝ) ≤ x → x < i + 1 → 0 ≤ x ∧ x < n := by
      intro i n x h1 h2 h3
      have h4 : ((i + 1 : ℕ) : ℝ) ≤ n := by exact_mod_cast h1
      push_cast at h4
      exact ⟨(Nat.cast_nonneg i).trans h2, by linarith⟩
    exact ⟨e i nx _ hi a1 a2, e j ny _ hj b1 b2, e k nz _ hk c1 c2⟩

theorem sum_range_mul (m n : ℕ) (F : ℕ → ℕ → ℝ) :
    ∑ i ∈ Finset.range (m * n), F (i / n) (i % n) = ∑ i ∈ Finset.range m, ∑ j ∈ Finset.range n, F i j := by
  induction m with
  | zero => simp
  | succ m ih =>
    rw [Nat.succ_mul, Finset.sum_range_add, ih, Finset.sum_range_succ]
    congr 1
    refine Finset.sum_congr rfl fun j hj => ?_
    have hj' := Finset.mem_range.mp hj
    rw [Nat.mul_comm m n, Nat.mul_add_div (by omega), Nat.div_eq_of_lt hj', Nat.mul_add_mod,
      Nat.mod_eq_of_lt hj', Nat.add_zero]

/-- The sum over the flat index as a sum over the three indices. -/
theorem sum_flat (nx ny nz : ℕ) (F : ℕ → ℕ → ℕ → ℝ) :
    ∑ n ∈ Finset.range (nx * ny * nz), F (n / (ny * nz)) (n / nz % ny) (n % nz) =
      ∑ m ∈ Finset.range nx ×ˢ (Finset.range ny ×ˢ Finset.range nz), F m.1 m.2.1 m.2.2 := by
  rw [Finset.sum_product]
  have h1 := sum_range_mul (nx * ny) nz (fun i k => F (i / ny) (i % ny) k)
  have h2 : ∀ n : ℕ, n / nz / ny = n / (ny * nz) := fun n => by rw [Nat.div_div_eq_div_mul, Nat.mul_comm]
  simp only [h2] at h1
  rw [h1, sum_range_mul nx ny (fun i j => ∑ k ∈ Finset.range nz, F i j k)]
  exact Finset.sum_congr rfl fun i _ => by rw [Finset.sum_product]

/-- The linear part of `boxPoint`. -/
def boxLin (a : Fin 3 → Fin 3 → ℝ) : (Fin 3 → ℝ) →L[ℝ] (Fin 3 → ℝ) :=
  LinearMap.toContinuousLinearMap (Matrix.toLin' (Matrix.of a).transpose)

theorem boxPoint_eq (o : Fin 3 → ℝ) (a : Fin 3 → Fin 3 → ℝ) (t : Fin 3 → ℝ) :
    boxPoint o a t = o + boxLin a t := by
  funext d
  simp [boxPoint, boxLin, Matrix.toLin'_apply, Matrix.mulVec, dotProduct, Fin.sum_univ_three]
  ring

theorem boxLin_det (a : Fin 3 → Fin 3 → ℝ) : (boxLin a).det = (Matrix.of a).det := by
  unfold boxLin
  rw [LinearMap.det_toContinuousLinearMap, LinearMap.det_toLin', Matrix.det_transpose]

theorem boxPoint_hasFDerivAt (o : Fin 3 → ℝ) (a : Fin 3 → Fin 3 → ℝ) (t : Fin 3 → ℝ) :
    HasFDerivAt (boxPoint o a) (boxLin a) t := by
  have : boxPoint o a = fun t => o + boxLin a t := funext (boxPoint_eq o a)
  rw [this]
  exact (boxLin a).hasFDerivAt.const_add o

theorem boxPoint_injective (o : Fin 3 → ℝ) (a : Fin 3 → Fin 3 → ℝ) (h : (Matrix.of a).det ≠ 0) :
    Function.Injective (boxPoint o a) := by
  intro s t hst
  rw [boxPoint_eq, boxPoint_eq] at hst
  have h1 : boxLin a s = boxLin a t := add_left_cancel hst
  have h2 : (Matrix.of a).transpose.mulVec s = (Matrix.of a).transpose.mulVec t := by
    simpa [boxLin, Matrix.toLin'_apply] using h1
  exact Matrix.mulVec_injective_iff_isUnit.mpr
    ((Matrix.isUnit_iff_isUnit_det _).mpr (by rw [Matrix.det_transpose]; exact isUnit_iff_ne_zero.mpr h)) h2

/-- The box with its boundary. -/
def closedBox (o : Fin 3 → ℝ) (a : Fin 3 → Fin 3 → ℝ) (nx ny nz : ℕ) : Set (Fin 3 → ℝ) :=
  boxPoint o a '' Icc 0 ![(nx : ℝ), ny, nz]

theorem boxPoint_continuous (o : Fin 3 → ℝ) (a : Fin 3 → Fin 3 → ℝ) : Continuous (boxPoint o a) :=
  continuous_iff_continuousAt.mpr fun t => (boxPoint_hasFDerivAt o a t).continuousAt

theorem closedBox_compact (o : Fin 3 → ℝ) (a : Fin 3 → Fin 3 → ℝ) (nx ny nz : ℕ) :
    IsCompact (closedBox o a nx ny nz) := isCompact_Icc.image (boxPoint_continuous o a)

theorem gridBox_subset (o : Fin 3 → ℝ) (a : Fin 3 → Fin 3 → ℝ) (nx ny nz : ℕ) :
    gridBox o a nx ny nz ⊆ closedBox o a nx ny nz := by
  apply Set.image_mono
  rintro t ⟨⟨a1, a2⟩, ⟨b1, b2⟩, c1, c2⟩
  rw [Set.mem_Icc, Pi.le_def, Pi.le_def]
  constructor
  · intro d; fin_cases d <;> simpa
  · intro d; fin_cases d <;> simp <;> linarith

/-- A continuous function is integrable over the box. -/
theorem gridBox_integrableOn (o : Fin 3 → ℝ) (a : Fin 3 → Fin 3 → ℝ) (nx ny nz : ℕ) (h : (Fin 3 → ℝ) → ℝ)
    (hc : Continuous h) : IntegrableOn h (gridBox o a nx ny nz) :=
  (hc.continuousOn.integrableOn_compact (closedBox_compact o a nx ny nz)).mono_set
    (gridBox_subset o a nx ny nz)

theorem boxPoint_cell (o : Fin 3 → ℝ) (a : Fin 3 → Fin 3 → ℝ) (i j k : ℝ) (t : Fin 3 → ℝ)
    (ht : ∀ d, 0 ≤ t d ∧ t d < 1) :
    ‖boxPoint o a ![i + t 0, j + t 1, k + t 2] - boxPoint o a ![i, j, k]‖ ≤ ‖a 0‖ + ‖a 1‖ + ‖a 2‖ := by
  have e : boxPoint o a ![i + t 0, j + t 1, k + t 2] - boxPoint o a ![i, j, k] =
      t 0 • a 0 + t 1 • a 1 + t 2 • a 2 := by
    funext d
    simp [boxPoint]
    ring
  have key : ∀ d, ‖t d • a d‖ ≤ ‖a d‖ := by
    intro d
    rw [norm_smul, Real.norm_eq_abs, abs_of_nonneg (ht d).1]
    exact mul_le_of_le_one_left (norm_nonneg _) (ht d).2.le
  rw [e]
  exact (norm_add_le _ _).trans (add_le_add ((norm_add_le _ _).trans (add_le_add (key 0) (key 1))) (key 2))

/-- **C95** (error bound).  If the function changes by at most `ε` within each cell, the integral
reported by the grid differs from the integral over the box spanned by the grid by at most `ε` times
the volume of the box. -/
theorem C95_error (o : Fin 3 → ℝ) (a : Fin 3 → Fin 3 → ℝ) (nx ny nz : ℕ) (h : (Fin 3 → ℝ) → ℝ) (ε : ℝ)
    (hdet : (Matrix.of a).det ≠ 0) (hint : IntegrableOn h (gridBox o a nx ny nz))
    (hosc : ∀ i < nx, ∀ j < ny, ∀ k < nz, ∀ t : Fin 3 → ℝ, (∀ d, 0 ≤ t d ∧ t d < 1) →
      |h (boxPoint o a ![i + t 0, j + t 1, k + t 2]) - h (boxPoint o a ![(i : ℝ), j, k])| ≤ ε) :
    ∃ (g : CubicGrid) (pts : List (Fin 3 → ℝ)) (I : ℝ), cubicGrid (v3 o) (m3 a) (sh nx ny nz) = .ok g ∧ g.points = pts.map v3 ∧
      g.integrate (ND.vec (fins (pts.map h))) = .ok (XR.fin I) ∧
      |I - ∫ x in gridBox o a nx ny nz, h x| ≤ ε * ((nx * ny * nz : ℕ) * |(Matrix.of a).det|) := by
  set pts : List (Fin 3 → ℝ) := (List.range (nx * ny * nz)).map fun n =>
    boxPoint o a ![((n / (ny * nz) : ℕ) : ℝ), ((n / nz % ny : ℕ) : ℝ), ((n % nz : ℕ) : ℝ)] with hpts
  obtain ⟨g, hg, hI⟩ := C07_integrate_value (v3 o) a nx ny nz (pts.map h) (by simp [hpts])
  refine ⟨g, pts, _, hg, ?_, hI, ?_⟩
  · rw [cubicGrid_sh] at hg
    injection hg with hg
    rw [← hg, hpts, List.map_map]
    apply List.map_congr_left
    intro n _
    funext d
    simp only [Function.comp, boxPoint, rowDot, v3, m3, Fin.sum_univ_three, Matrix.cons_val_zero,
      Matrix.cons_val_one, Matrix.cons_val, XR.mul_fin, XR.add_fin, XR.fin_inj]
    ring
  · set Q := Finset.range nx ×ˢ (Finset.range ny ×ˢ Finset.range nz) with hQ
    set D := |(Matrix.of a).det| with hD
    have hD0 : 0 < D := abs_pos.mpr hdet
    have hsum : (pts.map h).sum = ∑ m ∈ Q, h (boxPoint o a ![(m.1 : ℝ), m.2.1, m.2.2]) := by
      rw [hQ, ← sum_flat nx ny nz (fun i j k => h (boxPoint o a ![(i : ℝ), j, k])), hpts, List.map_map]
      rw [Finset.sum_eq_multiset_sum, Finset.range_val, Multiset.range, Multiset.map_coe, Multiset.sum_coe]
      rfl
    have hmeas : MeasurableSet (⋃ m ∈ Q, unitCube m) :=
      Finset.measurableSet_biUnion Q fun m _ => measurableSet_unitCube m
    have hder : ∀ x ∈ ⋃ m ∈ Q, unitCube m,
        HasFDerivWithinAt (boxPoint o a) (boxLin a) (⋃ m ∈ Q, unitCube m) x := fun x _ =>
      (boxPoint_hasFDerivAt o a x).hasFDerivWithinAt
    have hinj : InjOn (boxPoint o a) (⋃ m ∈ Q, unitCube m) := (boxPoint_injective o a hdet).injOn
    have hbox : gridBox o a nx ny nz = boxPoint o a '' ⋃ m ∈ Q, unitCube m := by
      unfold gridBox
      rw [box_eq_iUnion]
    rw [hbox] at hint ⊢
    rw [integrableOn_image_iff_integrableOn_abs_det_fderiv_smul volume hmeas hder hinj] at hint
    rw [integral_image_eq_integral_abs_det_fderiv_smul volume hmeas hder hinj]
    simp only [boxLin_det, smul_eq_mul] at hint ⊢
    have hintc : ∀ m ∈ Q, IntegrableOn (fun t => D * h (boxPoint o a t)) (unitCube m) := fun m hm =>
      hint.mono_set (Set.subset_biUnion_of_mem (u := unitCube) hm)
    rw [integral_biUnion_finset Q (fun m _ => measurableSet_unitCube m)
      (fun m _ n _ hmn => unitCube_disjoint hmn) hintc, hsum, Finset.mul_sum, ← Finset.sum_sub_distrib]
    have hcell : ∀ m ∈ Q, |D * h (boxPoint o a ![(m.1 : ℝ), m.2.1, m.2.2]) -
        ∫ t in unitCube m, D * h (boxPoint o a t)| ≤ ε * D := by
      intro m hm
      have hv : volume (unitCube m) < ⊤ := by rw [volume_unitCube]; exact ENNReal.one_lt_top
      have hr : volume.real (unitCube m) = 1 := by simp [Measure.real, volume_unitCube]
      have hc : (∫ _ in unitCube m, D * h (boxPoint o a ![(m.1 : ℝ), m.2.1, m.2.2])) =
          D * h (boxPoint o a ![(m.1 : ℝ), m.2.1, m.2.2]) := by
        rw [setIntegral_const, hr, one_smul]
      have hci : IntegrableOn (fun _ : Fin 3 → ℝ => D * h (boxPoint o a ![(m.1 : ℝ), m.2.1, m.2.2])) (unitCube m) :=
        integrableOn_const hv.ne
      rw [← hc, ← integral_sub hci (hintc m hm)]
      have := norm_setIntegral_le_of_norm_le_const (C := ε * D)
        (f := fun t => D * h (boxPoint o a ![(m.1 : ℝ), m.2.1, m.2.2]) - D * h (boxPoint o a t)) hv ?_
      · rw [hr, mul_one] at this
        exact this
      · intro t ht
        obtain ⟨h1, h2, h3⟩ := ht
        rw [hQ, Finset.mem_product, Finset.mem_product] at hm
        obtain ⟨m1, m2, m3⟩ := hm
        have := hosc m.1 (Finset.mem_range.mp m1) m.2.1 (Finset.mem_range.mp m2) m.2.2
          (Finset.mem_range.mp m3) ![t 0 - m.1, t 1 - m.2.1, t 2 - m.2.2] (by
            intro d
            fin_cases d <;> simp <;> constructor <;> linarith [h1.1, h1.2, h2.1, h2.2, h3.1, h3.2])
        have e : ![(m.1 : ℝ) + (![t 0 - m.1, t 1 - m.2.1, t 2 - m.2.2] : Fin 3 → ℝ) 0,
            (m.2.1 : ℝ) + (![t 0 - m.1, t 1 - m.2.1, t 2 - m.2.2] : Fin 3 → ℝ) 1,
            (m.2.2 : ℝ) + (![t 0 - m.1, t 1 - m.2.1, t 2 - m.2.2] : Fin 3 → ℝ) 2] = t := by
          funext d
          fin_cases d <;> simp
        rw [e] at this
        rw [← mul_sub, norm_mul, Real.norm_eq_abs, Real.norm_eq_abs, abs_of_pos hD0, mul_comm, abs_sub_comm]
        exact mul_le_mul_of_nonneg_right this hD0.le
    refine (Finset.abs_sum_le_sum_abs _ _).trans ((Finset.sum_le_sum hcell).trans_eq ?_)
    rw [Finset.sum_const, hQ, Finset.card_product, Finset.card_product, Finset.card_range, Finset.card_range,
      Finset.card_range, nsmul_eq_mul, Nat.mul_assoc]
    ring

/-- **C95** (Lipschitz functions).  For a function with Lipschitz constant `L` in the maximum norm the
error is at most `L` times the sum of the axis lengths times the volume of the box. -/
theorem C95_lipschitz (o : Fin 3 → ℝ) (a : Fin 3 → Fin 3 → ℝ) (nx ny nz : ℕ) (h : (Fin 3 → ℝ) → ℝ) (L : NNReal)
    (hdet : (Matrix.of a).det ≠ 0) (hL : LipschitzWith L h) :
    ∃ (g : CubicGrid) (pts : List (Fin 3 → ℝ)) (I : ℝ),
      cubicGrid (v3 o) (m3 a) (sh nx ny nz) = .ok g ∧ g.points = pts.map v3 ∧
      g.integrate (ND.vec (fins (pts.map h))) = .ok (XR.fin I) ∧
      |I - ∫ x in gridBox o a nx ny nz, h x| ≤
        L * (‖a 0‖ + ‖a 1‖ + ‖a 2‖) * ((nx * ny * nz : ℕ) * |(Matrix.of a).det|) := by
  refine C95_error o a nx ny nz h _ hdet (gridBox_integrableOn o a nx ny nz h hL.continuous) ?_
  intro i _ j _ k _ t ht
  have h1 := hL.dist_le_mul (boxPoint o a ![i + t 0, j + t 1, k + t 2]) (boxPoint o a ![(i : ℝ), j, k])
  rw [Real.dist_eq] at h1
  refine h1.trans (mul_le_mul_of_nonneg_left ?_ L.coe_nonneg)
  rw [dist_eq_norm]
  exact boxPoint_cell o a i j k t ht

theorem det_div (a : Fin 3 → Fin 3 → ℝ) (m : ℝ) (hm : 0 < m) :
    (Matrix.of fun c d => a c d / m).det = (Matrix.of a).det / m ^ 3 := by
  rw [Matrix.det_fin_three, Matrix.det_fin_three]
  simp only [Matrix.of_apply]
  field_simp

theorem gridBox_refine (o : Fin 3 → ℝ) (a : Fin 3 → Fin 3 → ℝ) (nx ny nz m : ℕ) (hm : 0 < m) :
    gridBox o (fun c d => a c d / m) (m * nx) (m * ny) (m * nz) = gridBox o a nx ny nz := by
  have hmr : (0 : ℝ) < m := by exact_mod_cast hm
  have hp : ∀ t : Fin 3 → ℝ, boxPoint o (fun c d => a c d / m) t = boxPoint o a fun d => t d / m := by
    intro t
    funext d
    simp only [boxPoint]
    ring
  ext x
  constructor
  · rintro ⟨t, ⟨⟨a1, a2⟩, ⟨b1, b2⟩, c1, c2⟩, rfl⟩
    push_cast at a2 b2 c2
    refine ⟨fun d => t d / m, ⟨⟨?_, ?_⟩, ⟨?_, ?_⟩, ?_, ?_⟩, (hp t).symm⟩
    all_goals first
      | positivity
      | (rw [div_lt_iff₀ hmr]; linarith)
  · rintro ⟨t, ⟨⟨a1, a2⟩, ⟨b1, b2⟩, c1, c2⟩, rfl⟩
    refine ⟨fun d => t d * m, ⟨⟨?_, ?_⟩, ⟨?_, ?_⟩, ?_, ?_⟩, ?_⟩
    · positivity
    · push_cast; nlinarith
    · positivity
    · push_cast; nlinarith
    · positivity
    · push_cast; nlinarith
    · rw [hp]
      congr 1
      funext d
      field_simp

/-- **C95** (refinement).  For a continuous function, dividing the axes by `m` and multiplying the
numbers of points by `m` makes the reported integral tend to the integral over the box. -/
theorem C95_refine (o : Fin 3 → ℝ) (a : Fin 3 → Fin 3 → ℝ) (nx ny nz : ℕ) (h : (Fin 3 → ℝ) → ℝ)
    (hdet : (Matrix.of a).det ≠ 0) (hc : Continuous h) (δ : ℝ) (hδ : 0 < δ) :
    ∃ M : ℕ, ∀ m, M ≤ m → ∃ (g : CubicGrid) (pts : List (Fin 3 → ℝ)) (I : ℝ),
      cubicGrid (v3 o) (m3 fun c d => a c d / m) (sh (m * nx) (m * ny) (m * nz)) = .ok g ∧
      g.points = pts.map v3 ∧ g.integrate (ND.vec (fins (pts.map h))) = .ok (XR.fin I) ∧
      |I - ∫ x in gridBox o a nx ny nz, h x| ≤ δ := by
  set V : ℝ := (nx * ny * nz : ℕ) * |(Matrix.of a).det| with hV
  have hV0 : 0 ≤ V := by positivity
  have hδ' : 0 < δ / (V + 1) := by positivity
  have huc := (closedBox_compact o a nx ny nz).uniformContinuousOn_of_continuous hc.continuousOn
  rw [Metric.uniformContinuousOn_iff] at huc
  obtain ⟨η, hη, hclose⟩ := huc _ hδ'
  obtain ⟨M, hM⟩ := exists_nat_gt ((‖a 0‖ + ‖a 1‖ + ‖a 2‖) / η)
  refine ⟨M + 1, fun m hm => ?_⟩
  have hm0 : 0 < m := by omega
  have hmr : (0 : ℝ) < m := by exact_mod_cast hm0
  have hdm := det_div a m hmr
  have hsmall : ‖(fun d => a 0 d / m : Fin 3 → ℝ)‖ + ‖(fun d => a 1 d / m : Fin 3 → ℝ)‖ +
      ‖(fun d => a 2 d / m : Fin 3 → ℝ)‖ < η := by
    have key : ∀ v : Fin 3 → ℝ, ‖(fun d => v d / m : Fin 3 → ℝ)‖ = ‖v‖ / m := by
      intro v
      have : (fun d => v d / m : Fin 3 → ℝ) = (m : ℝ)⁻¹ • v := by
        funext d
        simp [div_eq_inv_mul]
      rw [this, norm_smul, norm_inv, Real.norm_natCast, div_eq_inv_mul]
    rw [key, key, key, ← add_div, ← add_div, div_lt_iff₀ hmr]
    rw [div_lt_iff₀ hη] at hM
    have : (M : ℝ) ≤ m := by exact_mod_cast (by omega : M ≤ m)
    nlinarith
  obtain ⟨g, pts, I, h1, h2, h3, h4⟩ := C95_error o (fun c d => a c d / m) (m * nx) (m * ny) (m * nz) h
    (δ / (V + 1)) (by rw [hdm]; positivity) (gridBox_integrableOn o _ _ _ _ h hc) (by
      intro i hi j hj k hk t ht
      have hin : ∀ s : Fin 3 → ℝ, (∀ d, 0 ≤ s d ∧ s d < 1) →
          boxPoint o (fun c d => a c d / m) ![i + s 0, j + s 1, k + s 2] ∈ closedBox o a nx ny nz := by
        intro s hs
        apply gridBox_subset
        rw [← gridBox_refine o a nx ny nz m hm0]
        refine ⟨_, ?_, rfl⟩
        have e : ∀ (i n : ℕ) (x : ℝ), i < n → 0 ≤ x → x < 1 → 0 ≤ (i : ℝ) + x ∧ (i : ℝ) + x < n := by
          intro i n x h1 h2 h3
          have h4 : ((i + 1 : ℕ) : ℝ) ≤ n := by exact_mod_cast h1
          push_cast at h4
          exact ⟨add_nonneg (Nat.cast_nonneg i) h2, by linarith⟩
        exact ⟨e i _ _ hi (hs 0).1 (hs 0).2, e j _ _ hj (hs 1).1 (hs 1).2, e k _ _ hk (hs 2).1 (hs 2).2⟩
      have hz := hin 0 (fun d => by simp)
      simp only [Pi.zero_apply, add_zero] at hz
      have := hclose _ (hin t ht) _ hz (by
        rw [dist_eq_norm]
        exact (boxPoint_cell o _ i j k t ht).trans_lt hsmall)
      rw [Real.dist_eq] at this
      exact this.le)
  refine ⟨g, pts, I, h1, h2, h3, ?_⟩
  rw [gridBox_refine o a nx ny nz m hm0] at h4
  refine h4.trans ?_
  have e : ((m * nx * (m * ny) * (m * nz) : ℕ) : ℝ) * |(Matrix.of fun c d => a c d / (m : ℝ)).det| = V := by
    rw [hdm, abs_div, abs_of_pos (by positivity : (0 : ℝ) < (m : ℝ) ^ 3), hV]
    push_cast
    field_simp
  rw [e, div_mul_eq_mul_div, div_le_iff₀ (by positivity)]
  nlinarith

/-- The first coordinate on a grid of `2 * 2 * 2` points with a sheared axis. -/
example : ∃ (g : CubicGrid) (pts : List (Fin 3 → ℝ)) (I : ℝ),
    cubicGrid (v3 ![1, 0, 0]) (m3 ![![1, 0, 0], ![1, 1, 0], ![0, 0, 1]]) (sh 2 2 2) = .ok g ∧
    g.points = pts.map v3 ∧ g.integrate (ND.vec (fins (pts.map fun x => x 0))) = .ok (XR.fin I) ∧
    |I - ∫ x in gridBox ![1, 0, 0] ![![1, 0, 0], ![1, 1, 0], ![0, 0, 1]] 2 2 2, x 0| ≤ 24 := by
  have hdet : (Matrix.of ![![(1 : ℝ), 0, 0], ![1, 1, 0], ![0, 0, 1]]).det = 1 := by
    rw [Matrix.det_fin_three]
    simp
  obtain ⟨g, pts, I, h1, h2, h3, h4⟩ := C95_lipschitz ![1, 0, 0] ![![1, 0, 0], ![1, 1, 0], ![0, 0, 1]] 2 2 2
    (fun x => x 0) 1 (by rw [hdet]; norm_num) (LipschitzWith.eval 0)
  refine ⟨g, pts, I, h1, h2, h3, h4.trans (le_of_eq ?_)⟩
  have n1 : ‖(![1, 0, 0] : Fin 3 → ℝ)‖ = 1 := by
    simp [Pi.norm_def, Finset.sup, Fin.univ_succ]
  have n2 : ‖(![1, 1, 0] : Fin 3 → ℝ)‖ = 1 := by
    simp [Pi.norm_def, Finset.sup, Fin.univ_succ]
  have n3 : ‖(![0, 0, 1] : Fin 3 → ℝ)‖ = 1 := by
    simp [Pi.norm_def, Finset.sup, Fin.univ_succ]
  rw [hdet]
  simp only [Matrix.cons_val_zero, Matrix.cons_val_one, Matrix.cons_val, n1, n2, n3]
  norm_num

end
end BFit
