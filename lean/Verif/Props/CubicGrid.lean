import Verif.Model.Grid
import Verif.Lemmas.Trapz
import Mathlib.LinearAlgebra.Matrix.Determinant.Basic
import Mathlib.LinearAlgebra.Matrix.NonsingularInverse
import Mathlib.Tactic.FieldSimp
import Mathlib.Tactic.NormNum

/-! Properties C06-C09: cubic grids (`bfit/grid.py`). -/

namespace BFit

open Matrix

/-- A real vector as a vector of floats. -/
def v3 (v : Fin 3 → ℝ) : V3 := fun d => XR.fin (v d)

/-- A real matrix as a matrix of floats. -/
def m3 (a : Fin 3 → Fin 3 → ℝ) : Fin 3 → V3 := fun c d => XR.fin (a c d)

/-- Extents as Python integers. -/
def sh (nx ny nz : ℕ) : Fin 3 → ℤ := ![(nx : ℤ), (ny : ℤ), (nz : ℤ)]

theorem rowDot_v3 (c : Fin 3 → ℝ) (a : Fin 3 → Fin 3 → ℝ) :
    rowDot (v3 c) (m3 a) = v3 (fun d => ∑ e, c e * a e d) := by
  funext d
  simp only [rowDot, v3, m3, Fin.sum_univ_three, XR.mul_fin, XR.add_fin]

theorem cubicGrid_sh (o : V3) (a : Fin 3 → V3) (nx ny nz : ℕ) :
    cubicGrid o a (sh nx ny nz) = .ok ⟨o, a,
      (List.range (nx * ny * nz)).map (fun n => fun d =>
        rowDot ![XR.fin ((n / (ny * nz) : ℕ) : ℝ), XR.fin ((n / nz % ny : ℕ) : ℝ),
          XR.fin ((n % nz : ℕ) : ℝ)] a d + o d),
      cubicWeights a (sh nx ny nz)⟩ := by
  unfold cubicGrid
  have h0 : ¬ (sh nx ny nz 0 * sh nx ny nz 1 * sh nx ny nz 2 < 0) := by
    simp only [sh, Matrix.cons_val_zero, Matrix.cons_val_one, Matrix.cons_val, not_lt]
    positivity
  rw [if_neg h0]
  simp only [sh, Matrix.cons_val_zero, Matrix.cons_val_one, Matrix.cons_val, Int.toNat_natCast,
    meshgrid, Arr3.swap01, Arr3.flat, List.zip_map', List.zipWith_map, List.zipWith_self]

/-- **C06**.  The grid has `nx*ny*nz` points and the point with flat index `(i*ny+j)*nz+k` is
`origin + i*axes[0] + j*axes[1] + k*axes[2]`, for all real origins, axes and all extents. -/
theorem C06_row_major (o : Fin 3 → ℝ) (a : Fin 3 → Fin 3 → ℝ) (nx ny nz : ℕ) :
    ∃ g, cubicGrid (v3 o) (m3 a) (sh nx ny nz) = .ok g ∧ g.points.length = nx * ny * nz ∧
      ∀ i j k, i < nx → j < ny → k < nz →
        g.points[(i * ny + j) * nz + k]? =
          some (v3 fun d => o d + i * a 0 d + j * a 1 d + k * a 2 d) := by
  refine ⟨_, cubicGrid_sh _ _ _ _ _, by simp, ?_⟩
  intro i j k hi hj hk
  have hlt : (i * ny + j) * nz + k < nx * ny * nz := by
    have h1 : i * ny + j + 1 ≤ nx * ny := by
      calc i * ny + j + 1 ≤ i * ny + ny := by omega
        _ = (i + 1) * ny := by ring
        _ ≤ nx * ny := Nat.mul_le_mul_right _ hi
    calc (i * ny + j) * nz + k < (i * ny + j) * nz + nz := by omega
      _ = (i * ny + j + 1) * nz := by ring
      _ ≤ nx * ny * nz := Nat.mul_le_mul_right _ h1
  have e1 : ((i * ny + j) * nz + k) / nz = i * ny + j := by
    rw [Nat.mul_comm, Nat.mul_add_div (by omega), Nat.div_eq_of_lt hk, Nat.add_zero]
  have e2 : ((i * ny + j) * nz + k) % nz = k := by
    rw [Nat.mul_comm, Nat.mul_add_mod, Nat.mod_eq_of_lt hk]
  have e3 : (i * ny + j) / ny = i := by
    rw [Nat.mul_comm, Nat.mul_add_div (by omega), Nat.div_eq_of_lt hj, Nat.add_zero]
  have e4 : (i * ny + j) % ny = j := by
    rw [Nat.mul_comm, Nat.mul_add_mod, Nat.mod_eq_of_lt hj]
  have e5 : ((i * ny + j) * nz + k) / (ny * nz) = i := by
    rw [Nat.mul_comm ny nz, ← Nat.div_div_eq_div_mul, e1, e3]
  simp only [List.getElem?_map, List.getElem?_range hlt, Option.map_some, e1, e2, e4, e5]
  congr 1
  funext d
  simp only [rowDot, v3, m3, Fin.sum_univ_three, Matrix.cons_val_zero, Matrix.cons_val_one,
    Matrix.cons_val, XR.mul_fin, XR.add_fin, XR.fin_inj]
  ring

/-- **C06** (errors). A shape with a negative number of points is rejected; everything else is
accepted, for arbitrary (also non-finite) origin and axes. -/
theorem C06_errors (o : V3) (a : Fin 3 → V3) (s : Fin 3 → ℤ) :
    (s 0 * s 1 * s 2 < 0 → cubicGrid o a s = .error .valueError) ∧
    (¬ s 0 * s 1 * s 2 < 0 → ∃ g, cubicGrid o a s = .ok g) := by
  unfold cubicGrid raise
  constructor <;> intro h <;> simp [h]

theorem cubicVolume_m3 (a : Fin 3 → Fin 3 → ℝ) (s : Fin 3 → ℤ) :
    cubicVolume (m3 a) s = XR.fin |(s 0 * s 1 * s 2 : ℤ) * (Matrix.of a).det| := by
  simp only [cubicVolume, cross3, smul3, m3, Fin.sum_univ_three, Matrix.cons_val_zero,
    Matrix.cons_val_one, Matrix.cons_val, XR.mul_fin, XR.sub_fin, XR.add_fin, XR.abs_fin,
    Matrix.det_fin_three, Matrix.of_apply]
  congr 2
  push_cast
  ring

theorem cubicWeights_sh (a : Fin 3 → Fin 3 → ℝ) (nx ny nz : ℕ) :
    cubicWeights (m3 a) (sh nx ny nz) =
      fins (List.replicate (nx * ny * nz) |(Matrix.of a).det|) := by
  unfold cubicWeights
  rw [cubicVolume_m3]
  have hN : sh nx ny nz 0 * sh nx ny nz 1 * sh nx ny nz 2 = ((nx * ny * nz : ℕ) : ℤ) := by
    simp [sh]
  rw [hN, Int.toNat_natCast]
  rcases Nat.eq_zero_or_pos (nx * ny * nz) with h | h
  · rw [h]; rfl
  · have hne : (((nx * ny * nz : ℕ) : ℤ) : ℝ) ≠ 0 := by
      have : (0 : ℝ) < ((nx * ny * nz : ℕ) : ℝ) := by exact_mod_cast h
      rw [Int.cast_natCast]; exact this.ne'
    rw [XR.div_fin_of_ne _ hne, fins, List.map_replicate, abs_mul,
      abs_of_nonneg (by rw [Int.cast_natCast]; positivity : (0 : ℝ) ≤ (((nx * ny * nz : ℕ) : ℤ) : ℝ)),
      mul_div_cancel_left₀ _ hne]

/-- **C07** (weights).  Every weight is the volume `|det axes|` of one cell; there is one weight per
point. -/
theorem C07_weights (o : V3) (a : Fin 3 → Fin 3 → ℝ) (nx ny nz : ℕ) :
    ∃ g, cubicGrid o (m3 a) (sh nx ny nz) = .ok g ∧ g.weights.length = g.points.length ∧
      ∀ w ∈ g.weights, w = XR.fin |(Matrix.of a).det| := by
  refine ⟨_, cubicGrid_sh _ _ _ _ _, ?_, ?_⟩
  · simp [cubicWeights_sh]
  · intro w hw
    simp only [cubicWeights_sh, fins, List.map_replicate] at hw
    exact List.eq_of_mem_replicate hw

theorem cubic_integrate_fins (o : V3) (a : Fin 3 → Fin 3 → ℝ) (nx ny nz : ℕ) (f : List ℝ)
    (hf : f.length = nx * ny * nz) {g : CubicGrid}
    (hg : cubicGrid o (m3 a) (sh nx ny nz) = .ok g) :
    g.integrate (ND.vec (fins f)) =
      .ok (XR.fin (wsum (List.replicate (nx * ny * nz) |(Matrix.of a).det|) f)) := by
  rw [cubicGrid_sh] at hg
  injection hg with hg
  subst hg
  unfold CubicGrid.integrate ND.vec
  rw [if_neg (by simp [hf])]
  simp only [cubicWeights_sh]
  rw [if_pos (by simp), zipWith_fins (g := (· * ·)) (fun a b => XR.mul_fin a b), sum_fins]
  rfl

theorem wsum_replicate (n : ℕ) (c : ℝ) (f : List ℝ) (hf : f.length = n) :
    wsum (List.replicate n c) f = c * f.sum := by
  induction f generalizing n with
  | nil => subst hf; simp
  | cons x f ih =>
    subst hf
    rw [List.length_cons, List.replicate_succ, wsum_cons, ih _ rfl, List.sum_cons]; ring

/-- **C07** (value).  `integrate` is the Riemann sum: cell volume times the sum of the values. -/
theorem C07_integrate_value (o : V3) (a : Fin 3 → Fin 3 → ℝ) (nx ny nz : ℕ) (f : List ℝ)
    (hf : f.length = nx * ny * nz) :
    ∃ g, cubicGrid o (m3 a) (sh nx ny nz) = .ok g ∧
      g.integrate (ND.vec (fins f)) = .ok (XR.fin (|(Matrix.of a).det| * f.sum)) := by
  refine ⟨_, cubicGrid_sh _ _ _ _ _, ?_⟩
  rw [cubic_integrate_fins o a nx ny nz f hf (cubicGrid_sh _ _ _ _ _), wsum_replicate _ _ _ hf]

/-- **C07** (linear, monotone, constant one). -/
theorem C07_integrate_laws (o : V3) (a : Fin 3 → Fin 3 → ℝ) (nx ny nz : ℕ) :
    ∃ g, cubicGrid o (m3 a) (sh nx ny nz) = .ok g ∧
      (∀ (f h : List ℝ) (s t : ℝ), f.length = nx * ny * nz → h.length = nx * ny * nz →
        ∃ F H : ℝ, g.integrate (ND.vec (fins f)) = .ok (XR.fin F) ∧
          g.integrate (ND.vec (fins h)) = .ok (XR.fin H) ∧
          g.integrate (ND.vec
            (List.zipWith (fun u v => XR.fin s * u + XR.fin t * v) (fins f) (fins h)))
            = .ok (XR.fin (s * F + t * H)) ∧
          (List.Forall₂ (· ≤ ·) f h → F ≤ H)) ∧
      g.integrate (ND.vec (fins (List.replicate (nx * ny * nz) 1))) =
        .ok (XR.fin ((nx * ny * nz : ℕ) * |(Matrix.of a).det|)) := by
  refine ⟨_, cubicGrid_sh _ _ _ _ _, ?_, ?_⟩
  · intro f h s t hf hh
    refine ⟨_, _, cubic_integrate_fins o a nx ny nz f hf (cubicGrid_sh _ _ _ _ _),
      cubic_integrate_fins o a nx ny nz h hh (cubicGrid_sh _ _ _ _ _), ?_, ?_⟩
    · rw [zipWith_fins (g := fun u v => s * u + t * v) (by simp),
        cubic_integrate_fins o a nx ny nz _ (by simp [hf, hh]) (cubicGrid_sh _ _ _ _ _),
        wsum_linear _ _ _ _ _ (by simp [hf]) (by simp [hh])]
    · intro hfh
      exact wsum_mono _ _ _ (fun c hc => by rw [List.eq_of_mem_replicate hc]; exact abs_nonneg _) hfh
  · rw [cubic_integrate_fins o a nx ny nz _ (by simp) (cubicGrid_sh _ _ _ _ _),
      wsum_replicate _ _ _ (by simp), List.sum_replicate]
    simp [mul_comm]

/-- **C07** (shape check).  On every grid with a non-negative shape `integrate` accepts exactly the arrays with
one value per point. -/
theorem C07_shape_check (o : V3) (a : Fin 3 → V3) (nx ny nz : ℕ) :
    ∃ g, cubicGrid o a (sh nx ny nz) = .ok g ∧ ∀ arr : ND XR,
      (arr.shape = [nx * ny * nz] → ∃ v, g.integrate arr = .ok v) ∧
      (arr.shape ≠ [nx * ny * nz] → g.integrate arr = .error .valueError) := by
  refine ⟨_, cubicGrid_sh _ _ _ _ _, fun arr => ?_⟩
  unfold CubicGrid.integrate raise
  simp only [List.length_map, List.length_range]
  constructor
  · intro h
    rw [if_neg (by simp [h]), if_pos]
    · exact ⟨_, rfl⟩
    · simp only [cubicWeights, sh, List.length_replicate, Matrix.cons_val_zero, Matrix.cons_val_one, Matrix.cons_val]
      rw [← Nat.cast_mul, ← Nat.cast_mul, Int.toNat_natCast]
  · intro h
    rw [if_pos h]

/-- **C07** (negative shapes).  The constructor accepts a shape with two negative entries.  The grid has no
points, but as many weights as the product of the shape, so that `integrate` raises ValueError for every array,
except that of an empty one is 0 if the product is 1. -/
theorem C07_negative_shape (o : V3) (a : Fin 3 → V3) (s : Fin 3 → ℤ) (h : 0 < s 0 * s 1 * s 2)
    (hn : ∃ d, s d < 0) :
    ∃ g, cubicGrid o a s = .ok g ∧ g.points = [] ∧ (g.weights.length : ℤ) = s 0 * s 1 * s 2 ∧
      ∀ arr : ND XR, g.integrate arr =
        if s 0 * s 1 * s 2 = 1 ∧ arr.shape = [0] then .ok (arr.data.map (g.weights.headD 0 * ·)).sum
        else .error .valueError := by
  have hp : (s 0).toNat * (s 1).toNat * (s 2).toNat = 0 := by
    obtain ⟨d, hd⟩ := hn
    have : (s d).toNat = 0 := Int.toNat_of_nonpos hd.le
    fin_cases d <;> simp_all
  have hpts : ∀ g, cubicGrid o a s = .ok g → g.points = [] ∧ g.weights.length = (s 0 * s 1 * s 2).toNat := by
    intro g hg
    unfold cubicGrid at hg
    rw [if_neg (by omega)] at hg
    injection hg with hg
    subst hg
    refine ⟨?_, by simp [cubicWeights]⟩
    rw [← List.length_eq_zero_iff]
    simp [meshgrid, Arr3.swap01, Arr3.flat, hp]
  obtain ⟨g, hg⟩ := (C06_errors o a s).2 (by omega)
  obtain ⟨h1, h2⟩ := hpts g hg
  refine ⟨g, hg, h1, by omega, fun arr => ?_⟩
  unfold CubicGrid.integrate raise
  rw [h1, h2]
  simp only [List.length_nil]
  by_cases ha : arr.shape = [0]
  · rw [if_neg (by simp [ha]), if_neg (by omega)]
    by_cases hs : s 0 * s 1 * s 2 = 1
    · rw [if_pos (by omega), if_pos ⟨hs, ha⟩]
    · rw [if_neg (by omega), if_neg (by omega), if_neg (fun h => hs h.1)]
  · rw [if_pos ha, if_neg (fun h => ha h.2)]

/-- Two negative entries. -/
example : ∃ g, cubicGrid (v3 ![0, 0, 0]) (m3 ![![2, 0, 0], ![0, 1, 0], ![0, 0, 1]]) ![-2, -1, 1] = .ok g ∧
    g.points = [] ∧ g.integrate (ND.vec []) = .error .valueError := by
  obtain ⟨g, h1, h2, -, h3⟩ := C07_negative_shape (v3 ![0, 0, 0]) (m3 ![![2, 0, 0], ![0, 1, 0], ![0, 0, 1]])
    ![-2, -1, 1] (by simp) ⟨0, by simp⟩
  exact ⟨g, h1, h2, by rw [h3]; simp⟩

example : ∃ g, cubicGrid (v3 ![0, 0, 0]) (m3 ![![2, 0, 0], ![0, 1, 0], ![0, 0, 1]]) (sh 1 2 1) = .ok g ∧
    g.integrate (ND.vec (fins [3, 4])) = .ok (XR.fin 14) := by
  obtain ⟨g, h1, h2⟩ := C07_integrate_value (v3 ![0, 0, 0]) ![![2, 0, 0], ![0, 1, 0], ![0, 0, 1]]
    1 2 1 [3, 4] rfl
  refine ⟨g, h1, ?_⟩
  rw [h2, Matrix.det_fin_three]
  simp
  norm_num

end BFit
