import Verif.Model.RoundCubic
import Verif.Lemmas.RoundNear
import Verif.Props.CubicGrid

/-!
C150: the points, weights and integrals of cubic grids when every operation is rounded.
-/

namespace BFit

open Real Classical Finset

noncomputable section

/-- The sum of the absolute values of the six products in a determinant of order three. -/
def absPerm (a : Fin 3 → Fin 3 → ℝ) : ℝ :=
  |a 0 1 * a 1 2 * a 2 0| + |a 0 2 * a 1 1 * a 2 0| + (|a 0 2 * a 1 0 * a 2 1| + |a 0 0 * a 1 2 * a 2 1|) +
    (|a 0 0 * a 1 1 * a 2 2| + |a 0 1 * a 1 0 * a 2 2|)

section
variable {u : ℝ} (h0 : 0 ≤ u) (h1 : u < 1)
include h0 h1

/-- A computed sum of three computed numbers. -/
theorem RSum.near3 {k : ℕ} {x y z s a b c A B C : ℝ} (h : RSum u [x, y, z] s) (hx : NearBy u k x a A) (hy : NearBy u k y b B)
    (hz : NearBy u k z c C) : NearBy u (k + 2) s (a + b + c) (A + B + C) := by
  obtain ⟨l, hl, rfl⟩ := h.rel h0 h1
  cases hl with
  | cons e1 hl =>
    cases hl with
    | cons e2 hl =>
      cases hl with
      | cons e3 hl =>
        cases hl
        have := ((hx.rel_left h0 h1 e1).add h0 h1 (hy.rel_left h0 h1 e2)).add h0 h1 (hz.rel_left h0 h1 e3)
        simpa [add_assoc] using this

omit h0 h1 in
theorem NearBy.abs {k : ℕ} {a b B : ℝ} (h : NearBy u k a b B) : NearBy u k |a| |b| B :=
  ⟨(abs_abs_sub_abs_le a b).trans h.1, by rw [abs_abs]; exact h.2⟩

theorem RCross.near {k l : ℕ} {c x y z t x' y' z' t' : ℝ} (h : RCross u c x y z t) (hx : Rel u k x x') (hy : Rel u l y y')
    (hz : Rel u k z z') (ht : Rel u l t t') : NearBy u (k + l + 2) c (x' * y' - z' * t') (|x' * y'| + |z' * t'|) := by
  obtain ⟨p, q, hp, hq, hc⟩ := h
  have n1 := NearBy.of_rel h0 h1 ((Rel.of_fl h0 h1 hp).trans h0 h1 (hx.mul h0 h1 hy))
  have n2 := (NearBy.of_rel h0 h1 ((Rel.of_fl h0 h1 hq).trans h0 h1 (hz.mul h0 h1 ht))).neg
  have n3 := n1.add h0 h1 n2
  rw [← sub_eq_add_neg, ← sub_eq_add_neg] at n3
  exact (n3.fl h0 h1 hc).mono h0 h1 (by omega) le_rfl

/-- The computed weight. -/
theorem RCubicWeight.near {a : Fin 3 → Fin 3 → ℝ} {nx ny nz : ℕ} {w : ℝ} (hx : 0 < nx) (hy : 0 < ny) (hz : 0 < nz)
    (h : RCubicWeight u a nx ny nz w) : NearBy u 10 w |(Matrix.of a).det| (absPerm a) := by
  obtain ⟨A, B, C, c, t, V, N, hA, hB, hC, c0, c1, c2, ht, hV, hN, hw⟩ := h
  have rA := fun d => Rel.of_fl h0 h1 (hA d)
  have rB := fun d => Rel.of_fl h0 h1 (hB d)
  have rC := fun d => Rel.of_fl h0 h1 (hC d)
  have k0 := ((c0.near h0 h1 (rA 1) (rB 2) (rA 2) (rB 1)).mul_rel h0 h1 (rC 0)).fl h0 h1 (ht 0)
  have k1 := ((c1.near h0 h1 (rA 2) (rB 0) (rA 0) (rB 2)).mul_rel h0 h1 (rC 1)).fl h0 h1 (ht 1)
  have k2 := ((c2.near h0 h1 (rA 0) (rB 1) (rA 1) (rB 0)).mul_rel h0 h1 (rC 2)).fl h0 h1 (ht 2)
  have kV := (hV.near3 h0 h1 k0 k1 k2).abs
  have kw := (kV.div_rel h0 h1 (Rel.of_fl h0 h1 hN)).fl h0 h1 hw
  have hxR : (0 : ℝ) < nx := by exact_mod_cast hx
  have hyR : (0 : ℝ) < ny := by exact_mod_cast hy
  have hzR : (0 : ℝ) < nz := by exact_mod_cast hz
  have hp : (0 : ℝ) < nx * ny * nz := by positivity
  have e1 : |(nx * a 0 1 * (ny * a 1 2) - nx * a 0 2 * (ny * a 1 1)) * (nz * a 2 0) +
      (nx * a 0 2 * (ny * a 1 0) - nx * a 0 0 * (ny * a 1 2)) * (nz * a 2 1) +
      (nx * a 0 0 * (ny * a 1 1) - nx * a 0 1 * (ny * a 1 0)) * (nz * a 2 2)| / (nx * ny * nz : ℝ) =
      |(Matrix.of a).det| := by
    have : (nx * a 0 1 * (ny * a 1 2) - nx * a 0 2 * (ny * a 1 1)) * (nz * a 2 0) +
      (nx * a 0 2 * (ny * a 1 0) - nx * a 0 0 * (ny * a 1 2)) * (nz * a 2 1) +
      (nx * a 0 0 * (ny * a 1 1) - nx * a 0 1 * (ny * a 1 0)) * (nz * a 2 2) =
        (nx * ny * nz : ℝ) * (Matrix.of a).det := by
      simp only [Matrix.det_fin_three, Matrix.of_apply]
      ring
    rw [this, abs_mul, abs_of_pos hp, mul_div_cancel_left₀ _ hp.ne']
  rw [e1] at kw
  refine kw.mono h0 h1 (by omega) (le_of_eq ?_)
  rw [abs_of_pos hp, div_eq_iff hp.ne']
  simp only [absPerm, abs_mul, Nat.abs_cast]
  ring

theorem RCubicWeight.nonneg {a : Fin 3 → Fin 3 → ℝ} {nx ny nz : ℕ} {w : ℝ} (h : RCubicWeight u a nx ny nz w) : 0 ≤ w := by
  obtain ⟨A, B, C, c, t, V, N, -, -, -, -, -, -, -, -, hN, hw⟩ := h
  have hN' : 0 ≤ N := (Rel.of_fl h0 h1 hN).nonneg h0 h1 (by positivity)
  exact (Rel.of_fl h0 h1 hw).nonneg h0 h1 (by positivity)

/-- The computed coordinates. -/
theorem RCubicPoint.near {o : Fin 3 → ℝ} {a : Fin 3 → Fin 3 → ℝ} {i j k : ℕ} {p : Fin 3 → ℝ} (h : RCubicPoint u o a i j k p)
    (d : Fin 3) : NearBy u 4 (p d) (o d + i * a 0 d + j * a 1 d + k * a 2 d)
      (|o d| + i * |a 0 d| + j * |a 1 d| + k * |a 2 d|) := by
  obtain ⟨x, y, z, s, hx, hy, hz, hs, hp⟩ := h d
  have f := fun {v w : ℝ} (e : Fl u v w) => NearBy.of_rel h0 h1 (Rel.of_fl h0 h1 e)
  have n1 := hs.near3 h0 h1 (f hx) (f hy) (f hz)
  have n2 := (n1.add h0 h1 ((NearBy.refl h0 h1 (o d)).mono h0 h1 (l := 3) (by omega) le_rfl)).fl h0 h1 hp
  have e : i * a 0 d + j * a 1 d + k * a 2 d + o d = o d + i * a 0 d + j * a 1 d + k * a 2 d := by ring
  rw [e] at n2
  refine n2.mono h0 h1 (by omega) (le_of_eq ?_)
  simp only [abs_mul, Nat.abs_cast]
  ring

/-- **C150** (points).  Every computed coordinate of a point differs from the coordinate of the grid in the model by at most
four rounding errors of the numbers that are added. -/
theorem C150_points (o : Fin 3 → ℝ) (a : Fin 3 → Fin 3 → ℝ) (nx ny nz : ℕ) :
    ∃ g, cubicGrid (v3 o) (m3 a) (sh nx ny nz) = .ok g ∧ ∀ i j k, i < nx → j < ny → k < nz →
      ∃ q, g.points[(i * ny + j) * nz + k]? = some (v3 q) ∧ ∀ p, RCubicPoint u o a i j k p → ∀ d,
        |p d - q d| ≤ (1 / (1 - u) ^ 4 - 1) * (|o d| + i * |a 0 d| + j * |a 1 d| + k * |a 2 d|) := by
  obtain ⟨g, hg, -, hq⟩ := C06_row_major o a nx ny nz
  exact ⟨g, hg, fun i j k hi hj hk => ⟨_, hq i j k hi hj hk, fun p hp d => (hp.near h0 h1 d).1⟩⟩

/-- **C150** (weights).  The computed weight is not negative.  It differs from the weights of the grid in the model, the volume
of a cell, by at most ten rounding errors of the six products of the determinant.  For axes along the coordinates
this is a relative error. -/
theorem C150_weights (o : Fin 3 → ℝ) (a : Fin 3 → Fin 3 → ℝ) (nx ny nz : ℕ) (hx : 0 < nx) (hy : 0 < ny) (hz : 0 < nz) :
    ∃ g, cubicGrid (v3 o) (m3 a) (sh nx ny nz) = .ok g ∧ ∀ w, RCubicWeight u a nx ny nz w → 0 ≤ w ∧ ∀ w' ∈ g.weights,
      ∃ c : ℝ, w' = XR.fin c ∧ |w - c| ≤ (1 / (1 - u) ^ 10 - 1) * absPerm a ∧
        ((∀ i j, i ≠ j → a i j = 0) → |w - c| ≤ (1 / (1 - u) ^ 10 - 1) * c ∧ c = |a 0 0 * a 1 1 * a 2 2|) := by
  obtain ⟨g, hg, -, hw'⟩ := C07_weights (v3 o) a nx ny nz
  refine ⟨g, hg, fun w hw => ⟨hw.nonneg h0 h1, fun w' h' => ⟨_, hw' w' h', (hw.near h0 h1 hx hy hz).1, fun ha => ?_⟩⟩⟩
  have z := fun i j h => ha i j h
  have e : |(Matrix.of a).det| = |a 0 0 * a 1 1 * a 2 2| := by
    simp [Matrix.det_fin_three, z 0 1 (by decide), z 0 2 (by decide), z 1 2 (by decide)]
  have e' : absPerm a = |a 0 0 * a 1 1 * a 2 2| := by
    simp [absPerm, z 0 1 (by decide), z 0 2 (by decide), z 1 2 (by decide)]
  have := (hw.near h0 h1 hx hy hz).1
  rw [e', e] at this
  rw [e]
  exact ⟨this, rfl⟩

/-- **C150** (integrals).  The integral computed with the computed weight. -/
theorem C150_integral (o : Fin 3 → ℝ) (a : Fin 3 → Fin 3 → ℝ) (nx ny nz : ℕ) (hx : 0 < nx) (hy : 0 < ny) (hz : 0 < nz)
    (f : List ℝ) (hf : f.length = nx * ny * nz) :
    ∃ g I, cubicGrid (v3 o) (m3 a) (sh nx ny nz) = .ok g ∧ g.integrate (ND.vec (fins f)) = .ok (XR.fin I) ∧
      ∀ w v, RCubicWeight u a nx ny nz w → RWeighted u 0 (nx * ny * nz) (fun _ => w) (fun i => f.getD i 0) v →
        |v - I| ≤ (1 / (1 - u) ^ (nx * ny * nz + 10) - 1) * (absPerm a * (f.map fun y => |y|).sum) := by
  obtain ⟨g, hg, hI⟩ := C07_integrate_value (v3 o) a nx ny nz f hf
  refine ⟨g, _, hg, hI, fun w v hw hv => ?_⟩
  obtain ⟨b, hb, rfl⟩ := hv.rel h0 h1
  have nw := hw.near h0 h1 hx hy hz
  have key := NearBy.sum h0 h1 (n := nx * ny * nz) fun i hi =>
    ((nw.mul_rel h0 h1 (Rel.refl h0 h1 (f.getD i 0))).rel_left h0 h1 (hb i hi))
  have s1 : ∀ (l : List ℝ), ∑ i ∈ range l.length, l.getD i 0 = l.sum := by
    intro l
    induction l with
    | nil => simp
    | cons x l ih => rw [List.length_cons, sum_range_succ']; simp [← ih, add_comm]
  have s2 : ∀ (l : List ℝ), ∑ i ∈ range l.length, |l.getD i 0| = (l.map fun y => |y|).sum := by
    intro l
    induction l with
    | nil => simp
    | cons x l ih => rw [List.length_cons, sum_range_succ']; simp [← ih, add_comm]
  rw [← mul_sum, ← mul_sum, ← hf, s1, s2] at key
  rw [← hf]
  exact (key.mono h0 h1 (by omega) le_rfl).1

end

/-- **C150** (exact).  Exact arithmetic is one of the possible computations. -/
theorem C150_exact {u : ℝ} (h0 : 0 ≤ u) (o : Fin 3 → ℝ) (a : Fin 3 → Fin 3 → ℝ) (i j k nx ny nz : ℕ) (hx : 0 < nx) (hy : 0 < ny)
    (hz : 0 < nz) : RCubicPoint u o a i j k (fun d => o d + i * a 0 d + j * a 1 d + k * a 2 d) ∧
      RCubicWeight u a nx ny nz |(Matrix.of a).det| := by
  have fr : ∀ x : ℝ, Fl u x x := fun x => by
    unfold Fl
    simpa using mul_nonneg h0 (abs_nonneg x)
  have fe : ∀ x y : ℝ, x = y → Fl u x y := fun x y h => h ▸ fr x
  constructor
  · intro d
    exact ⟨_, _, _, _, fr _, fr _, fr _, RSum.exact h0 _, fe _ _ (by simp; ring)⟩
  · have hxR : (nx : ℝ) ≠ 0 := by exact_mod_cast hx.ne'
    have hyR : (ny : ℝ) ≠ 0 := by exact_mod_cast hy.ne'
    have hzR : (nz : ℝ) ≠ 0 := by exact_mod_cast hz.ne'
    have hp : (0 : ℝ) < nx * ny * nz := by positivity
    let A : Fin 3 → ℝ := fun d => nx * a 0 d
    let B : Fin 3 → ℝ := fun d => ny * a 1 d
    let C : Fin 3 → ℝ := fun d => nz * a 2 d
    let c : Fin 3 → ℝ := ![A 1 * B 2 - A 2 * B 1, A 2 * B 0 - A 0 * B 2, A 0 * B 1 - A 1 * B 0]
    refine ⟨A, B, C, c, fun d => c d * C d, _, _, fun d => fr _, fun d => fr _, fun d => fr _, ⟨_, _, fr _, fr _, fr _⟩,
      ⟨_, _, fr _, fr _, fr _⟩, ⟨_, _, fr _, fr _, fr _⟩, fun d => fr _, RSum.exact h0 _, fr _, fe _ _ ?_⟩
    have : ([c 0 * C 0, c 1 * C 1, c 2 * C 2] : List ℝ).sum = (nx * ny * nz : ℝ) * (Matrix.of a).det := by
      simp [c, A, B, C, Matrix.det_fin_three]
      ring
    rw [this, abs_mul, abs_of_pos hp, mul_div_cancel_left₀ _ hp.ne']

/-- **C150** (cancellation).  No relative bound holds for all axes: with the linearly dependent axes (1,1,0), (1,1,0), (0,0,1)
the cells have no volume, but the weight may be computed as `u`. -/
theorem C150_cancel {u : ℝ} (h0 : 0 ≤ u) :
    ∃ g, cubicGrid (v3 fun _ => 0) (m3 ![![1, 1, 0], ![1, 1, 0], ![0, 0, 1]]) (sh 1 1 1) = .ok g ∧ g.weights = [XR.fin 0] ∧
      RCubicWeight u ![![1, 1, 0], ![1, 1, 0], ![0, 0, 1]] 1 1 1 u := by
  obtain ⟨g, hg, hl, hw⟩ := C07_weights (v3 fun _ => 0) ![![1, 1, 0], ![1, 1, 0], ![0, 0, 1]] 1 1 1
  obtain ⟨g', hg', hl', -⟩ := C06_row_major (fun _ => 0) ![![1, 1, 0], ![1, 1, 0], ![0, 0, 1]] 1 1 1
  have eg : g' = g := by rw [hg] at hg'; exact (Except.ok.inj hg').symm
  rw [eg] at hl'
  obtain ⟨w, hw1⟩ : ∃ w, g.weights = [w] := List.length_eq_one_iff.mp (by rw [hl, hl'])
  have hw2 := hw w (by simp [hw1])
  refine ⟨g, hg, by rw [hw1, hw2]; simp [Matrix.det_fin_three], ?_⟩
  have fe : ∀ x y : ℝ, x = y → Fl u x y := by
    rintro x _ rfl
    unfold Fl
    simpa using mul_nonneg h0 (abs_nonneg x)
  refine ⟨![1, 1, 0], ![1, 1, 0], ![0, 0, 1], ![0, 0, u], ![0, 0, u], u, 1, ?_, ?_, ?_, ⟨0, 0, ?_⟩, ⟨0, 0, ?_⟩,
    ⟨1 + u, 1, ?_, ?_, ?_⟩, ?_, ?_, ?_, ?_⟩
  · intro d; fin_cases d <;> exact fe _ _ (by simp)
  · intro d; fin_cases d <;> exact fe _ _ (by simp)
  · intro d; fin_cases d <;> exact fe _ _ (by simp)
  · exact ⟨fe _ _ (by simp), fe _ _ (by simp), fe _ _ (by simp)⟩
  · exact ⟨fe _ _ (by simp), fe _ _ (by simp), fe _ _ (by simp)⟩
  · simp [Fl, abs_of_nonneg h0]
  · exact fe _ _ (by simp)
  · exact fe _ _ (by simp)
  · intro d; fin_cases d <;> exact fe _ _ (by simp)
  · simpa using RSum.exact h0 [0, 0, u]
  · exact fe _ _ (by simp)
  · exact fe _ _ (by simp [abs_of_nonneg h0])

/-- Example: skewed axes, a shape of 2, 3, 1 and double precision. -/
example : ∃ w, RCubicWeight (2⁻¹ ^ 53) ![![1, 2, 0], ![0, 1, 3], ![1, 0, 1]] 2 3 1 w ∧ w = 7 := by
  have h := (C150_exact (u := 2⁻¹ ^ 53) (by positivity) (fun _ => 0) ![![1, 2, 0], ![0, 1, 3], ![1, 0, 1]] 0 0 0 2 3 1 (by decide)
    (by decide) (by decide)).2
  refine ⟨_, h, ?_⟩
  simp [Matrix.det_fin_three]
  norm_num

end
end BFit
