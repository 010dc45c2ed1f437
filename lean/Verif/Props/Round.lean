import Verif.Props.FPI
import Verif.Lemmas.RoundQuad

/-!
Properties of the computations with rounding (Model/Round).  In all of them `u` is the relative accuracy of one
operation and the statement holds for every choice of the rounding errors and every order of summation.  For double
precision `u = 2⁻⁵³`; `C113_linear` turns the bounds into the usual `k u / (1 - k u)`.
-/

namespace BFit

open Real Classical Finset

noncomputable section

/-! ### C113: integrals -/

/-- **C113** (radial grids).  `integrate` on `n` points returns the exact value up to `n + 2` roundings of the
trapezoids, for integrands of any sign and points in any order. -/
theorem C113_radial {u : ℝ} (h0 : 0 ≤ u) (h1 : u < 1) (x y : List ℝ) (hy : y.length = x.length) :
    ∃ I, (RadialGrid.mk (fins x)).integrate (ND.vec (fins y)) = .ok (XR.fin I) ∧
      ∀ v, RIntegrate u 0 (.radial ⟨fins x⟩) false (y.getD · 0) v →
        |v - I| ≤ (1 / (1 - u) ^ (x.length + 2) - 1) * ∑ i ∈ range (x.length - 1),
          |x.getD (i + 1) 0 - x.getD i 0| * |y.getD (i + 1) 0 + y.getD i 0| / 2 := by
  refine ⟨_, C02_trapezoid_areas x y hy, fun v hv => ?_⟩
  obtain ⟨x', hx', hv⟩ := hv
  have : x' = x := (fins_injective hx').symm
  subst this
  simp only [Bool.false_eq_true, if_false] at hv
  obtain ⟨b, hb, rfl⟩ := hv.rel h0 h1
  have := abs_sum_sub_le h0 h1 hb
  have e1 : trapezoidAreas x' y = ∑ i ∈ range (x'.length - 1),
      (x'.getD (i + 1) 0 - x'.getD i 0) * (y.getD (i + 1) 0 + y.getD i 0) / 2 :=
    sum_congr rfl fun i _ => by ring
  rw [e1]
  refine this.trans (le_of_eq ?_)
  congr 1
  refine sum_congr rfl fun i _ => ?_
  rw [abs_div, abs_mul, abs_of_pos (two_pos : (0 : ℝ) < 2)]

/-- **C113** (cubic grids).  The Riemann sum over `n` cells is exact up to `n` roundings of its terms. -/
theorem C113_cubic {u : ℝ} (h0 : 0 ≤ u) (h1 : u < 1) (o : V3) (a : Fin 3 → Fin 3 → ℝ) (nx ny nz : ℕ)
    (y : List ℝ) (hy : y.length = nx * ny * nz) :
    ∃ g I, cubicGrid o (m3 a) (sh nx ny nz) = .ok g ∧ g.integrate (ND.vec (fins y)) = .ok (XR.fin I) ∧
      ∀ v, RIntegrate u 0 (.cubic g) false (y.getD · 0) v →
        |v - I| ≤ (1 / (1 - u) ^ (nx * ny * nz) - 1) * (|(Matrix.of a).det| * (y.map (|·|)).sum) := by
  obtain ⟨g, hg, hI⟩ := C07_integrate_value o a nx ny nz y hy
  obtain ⟨g', hg', hlen, hws⟩ := C07_weights o a nx ny nz
  have : g' = g := by rw [hg] at hg'; injection hg' with h; exact h.symm
  subst this
  refine ⟨g', _, hg, hI, fun v hv => ?_⟩
  obtain ⟨_, w, hw, hl, hv⟩ := hv
  have hn : w.length = y.length := by
    rw [hl, hy]
    rw [cubicGrid_sh] at hg
    injection hg with hg
    rw [← hg]
    simp
  obtain ⟨b, hb, rfl⟩ := hv.rel h0 h1
  have hwi : ∀ i < w.length, w.getD i 0 = |(Matrix.of a).det| := by
    intro i hi
    rw [List.getD_eq_getElem _ _ hi]
    have := hws (XR.fin w[i]) (by rw [hw]; exact List.mem_map.mpr ⟨_, List.getElem_mem _, rfl⟩)
    injection this
  have hsum : ∀ f : ℝ → ℝ, (y.map f).sum = ∑ i ∈ range w.length, f (y.getD i 0) := by
    intro f
    rw [map_eq_range_map, sum_tab_range, hn]
  have e1 : |(Matrix.of a).det| * y.sum = ∑ i ∈ range w.length, w.getD i 0 * y.getD i 0 := by
    have := hsum id
    simp only [List.map_id, id] at this
    rw [this, mul_sum]
    exact sum_congr rfl fun i hi => by rw [hwi i (mem_range.mp hi)]
  have e2 : |(Matrix.of a).det| * (y.map (|·|)).sum = ∑ i ∈ range w.length, |w.getD i 0 * y.getD i 0| := by
    rw [hsum, mul_sum]
    exact sum_congr rfl fun i hi => by rw [hwi i (mem_range.mp hi), abs_mul, abs_abs]
  rw [e1, e2, ← hy, ← hn]
  exact abs_sum_sub_le h0 h1 hb

/-- **C113** (relative accuracy).  On a grid with ascending radial points or non-negative weights the integral of a
non-negative function, plain or spherical, is computed with a relative error of `n + 7` roundings; in particular
it is not negative. -/
theorem C113_relative {u : ℝ} (h0 : 0 ≤ u) (h1 : u < 1) {grid : Grid} (hg : grid.Positive) (s : Bool)
    (y : List ℝ) (hy : y.length = grid.len) (hp : ∀ a ∈ y, 0 ≤ a) (v : ℝ)
    (hv : RIntegrate u 0 grid s (y.getD · 0) v) :
    ∃ I, integrateOn grid s (fins y) = .ok (XR.fin I) ∧ 0 ≤ I ∧ 0 ≤ v ∧
      I * (1 - u) ^ (y.length + 7) ≤ v ∧ v * (1 - u) ^ (y.length + 7) ≤ I := by
  obtain ⟨W, hW, hq⟩ := hv.quad hg
  have hfin := hq.fin (vec y)
  rw [← hy, tab, ← eq_range_map y _ rfl] at hfin
  have hz : ∀ i < grid.len, 0 ≤ vec y i := fun i _ => getD_nonneg hp i
  have r := RIntegrate.rel h0 h1 hg rfl hq hv (z := vec y) (j := 0) (fun i _ => Rel.refl h0 h1 _) hz
  rw [← hy] at r
  have hI : 0 ≤ ∑ i ∈ range y.length, W i * vec y i :=
    sum_nonneg fun i _ => mul_nonneg (hW i) (getD_nonneg hp i)
  have hb := r.bounds h0 h1 hI
  exact ⟨_, hfin, hI, r.nonneg h0 h1 hI, hb.1, hb.2⟩

/-- **C113** (the usual form of the bound). -/
theorem C113_linear {u : ℝ} (h0 : 0 ≤ u) (k : ℕ) (h : k * u < 1) (hu : u < 1) {a b : ℝ} (hb : 0 ≤ b)
    (h1 : b * (1 - u) ^ k ≤ a) (h2 : a * (1 - u) ^ k ≤ b) : |a - b| ≤ k * u / (1 - k * u) * b := by
  have := (Rel.of_bounds h0 hu hb h1 h2).abs_sub h0 hu
  rw [abs_of_nonneg hb] at this
  exact this.trans (mul_le_mul_of_nonneg_right (gamma_le h0 h hu.le) hb)

/-- **C113** (exact arithmetic).  The exact value is admissible for every accuracy, and it is the only one for
`u = 0`. -/
theorem C113_exact {u : ℝ} (h0 : 0 ≤ u) {grid : Grid} (hg : grid.Finite) (s : Bool)
    (hs : s = true → ∃ g, grid = .radial g) (y : List ℝ) (hy : y.length = grid.len) :
    ∃ I, integrateOn grid s (fins y) = .ok (XR.fin I) ∧ RIntegrate u 0 grid s (y.getD · 0) I ∧
      ∀ v, RIntegrate 0 0 grid s (y.getD · 0) v → v = I := by
  have := RIntegrate.exact (τ := 0) h0 hg s hs (vec y)
  rw [← hy, tab, ← eq_range_map y _ rfl] at this
  exact this

example : RIntegrate (1 / 8) 0 (.radial ⟨fins [0, 1, 3]⟩) false ([1, 2, 4].getD · 0) 7 ∧
    (RadialGrid.mk (fins [0, 1, 3])).integrate (ND.vec (fins [1, 2, 4])) = .ok (XR.fin (15 / 2)) := by
  constructor
  · refine ⟨[0, 1, 3], rfl, ?_⟩
    simp only [Bool.false_eq_true, if_false]
    refine ⟨fun i => if i = 0 then 3 / 2 else 6, fun i hi => ?_, ?_⟩
    · simp only [List.length_cons, List.length_nil] at hi
      have : i = 0 ∨ i = 1 := by omega
      rcases this with rfl | rfl
      · exact ⟨1, 3, 3, by norm_num [Fl], by norm_num [Fl], .inl (by norm_num [Fl]), .inl (by norm_num [Fl])⟩
      · exact ⟨2, 6, 12, by norm_num [Fl], by norm_num [Fl], .inl (by norm_num [Fl]), .inl (by norm_num [Fl])⟩
    · refine RSum.add (RSum.one (3 / 2)) (RSum.one 6) (by simp) (by simp) ?_ ?_
      · simp [List.range_succ]
      · norm_num [Fl, abs_le]
  · rw [integrate_fins [0, 1, 3] [1, 2, 4] rfl]; norm_num [trapezoid]

example (v : ℝ) (hv : RIntegrate (1 / 8) 0 (.radial ⟨fins [0, 1, 3]⟩) false ([1, 2, 4].getD · 0) v) :
    15 / 2 * (7 / 8) ^ 10 ≤ v ∧ v * (7 / 8) ^ 10 ≤ 15 / 2 := by
  obtain ⟨I, h1, -, -, h2, h3⟩ := C113_relative (u := 1 / 8) (by norm_num) (by norm_num)
    (grid := .radial ⟨fins [0, 1, 3]⟩) ⟨[0, 1, 3], rfl, by norm_num⟩ false [1, 2, 4] rfl (by norm_num) v hv
  have h4 : integrateOn (.radial ⟨fins [0, 1, 3]⟩) false (fins [1, 2, 4]) = .ok (XR.fin (15 / 2)) := by
    show (RadialGrid.mk (fins [0, 1, 3])).integrate (ND.vec (fins [1, 2, 4])) = _
    rw [integrate_fins [0, 1, 3] [1, 2, 4] rfl]; norm_num [trapezoid]
  rw [h4] at h1
  injection h1 with h1
  injection h1 with h1
  subst h1
  norm_num at h2 h3 ⊢
  exact ⟨h2, h3⟩

/-! ### C114: number of electrons -/

/-- **C114**.  However the operations of an update are rounded, and whatever the computed values of the basis
functions, the new coefficients are not negative and their sum is `integral_dens` up to `2 N + n + 21` roundings
(`N` grid points, `n` basis functions). -/
theorem C114_conservation {u : ℝ} (h0 : 0 ≤ u) (h1 : u < 1) {grid : Grid} (hg : grid.Positive) {s : Bool}
    {N nb : ℕ} (hN : N = grid.len) {f : ℕ → ℝ} (hf : ∀ i < N, 0 ≤ f i) {μ T lm : ℝ} (hT : 0 < T)
    (hlm : RMultiplier u 0 grid s f T lm) (hne : lm ≠ 0) {φ rad : ℕ → ℕ → ℝ} {pref c c' e' : ℕ → ℝ}
    (hφ : ∀ i < N, ∀ k < nb, 0 ≤ φ i k) (hc : ∀ k < nb, 0 ≤ c k)
    (U : RUpdate u 0 grid s N nb f μ lm φ rad pref c c' e') (hu : ∀ i < N, μ < U.m i ∧ U.z i < U.m i) :
    (∀ k < nb, 0 ≤ c' k) ∧ T * (1 - u) ^ (2 * N + nb + 21) ≤ ∑ k ∈ range nb, c' k ∧
      (∑ k ∈ range nb, c' k) * (1 - u) ^ (2 * N + nb + 21) ≤ T := by
  obtain ⟨v, hv, hlm⟩ := hlm
  obtain ⟨W, hW, hq⟩ := hv.quad hg
  rw [← hN] at hq
  have rv := RIntegrate.rel h0 h1 hg hN hq hv (z := f) (j := 0) (fun i _ => Rel.refl h0 h1 _) hf
  have rlm : Rel u (N + 8) lm ((∑ i ∈ range N, W i * f i) / T) :=
    ((Rel.of_fu h0 h1 hlm).trans h0 h1 (rv.div h0 h1 (Rel.refl h0 h1 T))).mono h0 h1 (by omega)
  set I := ∑ i ∈ range N, W i * f i with hI
  have hI0 : 0 ≤ I := sum_nonneg fun i hi => mul_nonneg (hW i) (hf i (mem_range.mp hi))
  have hIp : 0 < I := by
    rcases hI0.eq_or_lt with h | h
    · obtain ⟨t, -, -, ht⟩ := rlm
      exact absurd (by rw [ht, ← h]; simp) hne
    · exact h
  set d : ℕ → ℝ := fun i => ∑ k ∈ range nb, c k * φ i k with hd
  have rm : ∀ i < N, Rel u nb (U.m i) (d i) := fun i hi =>
    (U.h_m i hi).rel h0 h1 (j := 0) (fun k _ => Rel.refl h0 h1 _) (hφ i hi) hc
  have hdp : ∀ i < N, 0 < d i := fun i hi =>
    ((rm i hi).symm h0 h1).pos h0 h1 (((U.h_z i hi).nonneg h0 h1
      (mul_nonneg (hf i hi) tiny_pos.le)).trans_lt (hu i hi).2)
  have rq : ∀ k < nb, ∀ i < N, Rel u (nb + 3) (U.integrand k i) (f i / d i * φ i k) := by
    intro k hk i hi
    have r1 := U.h_ratio i hi
    rw [if_pos (hu i hi)] at r1
    have r2 := (Rel.of_fu h0 h1 r1).trans h0 h1 ((Rel.refl h0 h1 (f i)).div h0 h1 (rm i hi))
    have r3 := (Rel.of_fu h0 h1 (U.h_integrand k hk i hi)).trans h0 h1
      (r2.mul h0 h1 (Rel.of_fu h0 h1 (U.h_dm i hi k hk)))
    exact r3.mono h0 h1 (by omega)
  have hz : ∀ k < nb, ∀ i < N, 0 ≤ f i / d i * φ i k := fun k hk i hi =>
    mul_nonneg (div_nonneg (hf i hi) (hdp i hi).le) (hφ i hi k hk)
  set A : ℕ → ℝ := fun k => ∑ i ∈ range N, W i * (f i / d i * φ i k) with hA
  have hA0 : ∀ k < nb, 0 ≤ A k := fun k hk =>
    sum_nonneg fun i hi => mul_nonneg (hW i) (hz k hk i (mem_range.mp hi))
  have rc : ∀ k < nb, Rel u (2 * N + nb + 21) (c' k) (c k * A k / (I / T)) := by
    intro k hk
    obtain ⟨w, hw, hwa⟩ := U.h_avrg1 k hk
    have r1 := RIntegrate.rel h0 h1 hg hN hq hw (rq k hk) (hz k hk)
    have r2 := (Rel.of_fu h0 h1 hwa).trans h0 h1 r1
    have r3 := (Rel.of_fu h0 h1 (U.h_a k hk)).trans h0 h1 ((Rel.refl h0 h1 (c k)).mul h0 h1 r2)
    have r4 := (Rel.of_fu h0 h1 (U.h_c k hk)).trans h0 h1 (r3.div h0 h1 rlm)
    exact r4.mono h0 h1 (by omega)
  have hb0 : ∀ k < nb, 0 ≤ c k * A k / (I / T) := fun k hk =>
    div_nonneg (mul_nonneg (hc k hk) (hA0 k hk)) (div_nonneg hI0 hT.le)
  have hsum : ∑ k ∈ range nb, c k * A k / (I / T) = T := by
    rw [← sum_div]
    have : ∑ k ∈ range nb, c k * A k = I := by
      simp only [hA, mul_sum]
      rw [sum_comm, hI]
      refine sum_congr rfl fun i hi => ?_
      have hd0 := (hdp i (mem_range.mp hi)).ne'
      calc ∑ k ∈ range nb, c k * (W i * (f i / d i * φ i k))
          = W i * (f i / d i) * ∑ k ∈ range nb, c k * φ i k := by
            rw [mul_sum]; exact sum_congr rfl fun k _ => by ring
        _ = W i * (f i / d i) * d i := rfl
        _ = W i * f i := by field_simp
    rw [this]
    field_simp
  have r := Rel.sum h0 h1 rc hb0
  rw [hsum] at r
  exact ⟨fun k hk => (rc k hk).nonneg h0 h1 (hb0 k hk), r.bounds h0 h1 hT.le⟩

/-- **C114** (any number of iterations).  The errors do not accumulate: after every update of a sequence, with any
exponents and hence any values of the basis functions in between, the bound of a single update holds. -/
theorem C114_iterations {u : ℝ} (h0 : 0 ≤ u) (h1 : u < 1) {grid : Grid} (hg : grid.Positive) {s : Bool}
    {N nb : ℕ} (hN : N = grid.len) {f : ℕ → ℝ} (hf : ∀ i < N, 0 ≤ f i) {μ T lm : ℝ} (hT : 0 < T)
    (hlm : RMultiplier u 0 grid s f T lm) (hne : lm ≠ 0) {φ : ℕ → ℕ → ℕ → ℝ} {rad : ℕ → ℕ → ℝ}
    {pref : ℕ → ℝ} {c e : ℕ → ℕ → ℝ} (hφ : ∀ n, ∀ i < N, ∀ k < nb, 0 ≤ φ n i k)
    (hc : ∀ k < nb, 0 ≤ c 0 k)
    (U : ∀ n, RUpdate u 0 grid s N nb f μ lm (φ n) rad pref (c n) (c (n + 1)) (e (n + 1)))
    (hu : ∀ n, ∀ i < N, μ < (U n).m i ∧ (U n).z i < (U n).m i) (n : ℕ) :
    (∀ k < nb, 0 ≤ c n k) ∧ (0 < n → T * (1 - u) ^ (2 * N + nb + 21) ≤ ∑ k ∈ range nb, c n k ∧
      (∑ k ∈ range nb, c n k) * (1 - u) ^ (2 * N + nb + 21) ≤ T) := by
  induction n with
  | zero => exact ⟨hc, fun h => absurd h (lt_irrefl 0)⟩
  | succ n ih =>
    have := C114_conservation h0 h1 hg hN hf hT hlm hne (hφ n) ih.1 (U n) (hu n)
    exact ⟨this.1, fun _ => this.2⟩

/-- Executions exist: exact arithmetic is one of them. -/
theorem rupdate_exists {u τ : ℝ} (h0 : 0 ≤ u) {grid : Grid} (hg : grid.Finite) {s : Bool}
    (hs : s = true → ∃ g, grid = .radial g) (N nb : ℕ) (f : ℕ → ℝ) (μ lm : ℝ) (φ rad : ℕ → ℕ → ℝ)
    (pref c : ℕ → ℝ) :
    ∃ c' e', ∃ U : RUpdate u τ grid s N nb f μ lm φ rad pref c c' e',
      ∀ i, U.m i = ∑ k ∈ range nb, c k * φ i k ∧ U.z i = f i * tiny := by
  choose I hI using fun y => RIntegrate.exact (τ := τ) h0 hg s hs y
  refine ⟨_, _, ⟨fun i => ∑ k ∈ range nb, c k * φ i k, φ, fun i => f i * tiny,
    fun i => if μ < ∑ k ∈ range nb, c k * φ i k ∧ f i * tiny < ∑ k ∈ range nb, c k * φ i k then
      f i / ∑ k ∈ range nb, c k * φ i k else 1,
    _, fun k i => rad k i ^ 2, _, _, _, _, _, fun i _ => ⟨fun k => φ i k * c k, fun k _ => Fu.refl h0 _, ?_⟩,
    fun i _ k _ => Fu.refl h0 _, fun i _ => Fu.refl h0 _, fun i _ => ?_, fun k _ i _ => Fu.refl h0 _,
    fun k _ => ⟨_, (hI _).2.1, Fu.refl h0 _⟩, fun k _ i _ => Fu.refl h0 _, fun k _ i _ => Fu.refl h0 _,
    fun k _ => ⟨_, (hI _).2.1, Fu.refl h0 _⟩, fun k _ => Fu.refl h0 _, fun k _ => Fu.refl h0 _,
    fun k _ => Fu.refl h0 _, fun k _ => Fu.refl h0 _⟩, fun i => ⟨rfl, rfl⟩⟩
  · have := RSum.exact h0 ((List.range nb).map fun k => φ i k * c k)
    rw [sum_tab_range] at this
    simpa only [mul_comm (c _)] using this
  · split
    · exact Fu.refl h0 _
    · rfl

example : ∃ (c' e' : ℕ → ℝ) (U : RUpdate (1 / 100) 0 (.radial ⟨fins [0, 1]⟩) false 2 1 (fun _ => 1) 0 1
    (fun _ _ => 1) (fun _ _ => 1) (fun _ => 3 / 2) (fun _ => 1) c' e'),
    (∀ i < 2, 0 < U.m i ∧ U.z i < U.m i) ∧ RMultiplier (1 / 100) 0 (.radial ⟨fins [0, 1]⟩) false (fun _ => 1) 1 1 := by
  have hfin : Grid.Finite (.radial ⟨fins [0, 1]⟩) := ⟨[0, 1], rfl⟩
  obtain ⟨c', e', U, hU⟩ := rupdate_exists (u := 1 / 100) (by norm_num) hfin (s := false) (by simp) 2 1
    (fun _ => 1) 0 1 (fun _ _ => 1) (fun _ _ => 1) (fun _ => 3 / 2) (fun _ => 1)
  refine ⟨c', e', U, fun i _ => ?_, ?_⟩
  · rw [(hU i).1, (hU i).2]
    simp only [sum_range_one, mul_one, one_mul]
    exact ⟨one_pos, tiny_lt_one⟩
  · obtain ⟨I, h1, h2, -⟩ := RIntegrate.exact (u := 1 / 100) (by norm_num) hfin false (by simp) fun _ => 1
    have h3 := quad_radial_value [0, 1] fun _ => 1
    simp only [Grid.len, fins, List.length_map] at h1
    rw [h3] at h1
    injection h1 with h1
    injection h1 with h1
    norm_num at h1
    subst h1
    exact ⟨1, h2, .inl (by norm_num [Fl])⟩

/-! ### C115: accuracy of one evaluation and one update -/

/-- **C115** (evaluation).  With non-negative coefficients and exponents the density computed at a point, where the
exponents times the squared distances are at most `J / 3`, has a relative error of `J + n + 10` roundings. -/
theorem C115_evaluate {u : ℝ} (h0 : 0 ≤ u) (hu : u ≤ 1 / 10) {m : GModel} {norm : Bool} {S : Shape} {N : ℕ}
    (hm : IsModel m norm S N) (c e : List ℝ) (hc : c.length = S.nb) (he : e.length = S.nb)
    (hcn : ∀ a ∈ c, 0 ≤ a) (hen : ∀ a ∈ e, 0 ≤ a) {J : ℕ}
    (hJ : ∀ k < S.nb, ∀ i < N, 3 * (vec e k * S.rad k i ^ 2) ≤ J) :
    ∃ g : List ℝ, m.evaluate (fins c) (fins e) false = .ok (fins g, none) ∧ g.length = N ∧
      ∀ i < N, 0 ≤ vec g i ∧ ∀ (φ : ℕ → ℝ) (v : ℝ),
        (∀ k < S.nb, RBasis u 0 (S.isS k) norm (vec e k) (S.rad k i) (φ k)) → RDens u 0 S.nb φ (vec c) v →
        vec g i * (1 - u) ^ (J + S.nb + 10) ≤ v ∧ v * (1 - u) ^ (J + S.nb + 10) ≤ vec g i := by
  have h1 : u < 1 := by linarith
  refine ⟨_, hm.eval c e false hc he fun _ => hen, by simp, fun i hi => ?_⟩
  have hev := vec_of_mem he hen
  have hcv := vec_of_mem hc hcn
  have hb : ∀ k < S.nb, 0 ≤ bf (S.isS k) norm (vec e k) (S.rad k i) := by
    intro k hk
    cases norm
    · exact bf_nonneg_unnorm _ _ _
    · exact bf_nonneg _ _ (hev k hk)
  have hv : vec ((List.range N).map (S.dens norm (vec c) (vec e))) i = S.dens norm (vec c) (vec e) i :=
    vec_tab hi
  rw [hv]
  have hd : 0 ≤ S.dens norm (vec c) (vec e) i :=
    sum_nonneg fun k hk => mul_nonneg (hcv k (mem_range.mp hk)) (hb k (mem_range.mp hk))
  refine ⟨hd, fun φ v hφ hv => ?_⟩
  have r := hv.rel h0 h1 (j := J + 10) (fun k hk => (hφ k hk).rel h0 h1 hu (hev k hk) (hJ k hk i hi)) hb hcv
  exact (r.mono h0 h1 (by omega)).bounds h0 h1 hd

/-- **C115** (update).  Every coefficient and exponent computed by one update has a small relative error: compared
with the exact update, `2 N + n + 2 J + 41` roundings for the coefficients and `2 N + 2 n + 4 J + 66` for the
exponents, when no point is masked in either of the computations. -/
theorem C115_update {u : ℝ} (h0 : 0 ≤ u) (hu : u ≤ 1 / 10) {F : FPI} {S : Shape} {N : ℕ} {W f : ℕ → ℝ} {μ T : ℝ}
    (h : IsFPI F true S N W f μ T) (hg : F.grid.Positive) (hN : N = F.grid.len) (hW : ∀ i < N, 0 ≤ W i)
    (hT : 0 < T) (hs : S.Sees N W f) (c e : List ℝ) (hc : c.length = S.nb) (he : e.length = S.nb)
    (hcn : ∀ a ∈ c, 0 ≤ a) (hep : ∀ a ∈ e, 0 < a) (hun : S.AllUnmasked true N μ f c e) {J : ℕ}
    (hJ : ∀ k < S.nb, ∀ i < N, 3 * (vec e k * S.rad k i ^ 2) ≤ J) :
    ∃ c₁ e₁ : List ℝ, F.updateParams (fins c) (fins e) true true = .ok (fins c₁, fins e₁) ∧
      ∀ (lm : ℝ) (φ : ℕ → ℕ → ℝ) (c' e' : ℕ → ℝ), RMultiplier u 0 F.grid F.spherical f T lm →
        (∀ i < N, ∀ k < S.nb, RBasis u 0 (S.isS k) true (vec e k) (S.rad k i) (φ i k)) →
        ∀ U : RUpdate u 0 F.grid F.spherical N S.nb f μ lm φ S.rad
            (fun k => if S.isS k then 3 / 2 else 5 / 2) (vec c) c' e',
          (∀ i < N, μ < U.m i ∧ U.z i < U.m i) → ∀ k < S.nb,
            (vec c₁ k * (1 - u) ^ (2 * N + S.nb + 2 * J + 41) ≤ c' k ∧
              c' k * (1 - u) ^ (2 * N + S.nb + 2 * J + 41) ≤ vec c₁ k) ∧
            vec e₁ k * (1 - u) ^ (2 * N + 2 * S.nb + 4 * J + 66) ≤ e' k ∧
              e' k * (1 - u) ^ (2 * N + 2 * S.nb + 4 * J + 66) ≤ vec e₁ k := by
  have h1 : u < 1 := by linarith
  have hcv := vec_of_mem hc hcn
  have hev := vec_of_mem he hep
  have hdp : ∀ i < N, 0 < S.dens true (vec c) (vec e) i := fun i hi =>
    unmasked_pos (h.f_nonneg i hi) (hun i hi)
  have hA : ∀ k < S.nb, 0 < fpiA S true N W (S.ratio true μ f (vec c) (vec e)) (vec e) k ∧
      0 < fpiA2 S true N W (S.ratio true μ f (vec c) (vec e)) (vec e) k := fun k hk =>
    fpiA_pos hs hW (fun i hi => ratio_nonneg (h.f_nonneg i hi)) (fun i _ => ratio_pos) hk (hev k hk)
  refine ⟨_, _, updateParams_fins h.data h.mask h.lm h.lm_ne h.f_nonneg c e hc he
    (fun _ a ha => (hep a ha).le) (fun i hi => (hdp i hi).le) true true (Or.inl rfl)
    (fun _ k hk => (hA k hk).2.ne'), ?_⟩
  rintro lm φ c' e' ⟨v, hv, hlm⟩ hφ U hum k hk
  rw [vec_tab hk, vec_tab hk]
  simp only [if_true]
  rw [(fpiA_congr (ratio_unmasked hun)).1, (fpiA_congr (ratio_unmasked hun)).2] at *
  set d := S.dens true (vec c) (vec e) with hd
  have hq := h.data.quad
  have rv := RIntegrate.rel h0 h1 hg hN hq hv (z := f) (j := 0) (fun i _ => Rel.refl h0 h1 _) h.f_nonneg
  have rlm : Rel u (N + 8) lm ((∑ i ∈ range N, W i * f i) / T) :=
    ((Rel.of_fu h0 h1 hlm).trans h0 h1 (rv.div h0 h1 (Rel.refl h0 h1 T))).mono h0 h1 (by omega)
  have hb : ∀ i < N, ∀ k < S.nb, 0 ≤ bf (S.isS k) true (vec e k) (S.rad k i) := fun i _ k hk =>
    bf_nonneg _ _ (hev k hk).le
  have rφ : ∀ i < N, ∀ k < S.nb, Rel u (J + 10) (φ i k) (bf (S.isS k) true (vec e k) (S.rad k i)) :=
    fun i hi k hk => (hφ i hi k hk).rel h0 h1 hu (hev k hk).le (hJ k hk i hi)
  have rm : ∀ i < N, Rel u (S.nb + (J + 10)) (U.m i) (d i) := fun i hi =>
    (U.h_m i hi).rel h0 h1 (rφ i hi) (hb i hi) hcv
  have rq : ∀ i < N, Rel u (S.nb + 2 * J + 23) (U.integrand k i)
      (f i / d i * bf (S.isS k) true (vec e k) (S.rad k i)) := by
    intro i hi
    have r1 := U.h_ratio i hi
    rw [if_pos (hum i hi)] at r1
    have r2 := (Rel.of_fu h0 h1 r1).trans h0 h1 ((Rel.refl h0 h1 (f i)).div h0 h1 (rm i hi))
    have r3 := (Rel.of_fu h0 h1 (U.h_integrand k hk i hi)).trans h0 h1
      (r2.mul h0 h1 ((Rel.of_fu h0 h1 (U.h_dm i hi k hk)).trans h0 h1 (rφ i hi k hk)))
    exact r3.mono h0 h1 (by omega)
  have rq2 : ∀ i < N, Rel u (S.nb + 2 * J + 25) (U.integrand2 k i)
      (f i / d i * bf (S.isS k) true (vec e k) (S.rad k i) * S.rad k i ^ 2) := by
    intro i hi
    have r := (Rel.of_fu h0 h1 (U.h_integrand2 k hk i hi)).trans h0 h1
      ((rq i hi).mul h0 h1 (Rel.of_fu h0 h1 (U.h_rad2 k hk i hi)))
    exact r.mono h0 h1 (by omega)
  have hz : ∀ i < N, 0 ≤ f i / d i * bf (S.isS k) true (vec e k) (S.rad k i) := fun i hi =>
    mul_nonneg (div_nonneg (h.f_nonneg i hi) (hdp i hi).le) (hb i hi k hk)
  obtain ⟨w, hw, hwa⟩ := U.h_avrg1 k hk
  obtain ⟨w2, hw2, hwa2⟩ := U.h_avrg2 k hk
  have r1 := (Rel.of_fu h0 h1 hwa).trans h0 h1 (RIntegrate.rel h0 h1 hg hN hq hw rq hz)
  have r2 := (Rel.of_fu h0 h1 hwa2).trans h0 h1 (RIntegrate.rel h0 h1 hg hN hq hw2 rq2
    fun i hi => mul_nonneg (hz i hi) (sq_nonneg _))
  have hA' := hA k hk
  have hL : 0 < (∑ i ∈ range N, W i * f i) / T :=
    lt_of_le_of_ne (div_nonneg (Finset.sum_nonneg fun i hi =>
      mul_nonneg (hW i (mem_range.mp hi)) (h.f_nonneg i (mem_range.mp hi))) hT.le) h.lm_ne.symm
  constructor
  · have r3 := (Rel.of_fu h0 h1 (U.h_a k hk)).trans h0 h1 ((Rel.refl h0 h1 (vec c k)).mul h0 h1 r1)
    have r4 := (Rel.of_fu h0 h1 (U.h_c k hk)).trans h0 h1 (r3.div h0 h1 rlm)
    exact (r4.mono h0 h1 (by omega)).bounds h0 h1
      (div_nonneg (mul_nonneg (hcv k hk) hA'.1.le) hL.le)
  · have r3 := (Rel.of_fu h0 h1 (U.h_b k hk)).trans h0 h1 ((Rel.refl h0 h1 _).mul h0 h1 r1)
    have r4 := (Rel.of_fu h0 h1 (U.h_e k hk)).trans h0 h1 (r3.div h0 h1 r2)
    exact (r4.mono h0 h1 (by omega)).bounds h0 h1
      (div_nonneg (mul_nonneg (S.pref_pos k).le hA'.1.le) hA'.2.le)

theorem FPI.init_grid {g : Grid} {d : List XR} {m : GModel} {mask : XR} {T : Option XR} {s : Bool} {F : FPI}
    (h : FPI.init g d m mask T s = .ok F) : F.grid = g ∧ F.spherical = s := by
  unfold FPI.init at h
  split at h
  · cases h
  · rename_i G hG
    have hg : G.grid = g ∧ G.spherical = s := by
      unfold Fit.init raise at hG
      split_ifs at hG
      split at hG
      · injection hG with hG
        subst hG
        exact ⟨rfl, rfl⟩
      · split at hG
        · cases hG
        · injection hG with hG
          subst hG
          exact ⟨rfl, rfl⟩
    split at h
    · cases h
    · unfold raise at h
      simp only at h
      split_ifs at h
      injection h with h
      subst h
      exact hg

/-- C115 applies to the object of C35: `e r² ≤ 4` on the grid `0, 1, 2`, so `J = 12`.  In double precision the
exponent is computed to thirteen digits at least. -/
example (T : ℝ) (hT : 0 < T) : ∃ F c₁ e₁,
    FPI.init (.radial ⟨fins [0, 1, 2]⟩) (fins (tab 3 demoF)) (.atom (demoS true)) (XR.fin 0)
      (some (XR.fin T)) false = .ok F ∧
    F.updateParams (fins [1]) (fins [1]) true true = .ok (fins c₁, fins e₁) ∧
    ∀ (lm : ℝ) (φ : ℕ → ℕ → ℝ) (c' e' : ℕ → ℝ),
      RMultiplier (2 ^ (-53 : ℤ)) 0 F.grid F.spherical demoF T lm →
      (∀ i < 3, ∀ k < 1, RBasis (2 ^ (-53 : ℤ)) 0 (decide (k < 1)) true (vec [1] k) (vec [0, 1, 2] i) (φ i k)) →
      ∀ U : RUpdate (2 ^ (-53 : ℤ)) 0 F.grid F.spherical 3 1 demoF 0 lm φ (fun _ i => vec [0, 1, 2] i)
        (fun k => if decide (k < 1) then 3 / 2 else 5 / 2) (vec [1]) c' e',
        (∀ i < 3, 0 < U.m i ∧ U.z i < U.m i) → |e' 0 - vec e₁ 0| ≤ 1 / 10 ^ 13 * vec e₁ 0 := by
  obtain ⟨F, h1, h2⟩ := demo_isFPI T hT
  obtain ⟨hgr, -⟩ := FPI.init_grid h1
  obtain ⟨c₂, e₂, h5, -, -, -, h6, -⟩ := C36_positive h2 demo_W hT demo_sees [1] [1] rfl rfl (by simp) (by simp)
    true true (by simp)
  obtain ⟨c₁, e₁, h3, h4⟩ := C115_update (u := 2 ^ (-53 : ℤ)) (by positivity) (by norm_num) h2
    (by rw [hgr]; exact ⟨[0, 1, 2], rfl, by norm_num⟩) (by rw [hgr]; rfl) demo_W hT demo_sees [1] [1] rfl rfl
    (by simp) (by simp) demo_unmasked (J := 12) (by
      intro k hk i hi
      have hk : k < 1 := hk
      interval_cases k
      interval_cases i <;> norm_num [atomShape, vec])
  refine ⟨F, c₁, e₁, h1, h3, fun lm φ c' e' hlm hφ U hU => ?_⟩
  obtain ⟨-, h7, h8⟩ := h4 lm φ c' e' hlm hφ U hU 0 Nat.one_pos
  rw [h5] at h3
  injection h3 with h3
  injection h3 with _ h3
  have h3 := fins_injective h3
  subst h3
  have h9 : 0 ≤ vec e₂ 0 := getD_nonneg (fun a ha => (h6 a ha).le) 0
  refine (C113_linear (by positivity) _ ?_ (by norm_num) h9 h7 h8).trans
    (mul_le_mul_of_nonneg_right ?_ h9)
  · norm_num [atomShape]
  · norm_num [atomShape]

end
end BFit
