import Verif.Model.RoundMeas
import Verif.Props.Round
import Verif.Props.Norms

/-!
C125: accuracy of the five numbers of `goodness_of_fit` when every operation is rounded.
-/

namespace BFit

open Real Classical Finset

noncomputable section

section
variable {u : ℝ} (h0 : 0 ≤ u) (h1 : u < 1)
include h0 h1

theorem Rel.abs {k : ℕ} {a b : ℝ} (h : Rel u k a b) : Rel u k |a| |b| := by
  obtain ⟨t, ht, ht', rfl⟩ := h
  have ht0 : 0 ≤ t := (pow_nonneg (by linarith) k).trans ht
  exact ⟨t, ht, ht', by rw [abs_mul, abs_of_nonneg ht0]⟩

theorem Rel.le_abs {k : ℕ} {a b : ℝ} (h : Rel u k a b) : |a| ≤ 1 / (1 - u) ^ k * |b| := by
  have hp : 0 < (1 - u) ^ k := pow_pos (by linarith) k
  have := ((h.abs h0 h1).bounds h0 h1 (abs_nonneg b)).2
  rw [one_div, ← div_eq_inv_mul, le_div_iff₀ hp]
  exact this

/-- The logarithm turns relative errors into absolute ones. -/
theorem Rel.log_sub {k : ℕ} {a b : ℝ} (h : Rel u k a b) (hb : 0 < b) :
    |Real.log a - Real.log b| ≤ k * -Real.log (1 - u) := by
  obtain ⟨t, ht, ht', rfl⟩ := h
  have hk : 0 < (1 - u) ^ k := pow_pos (by linarith) k
  have ht0 : 0 < t := hk.trans_le ht
  rw [log_mul hb.ne' ht0.ne']
  have e1 := log_le_log hk ht
  have e2 := log_le_log (mul_pos ht0 hk) ht'
  rw [log_pow] at e1
  rw [log_one, log_mul ht0.ne' hk.ne', log_pow] at e2
  rw [abs_le]
  constructor <;> linarith

/-- One trapezoid of computed values of any sign. -/
theorem trapezoid_abs {k j : ℕ} {b δ y y' q q' : ℝ} (hδ : 0 ≤ δ) (hb : Rel u k b (δ * (y + y') / 2))
    (hy : Rel u j y q) (hy' : Rel u j y' q') :
    |b - δ * (q + q') / 2| ≤ (1 / (1 - u) ^ (k + j) - 1) * (δ * (|q| + |q'|) / 2) := by
  have hk : 0 < (1 - u) ^ k := pow_pos (by linarith) k
  have hj : 0 < (1 - u) ^ j := pow_pos (by linarith) j
  have e1 := hb.abs_sub h0 h1
  have e2 := hy.abs_sub h0 h1
  have e3 := hy'.abs_sub h0 h1
  have e4 := hy.le_abs h0 h1
  have e5 := hy'.le_abs h0 h1
  have hg : 0 ≤ 1 / (1 - u) ^ k - 1 := by
    rw [sub_nonneg, le_div_iff₀ hk, one_mul]
    exact pow_le_one₀ (by linarith) (by linarith)
  have e6 : |δ * (y + y') / 2| ≤ δ * (1 / (1 - u) ^ j * (|q| + |q'|)) / 2 := by
    rw [abs_div, abs_mul, abs_of_nonneg hδ, abs_two]
    have := abs_add_le y y'
    gcongr
    linarith
  have e7 : |δ * (y + y') / 2 - δ * (q + q') / 2| ≤ δ * ((1 / (1 - u) ^ j - 1) * (|q| + |q'|)) / 2 := by
    rw [show δ * (y + y') / 2 - δ * (q + q') / 2 = δ * ((y - q) + (y' - q')) / 2 by ring, abs_div, abs_mul,
      abs_of_nonneg hδ, abs_two]
    have := abs_add_le (y - q) (y' - q')
    gcongr
    linarith
  have e8 : |b - δ * (q + q') / 2| ≤ |b - δ * (y + y') / 2| + |δ * (y + y') / 2 - δ * (q + q') / 2| :=
    abs_sub_le _ _ _
  have e9 := mul_le_mul_of_nonneg_left e6 hg
  have e10 : (1 / (1 - u) ^ k - 1) * (δ * (1 / (1 - u) ^ j * (|q| + |q'|)) / 2) +
      δ * ((1 / (1 - u) ^ j - 1) * (|q| + |q'|)) / 2 =
      (1 / (1 - u) ^ (k + j) - 1) * (δ * (|q| + |q'|) / 2) := by
    rw [pow_add]
    field_simp
    ring
  linarith

theorem RTrapz.abs_sub {x : List ℝ} (hx : x.Pairwise (· ≤ ·)) {y q : ℕ → ℝ} {v : ℝ} {j : ℕ}
    (h : RTrapz u 0 x.length (x.getD · 0) y v) (hy : ∀ i < x.length, Rel u j (y i) (q i)) :
    |v - ∑ i ∈ range (x.length - 1), (x.getD (i + 1) 0 - x.getD i 0) * (q (i + 1) + q i) / 2| ≤
      (1 / (1 - u) ^ (x.length + 2 + j) - 1) *
        ∑ i ∈ range (x.length - 1), (x.getD (i + 1) 0 - x.getD i 0) * (|q (i + 1)| + |q i|) / 2 := by
  obtain ⟨b, hb, rfl⟩ := h.rel h0 h1
  rw [← sum_sub_distrib, mul_sum]
  refine (abs_sum_le_sum_abs _ _).trans (sum_le_sum fun i hi => ?_)
  have hi := mem_range.mp hi
  exact trapezoid_abs h0 h1 (step_nonneg hx (by omega)) (hb i hi) (hy _ (by omega)) (hy _ (by omega))

omit h0 h1 in
theorem gamma_mono (h0 : 0 ≤ u) (h1 : u < 1) {k l : ℕ} (h : k ≤ l) :
    1 / (1 - u) ^ k - 1 ≤ 1 / (1 - u) ^ l - 1 :=
  sub_le_sub_right (one_div_le_one_div_of_le (pow_pos (by linarith) l)
    (pow_le_pow_of_le_one (by linarith) (by linarith) h)) 1

/-- An integral of computed values of any sign. -/
theorem RIntegrate.abs_sub {grid : Grid} {s : Bool} {N : ℕ} {W : ℕ → ℝ} (hg : grid.Positive)
    (hN : N = grid.len) (hq : Quad grid s N W) {y z : ℕ → ℝ} {v : ℝ} {j : ℕ}
    (h : RIntegrate u 0 grid s y v) (hy : ∀ i < N, Rel u j (y i) (z i)) :
    |v - ∑ i ∈ range N, W i * z i| ≤ (1 / (1 - u) ^ (N + 7 + j) - 1) * ∑ i ∈ range N, W i * |z i| := by
  cases grid with
  | radial g =>
    obtain ⟨x, hx, hs⟩ := hg
    obtain ⟨x', hx', h⟩ := h
    have : x' = x := fins_injective (hx'.symm.trans hx)
    subst this
    obtain ⟨pts⟩ := g
    simp only at hx
    subst hx
    simp only [Grid.len, fins, List.length_map] at hN
    subst hN
    have hv := hq.fin z
    have hv' := hq.fin fun i => |z i|
    cases s with
    | false =>
      rw [quad_radial_value] at hv hv'
      injection hv with hv
      injection hv with hv
      injection hv' with hv'
      injection hv' with hv'
      rw [← hv, ← hv']
      simp only [Bool.false_eq_true, if_false] at h
      refine (h.abs_sub h0 h1 hs hy).trans (mul_le_mul_of_nonneg_right (gamma_mono h0 h1 (by omega)) ?_)
      refine sum_nonneg fun i hi => ?_
      have := step_nonneg hs (i := i) (by have := mem_range.mp hi; omega)
      positivity
    | true =>
      rw [quad_radial_spherical] at hv hv'
      injection hv with hv
      injection hv with hv
      injection hv' with hv'
      injection hv' with hv'
      rw [← hv, ← hv']
      simp only [if_true] at h
      obtain ⟨t, ht, h⟩ := h
      have h2 := h.abs_sub h0 h1 hs (j := 5 + j) (q := fun i => z i * 4 * π * x'.getD i 0 ^ 2)
        (fun i hi => by
          obtain ⟨a, p, b, q, ha, hp, hb, hq, ht⟩ := ht i hi
          have r1 := (Rel.of_fu h0 h1 ha).trans h0 h1 ((hy i hi).mul h0 h1 (Rel.refl h0 h1 4))
          have r2 := (Rel.of_fu h0 h1 hb).trans h0 h1 (r1.mul h0 h1 (Rel.of_fl h0 h1 hp))
          have r3 := (Rel.of_fu h0 h1 ht).trans h0 h1 (r2.mul h0 h1 (Rel.of_fu h0 h1 hq))
          exact r3.mono h0 h1 (by omega))
      have e : ∀ i, |z i * 4 * π * x'.getD i 0 ^ 2| = |z i| * 4 * π * x'.getD i 0 ^ 2 := by
        intro i
        rw [abs_mul, abs_mul, abs_mul, abs_of_pos pi_pos, abs_of_nonneg (sq_nonneg (x'.getD i 0)),
          abs_of_pos (by norm_num : (0 : ℝ) < 4)]
      simp only [e] at h2
      refine h2.trans (mul_le_mul_of_nonneg_right (gamma_mono h0 h1 (by omega)) ?_)
      refine sum_nonneg fun i hi => ?_
      have := step_nonneg hs (i := i) (by have := mem_range.mp hi; omega)
      have := pi_pos
      positivity
  | cubic g =>
    obtain ⟨w, hw, hs⟩ := hg
    obtain ⟨rfl, w', hw', hl, h⟩ := h
    have : w' = w := fins_injective (hw'.symm.trans hw)
    subst this
    simp only [Grid.len] at hN
    rw [← hl] at hN
    subst hN
    have hv := hq.fin z
    have hv' := hq.fin fun i => |z i|
    rw [quad_cubic_value hw hl] at hv hv'
    injection hv with hv
    injection hv with hv
    injection hv' with hv'
    injection hv' with hv'
    rw [← hv, ← hv']
    obtain ⟨b, hb, rfl⟩ := h.rel h0 h1
    have h2 := abs_sum_sub_le h0 h1 (k := w'.length + j) (a := b) (b := fun i => w'.getD i 0 * z i)
      (n := w'.length) fun i hi => (hb i hi).trans h0 h1 (by
        simpa using (Rel.refl h0 h1 (w'.getD i 0)).mul h0 h1 (hy i hi))
    have e : ∀ i, |w'.getD i 0 * z i| = w'.getD i 0 * |z i| := fun i => by
      rw [abs_mul, abs_of_nonneg (getD_nonneg hs i)]
    simp only [e] at h2
    refine h2.trans (mul_le_mul_of_nonneg_right (gamma_mono h0 h1 (by omega)) ?_)
    exact sum_nonneg fun i _ => mul_nonneg (getD_nonneg hs i) (abs_nonneg _)

end

/-- Squares of perturbed numbers. -/
theorem sq_perturb {a b γ g : ℝ} (hγ : 0 ≤ γ) (h : |a - b| ≤ γ * g) :
    a ^ 2 ≤ (1 + γ) * b ^ 2 + γ * (1 + γ) * g ^ 2 := by
  have h1 : (a - b) ^ 2 ≤ γ ^ 2 * g ^ 2 := by
    rw [← mul_pow, ← sq_abs]
    exact pow_le_pow_left₀ (abs_nonneg _) h 2
  have h2 : |b| * |a - b| ≤ |b| * (γ * g) := mul_le_mul_of_nonneg_left h (abs_nonneg b)
  have h3 : b * (a - b) ≤ |b| * |a - b| := by rw [← abs_mul]; exact le_abs_self _
  have h4 : 2 * (|b| * (γ * g)) ≤ γ * (b ^ 2 + g ^ 2) := by
    have : 0 ≤ (|b| - g) ^ 2 := sq_nonneg _
    rw [← sq_abs b]
    nlinarith
  nlinarith

/-- **C125** (accuracy of `goodness_of_fit`).  Let the density be positive, the coefficients non-negative, the exponents
times the squared distances at most `J / 3`, the model density `g` at most `G`, and let the same points be masked with
and without rounding.  Put `γ = (1 - u)^{-(J + n + 10)} - 1` and `λ = -(J + n + 11) log (1 - u)` (both about
`(J + n) u`).  Then the five computed numbers are, with `N` grid points,

* the integral of the model up to `N + J + n + 17` roundings,
* the `L1` distance up to `γ` times the integral of the model and `N + 8` roundings,
* the `Linf` distance up to `γ G` and one rounding,
* the squared distance up to the factor `1 + γ`, `γ (1 + γ)` times the integral of `g²` and `N + 10` roundings,
* the divergence up to `λ` times the integral `D` of the density and `N + 9` roundings of the integral `A` of the absolute
  value of the integrand plus `λ D`.

The first four are not negative. -/
theorem C125_goodness {u : ℝ} (h0 : 0 ≤ u) (hu : u ≤ 1 / 10) {F : Fit} {norm : Bool} {S : Shape} {N : ℕ} {W f : ℕ → ℝ}
    {μ : ℝ} (h : FitData F norm S N W f) (hN : 0 < N) (hg : F.grid.Positive) (hl : N = F.grid.len)
    (hW : ∀ i < N, 0 ≤ W i) (hμ : F.maskValue = XR.fin μ) (hf : ∀ i < N, 0 < f i) (c e : List ℝ)
    (hc : c.length = S.nb) (he : e.length = S.nb) (hcn : ∀ a ∈ c, 0 ≤ a) (hen : ∀ a ∈ e, 0 ≤ a) {J : ℕ}
    (hJ : ∀ k < S.nb, ∀ i < N, 3 * (vec e k * S.rad k i ^ 2) ≤ J) {γ l : ℝ}
    (hγ : γ = 1 / (1 - u) ^ (J + S.nb + 10) - 1) (hl' : l = -((J + S.nb + 11 : ℕ) * log (1 - u))) :
    ∃ (I L M Q K A D P : ℝ) (g k : List ℝ),
      F.goodness (fins c) (fins e) = .ok ⟨XR.fin I, XR.fin L, XR.fin M, XR.fin Q, XR.fin K⟩ ∧
      F.model.evaluate (fins c) (fins e) false = .ok (fins g, none) ∧
      F.klError.evaluate (.arr (ND.vec F.density)) (.arr (ND.vec (fins g))) (.bool false) = .ok (fins k, none) ∧
      F.integrate (fins (k.map fun a => |a|)) = .ok (XR.fin A) ∧ F.integrate F.density = .ok (XR.fin D) ∧
      F.integrate (fins (g.map fun a => a ^ 2)) = .ok (XR.fin P) ∧
      ∀ (φ : ℕ → ℕ → ℝ) (v₁ v₂ v₃ v₄ v₅ : ℝ),
        (∀ i < N, ∀ k < S.nb, RBasis u 0 (S.isS k) norm (vec e k) (S.rad k i) (φ i k)) →
        ∀ R : RGoodness u 0 F.grid F.spherical N S.nb f μ φ (vec c) v₁ v₂ v₃ v₄ v₅,
          (I * (1 - u) ^ (N + J + S.nb + 17) ≤ v₁ ∧ v₁ * (1 - u) ^ (N + J + S.nb + 17) ≤ I) ∧
          ((L - γ * I) * (1 - u) ^ (N + 8) ≤ v₂ ∧ v₂ * (1 - u) ^ (N + 8) ≤ L + γ * I) ∧
          (∀ G, (∀ a ∈ g, a ≤ G) → (M - γ * G) * (1 - u) ≤ v₃ ∧ v₃ * (1 - u) ≤ M + γ * G) ∧
          (Q * (1 - u) ^ (N + 10) ≤ (1 + γ) * v₄ + γ * (1 + γ) * P ∧
            v₄ * (1 - u) ^ (N + 10) ≤ (1 + γ) * Q + γ * (1 + γ) * P) ∧
          ((∀ i < N, (μ < R.m i ∧ R.z i < R.m i) ↔ Unmasked μ (f i) (vec g i)) →
            |v₅ - K| ≤ (1 / (1 - u) ^ (N + 9) - 1) * (A + l * D) + l * D) ∧
          0 ≤ v₁ ∧ 0 ≤ v₂ ∧ 0 ≤ v₃ ∧ 0 ≤ v₄ := by
  have h1 : u < 1 := by linarith
  have hev := vec_of_mem he hen
  have hcv := vec_of_mem hc hcn
  have hb : ∀ i, ∀ k < S.nb, 0 ≤ bf (S.isS k) norm (vec e k) (S.rad k i) := by
    intro i k hk
    cases norm
    · exact bf_nonneg_unnorm _ _ _
    · exact bf_nonneg _ _ (hev k hk)
  set G := S.dens norm (vec c) (vec e) with hG
  have hd : ∀ i, 0 ≤ G i := fun i =>
    sum_nonneg fun k hk => mul_nonneg (hcv k (mem_range.mp hk)) (hb i k (mem_range.mp hk))
  have hgf := goodness_fins h hN c e hc he fun _ => hen
  rw [← hG] at hgf
  obtain ⟨M, kl, e1, ⟨i₀, hi₀, e2⟩, e3, e4⟩ := hgf
  have e4 := e4 μ hμ hf fun i _ => hd i
  subst e4
  have hkl : F.klError = ⟨XR.fin μ, XR.fin 100000⟩ := by simp [Fit.klError, hμ]
  have hgam : 0 ≤ γ := by
    rw [hγ]
    have := gamma_mono h0 h1 (Nat.zero_le (J + S.nb + 10))
    simpa using this
  have hlog : 0 ≤ l := by
    rw [hl']
    have : log (1 - u) ≤ 0 := log_nonpos (by linarith) (by linarith)
    have h2 : (0 : ℝ) ≤ (J + S.nb + 11 : ℕ) := Nat.cast_nonneg _
    nlinarith
  refine ⟨_, _, M, _, _, ∑ i ∈ range N, W i * |klVal μ (f i) (G i)|, ∑ i ∈ range N, W i * f i,
    ∑ i ∈ range N, W i * G i ^ 2, tab N G, tab N fun i => klVal μ (f i) (G i), e1, ?_, ?_, ?_, ?_, ?_, ?_⟩
  · exact h.model.eval c e false hc he fun _ => hen
  · rw [h.dens, kl_evaluate_vec _ _ _ (by simp), hkl]
    congr 1
    refine Prod.ext (kl_core_tab μ _ N f G hf (fun i _ => hd i) false) ?_
    unfold KL.core
    split <;> rfl
  · rw [tab, List.map_map]
    exact h.quad.fin _
  · rw [h.dens]
    exact h.quad.fin f
  · rw [tab, List.map_map]
    exact h.quad.fin _
  intro φ v₁ v₂ v₃ v₄ v₅ hφ R
  have hm : ∀ i < N, Rel u (J + S.nb + 10) (R.m i) (G i) := by
    intro i hi
    have r := (R.h_m i hi).rel h0 h1 (j := J + 10)
      (fun k hk => (hφ i hi k hk).rel h0 h1 hu (hev k hk) (hJ k hk i hi)) (hb i) hcv
    exact r.mono h0 h1 (by omega)
  have hmd : ∀ i < N, |R.m i - G i| ≤ γ * G i := by
    intro i hi
    have := (hm i hi).abs_sub h0 h1
    rwa [← hγ, abs_of_nonneg (hd i)] at this
  have hWG : 0 ≤ ∑ i ∈ range N, W i * G i :=
    sum_nonneg fun i hi => mul_nonneg (hW i (mem_range.mp hi)) (hd i)
  -- the differences
  have ha : ∀ i < N, |(|f i - R.m i| - |f i - G i|)| ≤ γ * G i := by
    intro i hi
    refine (abs_abs_sub_abs_le _ _).trans ?_
    rw [show f i - R.m i - (f i - G i) = -(R.m i - G i) by ring, abs_neg]
    exact hmd i hi
  have r1 : Rel u (N + J + S.nb + 17) v₁ (∑ i ∈ range N, W i * G i) :=
    (R.h_integral.rel h0 h1 hg hl h.quad hm fun i _ => hd i).mono h0 h1 (by omega)
  have r2 : Rel u (N + 8) v₂ (∑ i ∈ range N, W i * |f i - R.m i|) :=
    R.h_l1.rel h0 h1 hg hl h.quad (j := 1) (fun i hi => (Rel.of_fl h0 h1 (R.h_d i hi)).abs h0 h1)
      fun i _ => abs_nonneg _
  have r4 : Rel u (N + 10) v₄ (∑ i ∈ range N, W i * (f i - R.m i) ^ 2) := by
    refine R.h_ls.rel h0 h1 hg hl h.quad (j := 3) (fun i hi => ?_) fun i _ => sq_nonneg _
    have q := Rel.of_fl h0 h1 (R.h_r i hi)
    have q2 := (Rel.of_fu h0 h1 (R.h_sq i hi))
    rw [pow_two] at q2 ⊢
    exact (q2.trans h0 h1 (q.mul h0 h1 q)).mono h0 h1 (by omega)
  have p2 : 0 ≤ ∑ i ∈ range N, W i * |f i - R.m i| :=
    sum_nonneg fun i hi => mul_nonneg (hW i (mem_range.mp hi)) (abs_nonneg _)
  have p4 : 0 ≤ ∑ i ∈ range N, W i * (f i - R.m i) ^ 2 :=
    sum_nonneg fun i hi => mul_nonneg (hW i (mem_range.mp hi)) (sq_nonneg _)
  have q2 : |(∑ i ∈ range N, W i * |f i - R.m i|) - (∑ i ∈ range N, W i * |f i - G i|)| ≤
      γ * ∑ i ∈ range N, W i * G i := by
    rw [← sum_sub_distrib, mul_sum]
    refine (abs_sum_le_sum_abs _ _).trans (sum_le_sum fun i hi => ?_)
    have hi := mem_range.mp hi
    rw [← mul_sub, abs_mul, abs_of_nonneg (hW i hi)]
    have := mul_le_mul_of_nonneg_left (ha i hi) (hW i hi)
    linarith
  have hp8 : 0 < (1 - u) ^ (N + 8) := pow_pos (by linarith) _
  have hp10 : 0 < (1 - u) ^ (N + 10) := pow_pos (by linarith) _
  refine ⟨r1.bounds h0 h1 hWG, ?_, ?_, ?_, ?_, r1.nonneg h0 h1 hWG, r2.nonneg h0 h1 p2, ?_, r4.nonneg h0 h1 p4⟩
  · obtain ⟨b1, b2⟩ := r2.bounds h0 h1 p2
    rw [abs_le] at q2
    refine ⟨le_trans (mul_le_mul_of_nonneg_right ?_ hp8.le) b1, b2.trans ?_⟩ <;> linarith [q2.1, q2.2]
  · intro B hB
    have hB : ∀ i < N, G i ≤ B := fun i hi =>
      hB _ (List.mem_map.mpr ⟨i, List.mem_range.mpr hi, rfl⟩)
    obtain ⟨⟨j, hj, k1⟩, k2⟩ := R.h_linf
    constructor
    · have b := ((Rel.of_fl h0 h1 (R.h_d i₀ hi₀)).abs h0 h1).bounds h0 h1 (abs_nonneg _)
      have a := ha i₀ hi₀
      rw [abs_le, e2] at a
      rw [pow_one] at b
      have := mul_le_mul_of_nonneg_left (hB i₀ hi₀) hgam
      refine le_trans ?_ (b.1.trans (k2 i₀ hi₀))
      exact mul_le_mul_of_nonneg_right (by linarith [a.1]) (by linarith)
    · have b := ((Rel.of_fl h0 h1 (R.h_d j hj)).abs h0 h1).bounds h0 h1 (abs_nonneg _)
      have a := ha j hj
      rw [abs_le] at a
      rw [pow_one, k1] at b
      have := mul_le_mul_of_nonneg_left (hB j hj) hgam
      linarith [a.2, b.2, e3 j hj]
  · obtain ⟨b1, b2⟩ := r4.bounds h0 h1 p4
    have s1 : ∑ i ∈ range N, W i * (f i - R.m i) ^ 2 ≤ (1 + γ) * ∑ i ∈ range N, W i * (f i - G i) ^ 2 +
        γ * (1 + γ) * ∑ i ∈ range N, W i * G i ^ 2 := by
      rw [mul_sum, mul_sum, ← sum_add_distrib]
      refine sum_le_sum fun i hi => ?_
      have hi := mem_range.mp hi
      have := sq_perturb hgam (a := f i - R.m i) (b := f i - G i) (g := G i) (by
        rw [show f i - R.m i - (f i - G i) = -(R.m i - G i) by ring, abs_neg]
        exact hmd i hi)
      have := mul_le_mul_of_nonneg_left this (hW i hi)
      linarith
    have s2 : ∑ i ∈ range N, W i * (f i - G i) ^ 2 ≤ (1 + γ) * ∑ i ∈ range N, W i * (f i - R.m i) ^ 2 +
        γ * (1 + γ) * ∑ i ∈ range N, W i * G i ^ 2 := by
      rw [mul_sum, mul_sum, ← sum_add_distrib]
      refine sum_le_sum fun i hi => ?_
      have hi := mem_range.mp hi
      have := sq_perturb hgam (b := f i - R.m i) (a := f i - G i) (g := G i) (by
        rw [show f i - G i - (f i - R.m i) = R.m i - G i by ring]
        exact hmd i hi)
      have := mul_le_mul_of_nonneg_left this (hW i hi)
      linarith
    refine ⟨?_, b2.trans s1⟩
    have hPn : 0 ≤ γ * (1 + γ) * ∑ i ∈ range N, W i * G i ^ 2 :=
      mul_nonneg (by positivity) (sum_nonneg fun i hi => mul_nonneg (hW i (mem_range.mp hi)) (sq_nonneg _))
    have t1 := mul_le_mul_of_nonneg_right s2 hp10.le
    have t2 : γ * (1 + γ) * (∑ i ∈ range N, W i * G i ^ 2) * (1 - u) ^ (N + 10) ≤
        γ * (1 + γ) * ∑ i ∈ range N, W i * G i ^ 2 :=
      mul_le_of_le_one_right hPn (pow_le_one₀ (by linarith) (by linarith))
    have t3 := mul_le_mul_of_nonneg_left b1 (by linarith : 0 ≤ 1 + γ)
    linarith
  · intro hmask
    -- exact integrand of the computed model
    set T : ℕ → ℝ := fun i => f i * log (R.ratio i) with hT
    have hv : ∀ i < N, Rel u 2 (R.value i) (T i) := by
      intro i hi
      have k1 := Rel.of_fu h0 h1 (R.h_value i hi)
      have k2 := Rel.of_fu h0 h1 (R.h_lg i hi)
      exact (k1.trans h0 h1 ((Rel.refl h0 h1 (f i)).mul h0 h1 k2)).mono h0 h1 (by omega)
    have hTd : ∀ i < N, |T i - klVal μ (f i) (G i)| ≤ l * f i := by
      intro i hi
      have hr := R.h_ratio i hi
      have hmi := hmask i hi
      rw [show vec (tab N G) i = G i from vec_tab hi] at hmi
      by_cases hU : Unmasked μ (f i) (G i)
      · have hgp := unmasked_pos (hf i hi).le hU
        rw [if_pos (hmi.mpr hU)] at hr
        rw [klVal_unmasked hU]
        have k1 := (Rel.of_fu h0 h1 hr).trans h0 h1 ((Rel.refl h0 h1 (f i)).div h0 h1 (hm i hi))
        have k2 := (k1.mono h0 h1 (l := J + S.nb + 11) (by omega)).log_sub h0 h1 (div_pos (hf i hi) hgp)
        rw [hT, klInt]
        simp only
        rw [← mul_sub, abs_mul, abs_of_pos (hf i hi), mul_comm]
        refine mul_le_mul_of_nonneg_right (k2.trans (le_of_eq ?_)) (hf i hi).le
        rw [hl']
        ring
      · rw [if_neg fun hh => hU (hmi.mp hh)] at hr
        have : klVal μ (f i) (G i) = 0 := by unfold klVal; rw [if_neg hU]
        rw [this, hT]
        simp only [hr, log_one, mul_zero, sub_zero, abs_zero]
        exact mul_nonneg hlog (hf i hi).le
    have k1 := R.h_kl.abs_sub h0 h1 hg hl h.quad hv
    have k2 : |∑ i ∈ range N, W i * T i - ∑ i ∈ range N, W i * klVal μ (f i) (G i)| ≤
        l * ∑ i ∈ range N, W i * f i := by
      rw [← sum_sub_distrib, mul_sum]
      refine (abs_sum_le_sum_abs _ _).trans (sum_le_sum fun i hi => ?_)
      have hi := mem_range.mp hi
      rw [← mul_sub, abs_mul, abs_of_nonneg (hW i hi)]
      have := mul_le_mul_of_nonneg_left (hTd i hi) (hW i hi)
      linarith
    have k3 : ∑ i ∈ range N, W i * |T i| ≤
        ∑ i ∈ range N, W i * |klVal μ (f i) (G i)| + l * ∑ i ∈ range N, W i * f i := by
      rw [mul_sum, ← sum_add_distrib]
      refine sum_le_sum fun i hi => ?_
      have hi := mem_range.mp hi
      have := abs_sub_abs_le_abs_sub (T i) (klVal μ (f i) (G i))
      have := mul_le_mul_of_nonneg_left (hTd i hi) (hW i hi)
      have := mul_le_mul_of_nonneg_left (abs_sub_abs_le_abs_sub (T i) (klVal μ (f i) (G i))) (hW i hi)
      linarith
    have hgm : 0 ≤ 1 / (1 - u) ^ (N + 9) - 1 := by
      have := gamma_mono h0 h1 (Nat.zero_le (N + 9))
      simpa using this
    have k4 := mul_le_mul_of_nonneg_left k3 hgm
    have k5 := abs_sub_le v₅ (∑ i ∈ range N, W i * T i) (∑ i ∈ range N, W i * klVal μ (f i) (G i))
    linarith
  · obtain ⟨⟨j, -, k1⟩, -⟩ := R.h_linf
    rw [← k1]
    exact abs_nonneg _

theorem RBasis.exact {u τ : ℝ} (h0 : 0 ≤ u) (isS norm : Bool) (e r : ℝ) :
    RBasis u τ isS norm e r (bf isS norm e r) := by
  have rf : ∀ {x : ℝ}, Fu u τ x x := Fu.refl h0 _
  refine ⟨r ^ 2, -e * r ^ 2, exp (-e * r ^ 2), rf, rf, rf, ?_⟩
  unfold bf
  cases isS
  · simp only [Bool.false_eq_true, if_false]
    refine ⟨exp (-e * r ^ 2) * r ^ 2, rf, ?_⟩
    cases norm
    · simp only [Bool.false_eq_true, if_false, pBasis]
      ring
    · simp only [if_true, pBasis]
      refine ⟨π, e ^ (5 / 2 : ℝ), π ^ (3 / 2 : ℝ), _, _, Fl.refl h0 _, rf, rf, rf, rf, ?_⟩
      have : 2 * e ^ (5 / 2 : ℝ) / (3 * π ^ (3 / 2 : ℝ)) * (r ^ 2 * exp (-e * r ^ 2)) =
          exp (-e * r ^ 2) * r ^ 2 * (e ^ (5 / 2 : ℝ) / π ^ (3 / 2 : ℝ)) / (3 / 2) := by
        have := (rpow_pos_of_pos pi_pos (3 / 2 : ℝ)).ne'
        field_simp
      rw [this]
      exact rf
  · simp only [if_true]
    cases norm
    · simp only [Bool.false_eq_true, if_false, sBasis, one_mul]
    · simp only [if_true, sBasis]
      refine ⟨π, _, _, Fl.refl h0 _, rf, rf, ?_⟩
      rw [mul_comm]
      exact rf

/-- **C125** (exact arithmetic).  The exact numbers are admissible for every accuracy. -/
theorem C125_exact {u : ℝ} (h0 : 0 ≤ u) {F : Fit} {norm : Bool} {S : Shape} {N : ℕ} {W f : ℕ → ℝ}
    {μ : ℝ} (h : FitData F norm S N W f) (hN : 0 < N) (hg : F.grid.Finite) (hl : N = F.grid.len)
    (hs : F.spherical = true → ∃ g, F.grid = .radial g) (hμ : F.maskValue = XR.fin μ)
    (hf : ∀ i < N, 0 < f i) (c e : List ℝ) (hc : c.length = S.nb) (he : e.length = S.nb)
    (hcn : ∀ a ∈ c, 0 ≤ a) (hen : ∀ a ∈ e, 0 ≤ a) :
    ∃ (I L M Q K : ℝ) (φ : ℕ → ℕ → ℝ),
      F.goodness (fins c) (fins e) = .ok ⟨XR.fin I, XR.fin L, XR.fin M, XR.fin Q, XR.fin K⟩ ∧
      (∀ i < N, ∀ k < S.nb, RBasis u 0 (S.isS k) norm (vec e k) (S.rad k i) (φ i k)) ∧
      ∃ R : RGoodness u 0 F.grid F.spherical N S.nb f μ φ (vec c) I L M Q K, ∀ g : List ℝ,
        F.model.evaluate (fins c) (fins e) false = .ok (fins g, none) →
          ∀ i < N, (μ < R.m i ∧ R.z i < R.m i) ↔ Unmasked μ (f i) (vec g i) := by
  have hev := vec_of_mem he hen
  have hcv := vec_of_mem hc hcn
  have hb : ∀ i, ∀ k < S.nb, 0 ≤ bf (S.isS k) norm (vec e k) (S.rad k i) := by
    intro i k hk
    cases norm
    · exact bf_nonneg_unnorm _ _ _
    · exact bf_nonneg _ _ (hev k hk)
  set G := S.dens norm (vec c) (vec e) with hG
  have hd : ∀ i, 0 ≤ G i := fun i =>
    sum_nonneg fun k hk => mul_nonneg (hcv k (mem_range.mp hk)) (hb i k (mem_range.mp hk))
  have hgf := goodness_fins h hN c e hc he fun _ => hen
  rw [← hG] at hgf
  obtain ⟨M, kl, e1, e2, e3, e4⟩ := hgf
  have e4 := e4 μ hμ hf fun i _ => hd i
  subst e4
  have hI : ∀ y : ℕ → ℝ, RIntegrate u 0 F.grid F.spherical y (∑ i ∈ range N, W i * y i) := by
    intro y
    obtain ⟨I, k1, k2, -⟩ := RIntegrate.exact (τ := 0) h0 hg F.spherical hs y
    rw [← hl, h.quad.fin] at k1
    injection k1 with k1
    injection k1 with k1
    rwa [← k1] at k2
  refine ⟨_, _, M, _, _, fun i k => bf (S.isS k) norm (vec e k) (S.rad k i), e1, fun i _ k hk => ?_,
    ⟨G, fun i => f i - G i, fun i => f i - G i, fun i => (f i - G i) ^ 2, fun i => f i * tiny,
      fun i => if μ < G i ∧ f i * tiny < G i then f i / G i else 1,
      fun i => log (if μ < G i ∧ f i * tiny < G i then f i / G i else 1),
      fun i => klVal μ (f i) (G i), fun i _ => ⟨fun k => bf (S.isS k) norm (vec e k) (S.rad k i) * vec c k,
        fun k _ => Fu.refl h0 _, ?_⟩, fun i _ => Fl.refl h0 _, hI _, hI _, ⟨e2, e3⟩, fun i _ => Fl.refl h0 _,
      fun i _ => Fu.refl h0 _, hI _, fun i _ => Fu.refl h0 _, fun i _ => ?_, fun i _ => Fu.refl h0 _,
      fun i hi => ?_, hI _⟩, fun g hg i hi => ?_⟩
  · exact RBasis.exact h0 _ _ _ _
  · have := RSum.exact h0 ((List.range S.nb).map fun k => bf (S.isS k) norm (vec e k) (S.rad k i) * vec c k)
    rw [sum_tab_range] at this
    refine (congrArg (RSum u _) ?_).mp this
    rw [hG]
    unfold Shape.dens
    exact sum_congr rfl fun k _ => by ring
  · split
    · exact Fu.refl h0 _
    · rfl
  · have : klVal μ (f i) (G i) = f i * log (if μ < G i ∧ f i * tiny < G i then f i / G i else 1) := by
      by_cases hU : Unmasked μ (f i) (G i)
      · rw [klVal_unmasked hU, klInt, if_pos (show μ < G i ∧ f i * tiny < G i from hU)]
      · unfold klVal
        rw [if_neg hU, if_neg (show ¬(μ < G i ∧ f i * tiny < G i) from hU), log_one, mul_zero]
    rw [this]
    exact Fu.refl h0 _
  · rw [h.model.eval c e false hc he fun _ => hen] at hg
    injection hg with hg
    injection hg with hg
    rw [← fins_injective hg, vec_tab hi]
    exact Iff.rfl

/-- C125 for the fit object of C35 (three points, `e r² ≤ 4`, so `J = 12`) in double precision: the computed `L1` distance
differs by less than `10⁻¹³` times itself and the integral of the model from the exact one, and there are such
computations. -/
example : ∃ (I L M Q K : ℝ), (demoFit true demoF).goodness (fins [1]) (fins [1]) =
      .ok ⟨XR.fin I, XR.fin L, XR.fin M, XR.fin Q, XR.fin K⟩ ∧
    (∀ (φ : ℕ → ℕ → ℝ) (v₁ v₂ v₃ v₄ v₅ : ℝ),
      (∀ i < 3, ∀ k < 1, RBasis (2 ^ (-53 : ℤ)) 0 (decide (k < 1)) true (vec [1] k) (vec [0, 1, 2] i) (φ i k)) →
      RGoodness (2 ^ (-53 : ℤ)) 0 (demoFit true demoF).grid (demoFit true demoF).spherical 3 1 demoF 0 φ (vec [1])
        v₁ v₂ v₃ v₄ v₅ → v₂ * (1 - 1 / 10 ^ 13) ≤ L + 1 / 10 ^ 13 * I ∧ 0 ≤ v₄) ∧
    ∃ (φ : ℕ → ℕ → ℝ) (v₁ v₂ v₃ v₄ v₅ : ℝ),
      (∀ i < 3, ∀ k < 1, RBasis (2 ^ (-53 : ℤ)) 0 (decide (k < 1)) true (vec [1] k) (vec [0, 1, 2] i) (φ i k)) ∧
      Nonempty (RGoodness (2 ^ (-53 : ℤ)) 0 (demoFit true demoF).grid (demoFit true demoF).spherical 3 1 demoF 0 φ
        (vec [1]) v₁ v₂ v₃ v₄ v₅) := by
  have hu : (0 : ℝ) ≤ 2 ^ (-53 : ℤ) := by positivity
  obtain ⟨I, L, M, Q, K, A, D, P, g, k, h1, h2, -, -, -, -, h3⟩ := C125_goodness (u := 2 ^ (-53 : ℤ)) hu (by norm_num)
    (demoFit_data true demoF) (by norm_num) ⟨[0, 1, 2], rfl, by norm_num⟩ rfl demo_W rfl (fun i _ => demoF_pos i)
    [1] [1] rfl rfl (by simp) (by simp) (J := 12) (by
      intro k hk i hi
      have hk : k < 1 := hk
      interval_cases k
      interval_cases i <;> norm_num [atomShape, vec]) rfl rfl
  obtain ⟨I', L', M', Q', K', φ, h4, h5, R, -⟩ := C125_exact (u := 2 ^ (-53 : ℤ)) hu
    (demoFit_data true demoF) (by norm_num) ⟨[0, 1, 2], rfl⟩ rfl (fun _ => ⟨_, rfl⟩) rfl (fun i _ => demoF_pos i)
    [1] [1] rfl rfl (by simp) (by simp)
  refine ⟨I, L, M, Q, K, h1, fun φ v₁ v₂ v₃ v₄ v₅ hφ R => ?_, φ, I', L', M', Q', K', h5, ⟨R⟩⟩
  obtain ⟨a1, ⟨-, a2⟩, -, -, -, -, a3, -, a4⟩ := h3 φ v₁ v₂ v₃ v₄ v₅ hφ R
  refine ⟨?_, a4⟩
  have hI : 0 ≤ I := by
    have h6 := goodness_fins (demoFit_data true demoF) (by norm_num) [1] [1] rfl rfl (by simp)
    obtain ⟨M', kl, h6, -⟩ := h6
    rw [h1] at h6
    injection h6 with h6
    injection h6 with h6
    injection h6 with h6
    rw [h6]
    refine sum_nonneg fun i hi => mul_nonneg (demo_W i (mem_range.mp hi)) ?_
    rw [demo_dens i (mem_range.mp hi)]
    exact bf_nonneg _ _ (by norm_num)
  have k1 : (1 : ℝ) - 1 / 10 ^ 13 ≤ (1 - 2 ^ (-53 : ℤ)) ^ (3 + 8) := by norm_num
  have k2 : (1 : ℝ) / (1 - 2 ^ (-53 : ℤ)) ^ (12 + (atomShape [0, 1, 2] 1 0).nb + 10) - 1 ≤ 1 / 10 ^ 13 := by
    norm_num [atomShape]
  calc v₂ * (1 - 1 / 10 ^ 13) ≤ v₂ * (1 - 2 ^ (-53 : ℤ)) ^ (3 + 8) := mul_le_mul_of_nonneg_left k1 a3
    _ ≤ _ := a2
    _ ≤ _ := by
      have := mul_le_mul_of_nonneg_right k2 hI
      linarith

end
end BFit
