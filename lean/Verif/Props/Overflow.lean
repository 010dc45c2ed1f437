import Verif.Lemmas.Overflow

/-! # C144: overflow in `evaluate` -/

namespace BFit

open Real Classical Finset

noncomputable section

variable {u τ Ω : ℝ}

/-- The common part of all basis functions. -/
theorem gauss_no_overflow (hf : FloatFormat u τ Ω) {e r : ℝ} (he : 0 < e) (heΩ : 1 ≤ e ^ 2 * Ω) {r2 a E : XR}
    (h1 : Fx u τ Ω r2 (XR.pow (.fin r) 2)) (h2 : Fx u τ Ω a (-(.fin e) * r2)) (h3 : Fx u τ Ω E (XR.exp a)) :
    ∃ ρ α ε : ℝ, (r2 = .fin ρ ∨ Ω ≤ r ^ 2) ∧ E = .fin ε ∧ Fu u τ ρ (r ^ 2) ∧ Fu u τ α (-e * ρ) ∧
      Fu u τ ε (exp α) := by
  have hΩ := hf.Ω1
  rw [XR.pow_fin_two] at h1
  have hr0 : 0 ≤ r ^ 2 := sq_nonneg r
  have hu1 : u < 1 := by linarith [hf.u1]
  rcases h1 with ⟨_, ρ, rfl, hρ⟩ | ⟨hr, rfl⟩
  · have hρ0 : 0 ≤ ρ := hρ.nonneg hf.u0 hu1 hr0
    have h2 : Fx u τ Ω a (.fin (-e * ρ)) := h2
    rcases h2 with ⟨_, α, rfl, hα⟩ | ⟨hb, rfl⟩
    · have hα0 : α ≤ 0 := by
        rcases hα with h | ⟨h, _, _, h'⟩
        · unfold Fl at h
          rw [abs_of_nonpos (by nlinarith : -e * ρ ≤ 0)] at h
          have := (abs_le.mp h).2
          have hq : 0 ≤ e * ρ := by positivity
          nlinarith
        · have : -e * ρ < 0 := lt_of_le_of_ne (by nlinarith) (abs_pos.mp h)
          nlinarith
      have h3 : Fx u τ Ω E (.fin (exp α)) := h3
      have : exp α ≤ 1 := exp_le_one_iff.mpr hα0
      obtain ⟨ε, rfl, hε⟩ := h3.fin (by rw [abs_of_pos (exp_pos _)]; linarith)
      exact ⟨ρ, α, ε, .inl rfl, rfl, hρ, hα, hε⟩
    · have hle : -e * ρ ≤ 0 := by nlinarith
      rw [abs_of_nonpos hle] at hb
      have hneg : -e * ρ < 0 := by linarith
      rw [XR.sgnInf, if_neg (by linarith), if_pos hneg] at h3
      have hE : E = .fin 0 := Fx.zero (by linarith) h3
      refine ⟨ρ, -e * ρ, 0, .inl rfl, hE, hρ, Fu.refl hf.u0 _, ?_⟩
      have := fu_zero_exp hf (x := e * ρ) (by linarith) (by nlinarith)
      rwa [← neg_mul] at this
  · rw [abs_of_nonneg hr0] at hr
    have e1 : XR.sgnInf (r ^ 2) = .pinf := by rw [XR.sgnInf, if_pos (by linarith)]
    rw [e1] at h2
    have e2 : -(XR.fin e) * XR.pinf = .ninf := by
      show XR.sgnInf (-e) = _
      rw [XR.sgnInf, if_neg (by linarith), if_pos (by linarith)]
    rw [e2] at h2
    have h2 : a = .ninf := h2
    subst h2
    have hE : E = .fin 0 := Fx.zero (by linarith) h3
    refine ⟨r ^ 2, -e * r ^ 2, 0, .inr hr, hE, Fu.refl hf.u0 _, Fu.refl hf.u0 _, ?_⟩
    have := fu_zero_exp hf (x := e * r ^ 2) (by nlinarith) (by
      rw [mul_pow]
      have : Ω * Ω ≤ (r ^ 2) ^ 2 := by nlinarith
      nlinarith [sq_nonneg e])
    rwa [← neg_mul] at this

/-- Bounds of the computed Gaussian. -/
theorem gauss_bounds (hf : FloatFormat u τ Ω) {e r ρ α ε : ℝ} (he : 0 < e) (hr : Fu u τ ρ (r ^ 2))
    (ha : Fu u τ α (-e * ρ)) (hE : Fu u τ ε (exp α)) :
    0 ≤ ρ ∧ 0 ≤ ε ∧ ε ≤ 1101 / 1000 ∧ (r ^ 2 ≤ Ω / 2 → ε * ρ ≤ 5 / 4 / e + 1) := by
  have hΩ := hf.Ω1
  have hu1 : u < 1 := by linarith [hf.u1]
  have hr0 : 0 ≤ r ^ 2 := sq_nonneg r
  have hρ0 : 0 ≤ ρ := hr.nonneg hf.u0 hu1 hr0
  have hq : 0 ≤ e * ρ := by positivity
  have hα : α ≤ 0 ∧ exp α * ρ ≤ 10 / 9 / e := by
    rcases ha with h | ⟨h, ht, _, h'⟩
    · unfold Fl at h
      rw [abs_of_nonpos (by linarith : -e * ρ ≤ 0)] at h
      have h := (abs_le.mp h).2
      have h9 : α ≤ -(9 / 10 * (e * ρ)) := by nlinarith [hf.u1]
      refine ⟨by linarith, ?_⟩
      have h10 := exp_le_exp.mpr h9
      have h11 := mul_exp_neg_le_one (9 / 10 * (e * ρ))
      rw [le_div_iff₀ he]
      have h12 := mul_le_mul_of_nonneg_right h10 hq
      nlinarith
    · have hn : -e * ρ < 0 := lt_of_le_of_ne (by linarith) (abs_pos.mp h)
      have hα0 : α ≤ 0 := by nlinarith
      refine ⟨hα0, ?_⟩
      rw [abs_of_neg hn] at ht
      have h10 : exp α ≤ 1 := exp_le_one_iff.mpr hα0
      rw [le_div_iff₀ he]
      have := mul_le_mul_of_nonneg_right h10 hq
      nlinarith [hf.τ1]
  have he1 : exp α ≤ 1 := exp_le_one_iff.mpr hα.1
  have hε := hE.le' hf (exp_pos α).le
  refine ⟨hρ0, hE.nonneg hf.u0 hu1 (exp_pos α).le, by linarith, fun hrΩ => ?_⟩
  have hε' := hE.le hf (exp_pos α).le
  have hρ := hr.le' hf hr0
  have hρΩ : ρ ≤ Ω := by linarith
  have hw := mul_nonneg hf.u0 hf.τ0.le
  have h1 : u * τ * ρ ≤ 1 := (mul_le_mul_of_nonneg_left hρΩ hw).trans hf.low
  have h2 := mul_le_mul_of_nonneg_right hε' hρ0
  have h3 : (1 + u) * (exp α * ρ) ≤ 11 / 10 * (10 / 9 / e) :=
    mul_le_mul (by linarith [hf.u1]) hα.2 (by positivity) (by norm_num)
  have h4 : 11 / 10 * (10 / 9 / e) ≤ 5 / 4 / e := by
    rw [show 11 / 10 * (10 / 9 / e) = 11 / 9 / e by ring]
    exact div_le_div_of_nonneg_right (by norm_num) he.le
  linarith

/-- A bound of all computed values of a basis function. -/
def gaussBound (e : ℝ) : ℝ := 4 * e ^ (5 / 2 : ℝ) + 3 / e + 12

theorem pow_le_one_add {e : ℝ} (he : 0 < e) {s : ℝ} (hs : 0 ≤ s) (hs' : s ≤ 5 / 2) :
    e ^ s ≤ 1 + e ^ (5 / 2 : ℝ) := by
  have hq0 : 0 < e ^ (5 / 2 : ℝ) := rpow_pos_of_pos he _
  rcases le_total e 1 with h | h
  · have := rpow_le_one he.le h hs; linarith
  · have := rpow_le_rpow_of_exponent_le h hs'; linarith

theorem pi_no_overflow (hf : FloatFormat u τ Ω) {p : XR} (hp : Fx u τ Ω p (.fin π)) :
    ∃ x, p = .fin x ∧ Fl u x π ∧ 9 / 5 ≤ x ∧ x ≤ 5 := by
  have hΩ := hf.Ω1
  have h2π := two_le_pi
  have h4π := pi_le_four
  obtain ⟨x, rfl, hx⟩ := hp.fin (by rw [abs_of_pos pi_pos]; linarith)
  have hx := hx.normal (by linarith [hf.τ1])
  refine ⟨x, rfl, hx, ?_⟩
  unfold Fl at hx
  rw [abs_of_pos pi_pos] at hx
  have hx := abs_le.mp hx
  have := hf.u1
  have := hf.u0
  constructor <;> nlinarith

/-- A normalised s-type function. -/
theorem sNorm_no_overflow (hf : FloatFormat u τ Ω) {e ε : ℝ} (he : 0 < e) (heΩ' : e ^ (5 / 2 : ℝ) ≤ Ω / 16)
    (hε0 : 0 ≤ ε) (hε1 : ε ≤ 1101 / 1000) {p d n v : XR} (hp : Fx u τ Ω p (XR.fin π))
    (hd : Fx u τ Ω d (.fin e / p)) (hn : Fx u τ Ω n (XR.pow d (3 / 2))) (hv : Fx u τ Ω v (.fin ε * n)) :
    ∃ p' d' n' y : ℝ, v = .fin y ∧ Fl u p' π ∧ Fu u τ d' (e / p') ∧ Fu u τ n' (d' ^ (3 / 2 : ℝ)) ∧
      Fu u τ y (ε * n') ∧ 0 ≤ y ∧ y ≤ gaussBound e := by
  have hΩ := hf.Ω1
  have hu1 : u < 1 := by linarith [hf.u1]
  have he1 : e ≤ 1 + e ^ (5 / 2 : ℝ) := by
    simpa using pow_le_one_add he (s := 1) (by norm_num) (by norm_num)
  have he2 : e ^ 2 ≤ 1 + e ^ (5 / 2 : ℝ) := by
    have := pow_le_one_add he (s := 2) (by norm_num) (by norm_num)
    rwa [rpow_two] at this
  have hei : 0 < 3 / e := by positivity
  have hq0 : 0 < e ^ (5 / 2 : ℝ) := rpow_pos_of_pos he _
  unfold gaussBound
  generalize e ^ (5 / 2 : ℝ) = q at *
  obtain ⟨p, rfl, hp, hp1, hp2⟩ := pi_no_overflow hf hp
  rw [XR.div_fin_of_ne _ (by linarith)] at hd
  have hd0 : 0 ≤ e / p := by positivity
  have hd1 : e / p ≤ 5 / 9 * e := by rw [div_le_iff₀ (by linarith)]; nlinarith
  obtain ⟨δ, rfl, hδ⟩ := hd.fin (by rw [abs_of_nonneg hd0]; linarith)
  have hδ0 := hδ.nonneg hf.u0 hu1 hd0
  have hδ1 := hδ.le' hf hd0
  rw [XR.pow_fin_of_nonneg hδ0 (by norm_num)] at hn
  have hn0 : 0 ≤ δ ^ (3 / 2 : ℝ) := rpow_nonneg hδ0 _
  have hn1 : δ ^ (3 / 2 : ℝ) ≤ 3 + q := by
    have hδ2 : δ ^ 2 ≤ 1 + e ^ 2 := by
      have h3 := pow_le_pow_left₀ hδ0 (show δ ≤ 62 / 100 * e + 1 / 1000 by linarith) 2
      nlinarith [sq_nonneg (e - 1)]
    have : δ ^ (3 / 2 : ℝ) ≤ 1 + δ ^ 2 := by
      rcases le_total δ 1 with h | h
      · have := rpow_le_one hδ0 h (show (0:ℝ) ≤ 3 / 2 by norm_num)
        nlinarith
      · have := rpow_le_rpow_of_exponent_le h (show (3 / 2 : ℝ) ≤ 2 by norm_num)
        rw [rpow_two] at this
        linarith
    linarith
  obtain ⟨ν, rfl, hν⟩ := hn.fin (by rw [abs_of_nonneg hn0]; linarith)
  have hν0 := hν.nonneg hf.u0 hu1 hn0
  have hν1 := hν.le' hf hn0
  have hv : Fx u τ Ω v (.fin (ε * ν)) := hv
  have hv0 : 0 ≤ ε * ν := by positivity
  have hv1 : ε * ν ≤ 1101 / 1000 * (11 / 10 * (3 + q) + 1 / 1000) :=
    mul_le_mul hε1 (by linarith) hν0 (by norm_num)
  obtain ⟨y, rfl, hy⟩ := hv.fin (by rw [abs_of_nonneg hv0]; linarith)
  exact ⟨p, δ, ν, y, rfl, hp, hδ, hν, hy, hy.nonneg hf.u0 hu1 hv0, by have := hy.le' hf hv0; linarith⟩

/-- A normalised p-type function. -/
theorem pNorm_no_overflow (hf : FloatFormat u τ Ω) {e γ : ℝ} (he : 0 < e) (heΩ : 1 ≤ e ^ 2 * Ω)
    (heΩ' : e ^ (5 / 2 : ℝ) ≤ Ω / 16) (hγ0 : 0 ≤ γ) (hγ1 : γ ≤ 7 / 5 / e + 5 / 4) {p n m d k v : XR}
    (hp : Fx u τ Ω p (XR.fin π)) (hn : Fx u τ Ω n (XR.pow (.fin e) (5 / 2))) (hm : Fx u τ Ω m (XR.pow p (3 / 2)))
    (hd : Fx u τ Ω d (n / m)) (hk : Fx u τ Ω k (.fin γ * d)) (hv : Fx u τ Ω v (k / XR.fin (3 / 2))) :
    ∃ p' n' m' d' k' y : ℝ, v = .fin y ∧ Fl u p' π ∧ Fu u τ n' (e ^ (5 / 2 : ℝ)) ∧ Fu u τ m' (p' ^ (3 / 2 : ℝ)) ∧
      Fu u τ d' (n' / m') ∧ Fu u τ k' (γ * d') ∧ Fu u τ y (k' / (3 / 2)) ∧ 0 ≤ y ∧ y ≤ gaussBound e := by
  have hΩ := hf.Ω1
  have hu1 : u < 1 := by linarith [hf.u1]
  have hw := mul_nonneg hf.u0 hf.τ0.le
  have hw1 := hf.ut
  have hwe : u * τ / e ≤ 1 := by
    rw [div_le_one he]
    rcases le_total e 1 with h | h
    · have : 1 ≤ e * Ω := by nlinarith
      have := mul_le_mul_of_nonneg_left this hw
      nlinarith [hf.low]
    · linarith
  have hei : 0 < 3 / e := by positivity
  have hq0 : 0 < e ^ (5 / 2 : ℝ) := rpow_pos_of_pos he _
  have hqe : e ^ (5 / 2 : ℝ) / e ≤ 1 + e ^ (5 / 2 : ℝ) := by
    have := pow_le_one_add he (s := 3 / 2) (by norm_num) (by norm_num)
    have e1 : e ^ (5 / 2 : ℝ) = e ^ (3 / 2 : ℝ) * e := by
      rw [← rpow_add_one he.ne']; norm_num
    rwa [e1, mul_div_assoc, div_self he.ne', mul_one, ← e1]
  rw [XR.pow_fin_of_pos he] at hn
  unfold gaussBound
  generalize e ^ (5 / 2 : ℝ) = q at *
  obtain ⟨p, rfl, hp, hp1, hp2⟩ := pi_no_overflow hf hp
  rw [XR.pow_fin_of_pos (by linarith)] at hm
  obtain ⟨ν, rfl, hν⟩ := hn.fin (by rw [abs_of_pos hq0]; linarith)
  have hν0 := hν.nonneg hf.u0 hu1 hq0.le
  have hν1 := hν.le hf hq0.le
  have hm1 : 9 / 5 ≤ p ^ (3 / 2 : ℝ) := by
    have := rpow_le_rpow_of_exponent_le (show 1 ≤ p by linarith) (show (1 : ℝ) ≤ 3 / 2 by norm_num)
    rw [rpow_one] at this
    linarith
  have hm2 : p ^ (3 / 2 : ℝ) ≤ 25 := by
    have := rpow_le_rpow_of_exponent_le (show 1 ≤ p by linarith) (show (3 / 2 : ℝ) ≤ 2 by norm_num)
    rw [rpow_two] at this
    nlinarith
  obtain ⟨μ, rfl, hμ⟩ := hm.fin (by rw [abs_of_pos (by linarith)]; linarith)
  have hμ1 : 81 / 50 ≤ μ := by
    have h := hμ.normal (by linarith [hf.τ1])
    unfold Fl at h
    rw [abs_of_pos (show 0 < p ^ (3 / 2 : ℝ) by linarith)] at h
    have h := abs_le.mp h
    have := hf.u1
    nlinarith
  rw [XR.div_fin_of_ne _ (by linarith)] at hd
  have hd0 : 0 ≤ ν / μ := by positivity
  have hd1 : ν / μ ≤ 50 / 81 * ν := by rw [div_le_iff₀ (by linarith)]; nlinarith
  have hν2 : ν ≤ 11 / 10 * q + u * τ := by nlinarith [hf.u1]
  obtain ⟨δ, rfl, hδ⟩ := hd.fin (by rw [abs_of_nonneg hd0]; linarith)
  have hδ0 := hδ.nonneg hf.u0 hu1 hd0
  have hδ1 : δ ≤ 3 / 4 * q + 2 * (u * τ) := by
    have h1 := hδ.le hf hd0
    have h2 : (1 + u) * (ν / μ) ≤ 11 / 10 * (50 / 81 * ν) := mul_le_mul (by linarith [hf.u1]) hd1 hd0 (by norm_num)
    linarith
  have hk : Fx u τ Ω k (.fin (γ * δ)) := hk
  have hk0 : 0 ≤ γ * δ := by positivity
  have hk1 : γ * δ ≤ 2 * q + 5 := by
    have h1 : γ * δ ≤ (7 / 5 / e + 5 / 4) * (3 / 4 * q + 2 * (u * τ)) :=
      mul_le_mul hγ1 hδ1 hδ0 (by positivity)
    have h2 : (7 / 5 / e + 5 / 4) * (3 / 4 * q + 2 * (u * τ)) =
        21 / 20 * (q / e) + 14 / 5 * (u * τ / e) + 15 / 16 * q + 5 / 2 * (u * τ) := by
      field_simp; ring
    rw [h2] at h1
    linarith
  obtain ⟨κ, rfl, hκ⟩ := hk.fin (by rw [abs_of_nonneg hk0]; linarith)
  have hκ0 := hκ.nonneg hf.u0 hu1 hk0
  have hκ1 := hκ.le' hf hk0
  rw [XR.div_fin_of_ne _ (by norm_num)] at hv
  have hv0 : 0 ≤ κ / (3 / 2) := by positivity
  have hv1 : κ / (3 / 2) = 2 / 3 * κ := by ring
  obtain ⟨y, rfl, hy⟩ := hv.fin (by rw [abs_of_nonneg hv0]; linarith)
  exact ⟨p, ν, μ, δ, κ, y, rfl, hp, hν, hμ, hδ, hκ, hy, hy.nonneg hf.u0 hu1 hv0, by have := hy.le' hf hv0; linarith⟩

/-- **C144.**  In a floating-point format with overflow to infinity: let the exponent be at least `Ω^(-1/2)` and its
power 5/2 at most `Ω / 16`.  The computed value of an s-type function is finite at every point, however far away (even
if the squared distance overflows), and the value of a p-type function is finite at all points with
`r² ≤ Ω / 2`.  It is not negative, at most `4 e^(5/2) + 3 / e + 12`, and it is a result of the operations without
overflow (`RBasis`), to which the other theorems about rounding apply. -/
theorem C144_basis (hf : FloatFormat u τ Ω) (isS norm : Bool) (e r : ℝ) (he : 0 < e) (heΩ : 1 ≤ e ^ 2 * Ω)
    (heΩ' : e ^ (5 / 2 : ℝ) ≤ Ω / 16) (hr : isS = false → r ^ 2 ≤ Ω / 2) (v : XR)
    (h : XBasis u τ Ω isS norm (.fin e) (.fin r) v) :
    ∃ y, v = .fin y ∧ RBasis u τ isS norm e r y ∧ 0 ≤ y ∧ y ≤ gaussBound e := by
  have hΩ := hf.Ω1
  have hu1 : u < 1 := by linarith [hf.u1]
  obtain ⟨r2, a, E, h1, h2, h3, h⟩ := h
  obtain ⟨ρ, α, ε, hr2, rfl, hρ, hα, hε⟩ := gauss_no_overflow hf he heΩ h1 h2 h3
  obtain ⟨hρ0, hε0, hε1, hερ⟩ := gauss_bounds hf he hρ hα hε
  have hei : 0 < 3 / e := by positivity
  have hq0 : 0 < e ^ (5 / 2 : ℝ) := rpow_pos_of_pos he _
  cases isS with
  | true =>
    simp only [if_true] at h
    cases norm with
    | false =>
      simp only [Bool.false_eq_true, if_false] at h
      refine ⟨ε, h, ⟨ρ, α, ε, hρ, hα, hε, by simp⟩, hε0, ?_⟩
      unfold gaussBound
      linarith
    | true =>
      simp only [if_true] at h
      obtain ⟨p, d, n, hp, hd, hn, hv⟩ := h
      obtain ⟨p, d, n, y, rfl, k1, k2, k3, k4, k5⟩ := sNorm_no_overflow hf he heΩ' hε0 hε1 hp hd hn hv
      exact ⟨y, rfl, ⟨ρ, α, ε, hρ, hα, hε, by rw [if_pos rfl, if_pos rfl]; exact ⟨p, d, n, k1, k2, k3, k4⟩⟩, k5⟩
  | false =>
    simp only [Bool.false_eq_true, if_false] at h
    have hr := hr rfl
    have hερ := hερ hr
    have hr2 : r2 = .fin ρ := by
      rcases hr2 with h | h
      · exact h
      · linarith
    subst hr2
    obtain ⟨g, hg, h⟩ := h
    have hg : Fx u τ Ω g (.fin (ε * ρ)) := hg
    have hg0 : 0 ≤ ε * ρ := by positivity
    have hρ1 := hρ.le' hf (sq_nonneg r)
    have hgΩ : ε * ρ < Ω := by
      have := mul_le_mul hε1 hρ1 hρ0 (by norm_num)
      linarith
    obtain ⟨γ, rfl, hγ⟩ := hg.fin (by rw [abs_of_nonneg hg0]; exact hgΩ)
    have hγ0 := hγ.nonneg hf.u0 hu1 hg0
    have hγ1 : γ ≤ 7 / 5 / e + 5 / 4 := by
      have h1 := hγ.le' hf hg0
      have h2 : 11 / 10 * (5 / 4 / e) ≤ 7 / 5 / e := by
        rw [show 11 / 10 * (5 / 4 / e) = 11 / 8 / e by ring]
        exact div_le_div_of_nonneg_right (by norm_num) he.le
      linarith
    have h7 : 7 / 5 / e ≤ 3 / e := div_le_div_of_nonneg_right (by norm_num) he.le
    cases norm with
    | false =>
      simp only [Bool.false_eq_true, if_false] at h
      refine ⟨γ, h, ⟨ρ, α, ε, hρ, hα, hε, γ, hγ, by simp⟩, hγ0, ?_⟩
      unfold gaussBound
      linarith
    | true =>
      simp only [if_true] at h
      obtain ⟨p, n, m, d, k, hp, hn, hm, hd, hk, hv⟩ := h
      obtain ⟨p, n, m, d, k, y, rfl, k1, k2, k3, k4, k5, k6, k7⟩ :=
        pNorm_no_overflow hf he heΩ heΩ' hγ0 hγ1 hp hn hm hd hk hv
      exact ⟨y, rfl, ⟨ρ, α, ε, hρ, hα, hε, by
        rw [if_neg (by decide)]; exact ⟨γ, hγ, by rw [if_pos rfl]; exact ⟨p, n, m, d, k, k1, k2, k3, k4, k5, k6⟩⟩⟩, k7⟩

/-- **C144.**  The density at a point is finite, if besides the sum of `2 |c| (4 e^(5/2) + 3 / e + 12) + 1` over the
functions is below `(1-u)^n Ω`, and it is a result of the operations without overflow. -/
theorem C144_density (hf : FloatFormat u τ Ω) (n : ℕ) (isS : ℕ → Bool) (norm : Bool) (c e r : ℕ → ℝ) (φ : ℕ → XR)
    (m : XR) (he : ∀ k < n, 0 < e k ∧ 1 ≤ e k ^ 2 * Ω ∧ e k ^ (5 / 2 : ℝ) ≤ Ω / 16)
    (hr : ∀ k < n, isS k = false → r k ^ 2 ≤ Ω / 2)
    (hc : ∑ k ∈ range n, (2 * |c k| * (4 * e k ^ (5 / 2 : ℝ) + 3 / e k + 12) + 1) < (1 - u) ^ n * Ω)
    (hφ : ∀ k < n, XBasis u τ Ω (isS k) norm (.fin (e k)) (.fin (r k)) (φ k))
    (hm : XDens u τ Ω n φ (fun k => .fin (c k)) m) :
    ∃ (ψ : ℕ → ℝ) (y : ℝ), (∀ k < n, φ k = .fin (ψ k) ∧ RBasis u τ (isS k) norm (e k) (r k) (ψ k)) ∧ m = .fin y ∧
      RDens u τ n ψ c y := by
  have hΩ := hf.Ω1
  have hu1 : u < 1 := by linarith [hf.u1]
  have hun : 0 < (1 - u) ^ n := pow_pos (by linarith) n
  have hun1 : (1 - u) ^ n ≤ 1 := pow_le_one₀ (by linarith) (by linarith [hf.u0])
  obtain ⟨t, ht, hs⟩ := hm
  have key : ∀ k, ∃ ψ : ℝ, k < n → φ k = .fin ψ ∧ RBasis u τ (isS k) norm (e k) (r k) ψ ∧ 0 ≤ ψ ∧
      ψ ≤ gaussBound (e k) := by
    intro k
    by_cases hk : k < n
    · obtain ⟨h1, h2, h3⟩ := he k hk
      obtain ⟨y, hy⟩ := C144_basis hf (isS k) norm (e k) (r k) h1 h2 h3 (hr k hk) (φ k) (hφ k hk)
      exact ⟨y, fun _ => hy⟩
    · exact ⟨0, fun h => absurd h hk⟩
  choose ψ hψ using key
  have hB : ∀ k < n, 0 ≤ gaussBound (e k) := fun k hk => (hψ k hk).2.2.1.trans (hψ k hk).2.2.2
  have hterm : ∀ k < n, |ψ k * c k| ≤ |c k| * gaussBound (e k) := by
    intro k hk
    rw [abs_mul, abs_of_nonneg (hψ k hk).2.2.1, mul_comm]
    exact mul_le_mul_of_nonneg_left (hψ k hk).2.2.2 (abs_nonneg _)
  have hpos : ∀ k < n, 0 ≤ 2 * |c k| * gaussBound (e k) + 1 := by
    intro k hk
    have := mul_nonneg (abs_nonneg (c k)) (hB k hk)
    linarith
  have hsum1 : ∀ k < n, 2 * |c k| * gaussBound (e k) + 1 < Ω := by
    intro k hk
    have h1 := single_le_sum (f := fun k => 2 * |c k| * gaussBound (e k) + 1)
      (fun i hi => hpos i (mem_range.mp hi)) (mem_range.mpr hk)
    have h2 : (1 - u) ^ n * Ω ≤ Ω := by nlinarith
    unfold gaussBound at h1 ⊢
    linarith
  have key2 : ∀ k, ∃ x : ℝ, k < n → t k = .fin x ∧ Fu u τ x (ψ k * c k) := by
    intro k
    by_cases hk : k < n
    · have h1 := ht k hk
      rw [(hψ k hk).1] at h1
      have h1 : Fx u τ Ω (t k) (.fin (ψ k * c k)) := h1
      obtain ⟨x, hx⟩ := h1.fin (lt_of_le_of_lt (hterm k hk) (by
        have := hsum1 k hk
        have := mul_nonneg (abs_nonneg (c k)) (hB k hk)
        linarith))
      exact ⟨x, fun _ => hx⟩
    · exact ⟨0, fun h => absurd h hk⟩
  choose x hx using key2
  have habs : ∀ k < n, |x k| ≤ 2 * |c k| * gaussBound (e k) + 1 := by
    intro k hk
    have h1 := (hx k hk).2
    have h2 := hterm k hk
    have h3 : |x k| ≤ |x k - ψ k * c k| + |ψ k * c k| := by
      have := abs_add_le (x k - ψ k * c k) (ψ k * c k)
      rwa [sub_add_cancel] at this
    have h4 : |x k - ψ k * c k| ≤ |ψ k * c k| + 1 := by
      rcases h1 with h | ⟨_, _, h, _⟩
      · unfold Fl at h
        nlinarith [abs_nonneg (ψ k * c k), hf.u1]
      · linarith [hf.ut, abs_nonneg (ψ k * c k)]
    linarith
  have hlist : (List.range n).map t = ((List.range n).map x).map XR.fin := by
    rw [List.map_map]
    exact List.map_congr_left fun k hk => (hx k (List.mem_range.mp hk)).1
  have hlt : 1 / (1 - u) ^ ((List.range n).map x).length * sumAbs ((List.range n).map x) < Ω := by
    rw [List.length_map, List.length_range, div_mul_eq_mul_div, one_mul, div_lt_iff₀ hun, sumAbs, List.map_map,
      sum_tab_range, mul_comm Ω]
    refine lt_of_le_of_lt (sum_le_sum fun k hk => ?_) hc
    exact habs k (mem_range.mp hk)
  obtain ⟨y, hy, hR⟩ := hs.fin hf.u0 hu1 _ hlist hlt
  exact ⟨ψ, y, fun k hk => ⟨(hψ k hk).1, (hψ k hk).2.1⟩, hy, x, fun k hk => (hx k hk).2, hR⟩

/-! ### where overflow does harm -/

theorem XSum.nan {l : List XR} {v : XR} (h : XSum u Ω l v) (hl : XR.nan ∈ l) : v = .nan := by
  induction h with
  | nil => simp at hl
  | one x => exact (List.mem_singleton.mp hl).symm
  | @add l l₁ l₂ s₁ s₂ s _ _ n₁ n₂ hp hs ih₁ ih₂ =>
    rcases List.mem_append.mp (hp.mem_iff.mp hl) with h | h
    · rw [ih₁ h, XR.nan_add] at hs; exact hs
    · rw [ih₂ h, XR.add_nan] at hs; exact hs

/-- The squared distance overflows. -/
theorem sq_overflow (hΩ : 0 < Ω) {r : ℝ} (hr : 2 * Ω ≤ r ^ 2) {r2 : XR} (h : Fx u τ Ω r2 (XR.pow (.fin r) 2)) :
    r2 = .pinf := by
  rw [XR.pow_fin_two] at h
  rcases h with ⟨h, _⟩ | ⟨_, rfl⟩
  · rw [abs_of_nonneg (sq_nonneg r)] at h; linarith
  · rw [XR.sgnInf, if_pos (by linarith)]

/-- **C144.**  Far away: if the squared distance overflows, the computed value of a p-type function with a positive
exponent is nan (zero times infinity), and so is an s-type function with exponent zero, whose exact value is one or
zero. -/
theorem C144_far (hΩ : 0 < Ω) (isS norm : Bool) (e r : ℝ) (he : if isS then e = 0 else 0 < e) (hr : 2 * Ω ≤ r ^ 2)
    (v : XR) (h : XBasis u τ Ω isS norm (.fin e) (.fin r) v) : v = .nan := by
  obtain ⟨r2, a, E, h1, h2, h3, h⟩ := h
  have := sq_overflow hΩ hr h1
  subst this
  cases isS with
  | true =>
    simp only [if_true] at he
    subst he
    have e2 : -(XR.fin 0) * XR.pinf = .nan := by
      show XR.sgnInf (-0) = _
      simp [XR.sgnInf]
    rw [e2] at h2
    have h2 : a = .nan := h2
    subst h2
    have h3 : E = .nan := h3
    subst h3
    rw [if_pos rfl] at h
    cases norm with
    | true =>
      rw [if_pos rfl] at h
      obtain ⟨p, d, n, _, _, _, hv⟩ := h
      rw [XR.nan_mul] at hv
      exact hv
    | false =>
      rw [if_neg (by decide)] at h
      exact h
  | false =>
    rw [if_neg (by decide)] at he
    have e2 : -(XR.fin e) * XR.pinf = .ninf := by
      show XR.sgnInf (-e) = _
      rw [XR.sgnInf, if_neg (by linarith), if_pos (by linarith)]
    rw [e2] at h2
    have h2 : a = .ninf := h2
    subst h2
    have hE : E = .fin 0 := Fx.zero hΩ h3
    subst hE
    rw [if_neg (by decide)] at h
    obtain ⟨g, hg, h⟩ := h
    have e3 : XR.fin 0 * XR.pinf = .nan := by
      show XR.sgnInf 0 = _
      simp [XR.sgnInf]
    rw [e3] at hg
    have hg : g = .nan := hg
    subst hg
    cases norm with
    | true =>
      rw [if_pos rfl] at h
      obtain ⟨p, n, m, d, k, _, _, _, _, hk, hv⟩ := h
      rw [XR.nan_mul] at hk
      have hk : k = .nan := hk
      subst hk
      exact hv
    | false =>
      rw [if_neg (by decide)] at h
      exact h

/-- **C144.**  Large exponents: if the power 5/2 of the exponent overflows, the computed value of a normalised p-type
function at its centre is nan (zero times infinity), though the exact value is zero. -/
theorem C144_centre (hf : FloatFormat u τ Ω) (e : ℝ) (he : 0 < e) (heΩ : 2 * Ω ≤ e ^ (5 / 2 : ℝ)) (v : XR)
    (h : XBasis u τ Ω false true (.fin e) (.fin 0) v) : v = .nan := by
  have hΩ := hf.Ω1
  obtain ⟨r2, a, E, h1, h2, h3, h⟩ := h
  rw [XR.pow_fin_two, zero_pow (by norm_num)] at h1
  have := Fx.zero (by linarith) h1
  subst this
  have e1 : -(XR.fin e) * XR.fin 0 = .fin 0 := by simp
  rw [e1] at h2
  have := Fx.zero (by linarith) h2
  subst this
  have h3 : Fx u τ Ω E (.fin (exp 0)) := h3
  rw [exp_zero] at h3
  obtain ⟨ε, rfl, hε⟩ := h3.fin (by rw [abs_one]; linarith)
  rw [if_neg (by decide)] at h
  obtain ⟨g, hg, h⟩ := h
  have e2 : XR.fin ε * XR.fin 0 = .fin 0 := by simp
  rw [e2] at hg
  have := Fx.zero (by linarith) hg
  subst this
  rw [if_pos rfl] at h
  obtain ⟨p, n, m, d, k, hp, hn, hm, hd, hk, hv⟩ := h
  obtain ⟨p, rfl, hp, hp1, hp2⟩ := pi_no_overflow hf hp
  rw [XR.pow_fin_of_pos he] at hn
  have hn : n = .pinf := by
    rcases hn with ⟨h, _⟩ | ⟨_, rfl⟩
    · rw [abs_of_nonneg (by linarith)] at h; linarith
    · rw [XR.sgnInf, if_pos (by linarith)]
  subst hn
  rw [XR.pow_fin_of_pos (by linarith)] at hm
  have hm1 : 9 / 5 ≤ p ^ (3 / 2 : ℝ) := by
    have := rpow_le_rpow_of_exponent_le (show 1 ≤ p by linarith) (show (1 : ℝ) ≤ 3 / 2 by norm_num)
    rw [rpow_one] at this
    linarith
  have hm2 : p ^ (3 / 2 : ℝ) ≤ 25 := by
    have := rpow_le_rpow_of_exponent_le (show 1 ≤ p by linarith) (show (3 / 2 : ℝ) ≤ 2 by norm_num)
    rw [rpow_two] at this
    nlinarith
  obtain ⟨μ, rfl, hμ⟩ := hm.fin (by rw [abs_of_pos (by linarith)]; linarith)
  have hμ0 : 0 ≤ μ := hμ.nonneg hf.u0 (by linarith [hf.u1]) (by linarith)
  have e3 : XR.pinf / XR.fin μ = .pinf := by
    show (if μ < 0 then XR.ninf else XR.pinf) = _
    rw [if_neg (by linarith)]
  rw [e3] at hd
  have hd : d = .pinf := hd
  subst hd
  have e4 : XR.fin 0 * XR.pinf = .nan := by
    show XR.sgnInf 0 = _
    simp [XR.sgnInf]
  rw [e4] at hk
  have hk : k = .nan := hk
  subst hk
  exact hv

/-- **C144.**  One such function makes the density nan, whatever its coefficient and the other functions are. -/
theorem C144_nan (hΩ : 0 < Ω) (n : ℕ) (isS : ℕ → Bool) (norm : Bool) (e r : ℕ → ℝ) (φ c : ℕ → XR) (m : XR) (k : ℕ)
    (hk : k < n) (hp : isS k = false) (he : 0 < e k) (hr : 2 * Ω ≤ r k ^ 2)
    (hφ : ∀ k < n, XBasis u τ Ω (isS k) norm (.fin (e k)) (.fin (r k)) (φ k)) (hm : XDens u τ Ω n φ c m) :
    m = .nan := by
  obtain ⟨t, ht, hs⟩ := hm
  have h1 := hφ k hk
  have h2 : φ k = .nan := C144_far hΩ _ _ _ _ (by rw [hp]; exact he) hr _ h1
  have h3 := ht k hk
  rw [h2, XR.nan_mul] at h3
  exact hs.nan (List.mem_map.mpr ⟨k, List.mem_range.mpr hk, h3⟩)

/-! ### the hypotheses are met -/

/-- **C144.**  Every operation has a result, so there is always a computed value. -/
theorem C144_total (h0 : 0 ≤ u) (isS norm : Bool) (e r : XR) : ∃ v, XBasis u τ Ω isS norm e r v := by
  have T := fun x => Fx.total (τ := τ) (Ω := Ω) h0 x
  obtain ⟨r2, h1⟩ := T (XR.pow r 2)
  obtain ⟨a, h2⟩ := T (-e * r2)
  obtain ⟨E, h3⟩ := T (XR.exp a)
  obtain ⟨p, hp⟩ := T (.fin π)
  cases isS with
  | true =>
    cases norm with
    | true =>
      obtain ⟨d, hd⟩ := T (e / p)
      obtain ⟨n, hn⟩ := T (XR.pow d (3 / 2))
      obtain ⟨v, hv⟩ := T (E * n)
      exact ⟨v, r2, a, E, h1, h2, h3, by rw [if_pos rfl, if_pos rfl]; exact ⟨p, d, n, hp, hd, hn, hv⟩⟩
    | false => exact ⟨E, r2, a, E, h1, h2, h3, by rw [if_pos rfl, if_neg (by decide)]⟩
  | false =>
    obtain ⟨g, hg⟩ := T (E * r2)
    cases norm with
    | true =>
      obtain ⟨n, hn⟩ := T (XR.pow e (5 / 2))
      obtain ⟨m, hm⟩ := T (XR.pow p (3 / 2))
      obtain ⟨d, hd⟩ := T (n / m)
      obtain ⟨k, hk⟩ := T (g * d)
      obtain ⟨v, hv⟩ := T (k / .fin (3 / 2))
      exact ⟨v, r2, a, E, h1, h2, h3, by
        rw [if_neg (by decide)]; exact ⟨g, hg, by rw [if_pos rfl]; exact ⟨p, n, m, d, k, hp, hn, hm, hd, hk, hv⟩⟩⟩
    | false =>
      exact ⟨g, r2, a, E, h1, h2, h3, by
        rw [if_neg (by decide)]; exact ⟨g, hg, by rw [if_neg (by decide)]⟩⟩

/-- **C144.**  Double precision. -/
theorem C144_double : FloatFormat (1 / 2 ^ 53) (1 / 2 ^ 1022) (2 ^ 1023) := by
  have e : (2 : ℝ) ^ 1023 = 2 * 2 ^ 1022 := pow_succ' 2 1022
  have h1 : (2 : ℝ) ^ 100 ≤ 2 ^ 1022 := pow_le_pow_right₀ (by norm_num) (by norm_num)
  rw [e]
  clear e
  generalize (2 : ℝ) ^ 1022 = T at *
  have hT : 0 < T := lt_of_lt_of_le (by norm_num) h1
  have h3 : (1000000 : ℝ) * 2 ^ 53 ≤ T := le_trans (by norm_num) h1
  refine ⟨by positivity, by norm_num, by positivity, ?_, ?_, ?_, ?_⟩
  · rw [div_le_one hT]; exact le_trans (by norm_num) h1
  · linarith
  · rw [show 1 / 2 ^ 53 * (1 / T) * (2 * T) = 1 / 2 ^ 53 * 2 by field_simp]
    norm_num
  · rw [show 1 / 2 ^ 53 * (1 / T) * (2 * T) ^ 3 = T * T * (8 / 2 ^ 53) by field_simp; ring]
    have := mul_le_mul h3 h3 (by norm_num) hT.le
    have e2 : (1000000 * 2 ^ 53 : ℝ) * (1000000 * 2 ^ 53) * (8 / 2 ^ 53) = 72057594037927936000000000000 := by norm_num
    have := mul_le_mul_of_nonneg_right this (show (0:ℝ) ≤ 8 / 2 ^ 53 by norm_num)
    rw [e2] at this
    exact le_trans (by norm_num) this

/-- Single precision. -/
example : FloatFormat (1 / 2 ^ 24) (1 / 2 ^ 126) (2 ^ 127) := by
  refine ⟨by positivity, ?_, by positivity, ?_, ?_, ?_, ?_⟩ <;> norm_num

/-- A normalised p-type function with exponent 3 in double precision at distance one, where all is well, and at distance
`2^513`, where its value is nan. -/
example : (∀ v, XBasis (1 / 2 ^ 53) (1 / 2 ^ 1022) (2 ^ 1023) false true (.fin 3) (.fin 1) v → ∃ y, v = .fin y ∧
      RBasis (1 / 2 ^ 53) (1 / 2 ^ 1022) false true 3 1 y ∧ 0 ≤ y ∧ y ≤ gaussBound 3) ∧
    ∀ v, XBasis (1 / 2 ^ 53) (1 / 2 ^ 1022) (2 ^ 1023) false true (.fin 3) (.fin (2 ^ 513)) v → v = .nan := by
  have h1 : (2 : ℝ) ^ 100 ≤ 2 ^ 1023 := pow_le_pow_right₀ (by norm_num) (by norm_num)
  have h2 : (3 : ℝ) ^ (5 / 2 : ℝ) ≤ 27 := by
    calc (3 : ℝ) ^ (5 / 2 : ℝ) ≤ 3 ^ (3 : ℝ) := rpow_le_rpow_of_exponent_le (by norm_num) (by norm_num)
      _ = 27 := by norm_num
  have h3 : (1000 : ℝ) ≤ 2 ^ 100 := by norm_num
  refine ⟨fun v h => C144_basis C144_double false true 3 1 (by norm_num) ?_ ?_ (fun _ => ?_) v h,
    fun v h => C144_far (by positivity) false true 3 (2 ^ 513) ?_ ?_ v h⟩
  · generalize (2 : ℝ) ^ 1023 = X at *
    linarith
  · generalize (2 : ℝ) ^ 1023 = X at *
    linarith
  · generalize (2 : ℝ) ^ 1023 = X at *
    linarith
  · rw [if_neg (by decide)]; norm_num
  · rw [← pow_mul, ← pow_succ']
    exact pow_le_pow_right₀ (by norm_num) (by norm_num)

end
end BFit
