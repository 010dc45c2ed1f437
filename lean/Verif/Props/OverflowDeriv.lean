import Verif.Props.RoundDeriv

/-! # C147: overflow in the derivatives in the exponents -/

namespace BFit

open Real Classical Finset

noncomputable section

variable {u τ Ω : ℝ}

/-- An operation with a result that is not large. -/
theorem Fx.step (hf : FloatFormat u τ Ω) (hΩ : 10 ^ 200 ≤ Ω) (k : ℕ) (hk : k < 200) {v : XR} {x : ℝ}
    (h : Fx u τ Ω v (.fin x)) (hx : |x| ≤ 10 ^ k) : ∃ y, v = .fin y ∧ Fu u τ y x ∧ |y| ≤ 10 ^ (k + 1) := by
  have h1 : (10 : ℝ) ^ k < 10 ^ 200 := pow_lt_pow_right₀ (by norm_num) hk
  obtain ⟨y, rfl, hy⟩ := h.fin (by linarith)
  refine ⟨y, rfl, hy, ?_⟩
  have h2 := hy.abs_err hf
  have h3 := hf.ut
  have h4 : (1 : ℝ) ≤ 10 ^ k := one_le_pow₀ (by norm_num)
  have h5 : |y| ≤ |y - x| + |x| := by
    have := abs_add_le (y - x) x
    rwa [sub_add_cancel] at this
  have h6 := mul_le_mul_of_nonneg_right hf.u1 (abs_nonneg x)
  rw [pow_succ]
  linarith

theorem abs_mul_le_pow {x y : ℝ} {a b : ℕ} (hx : |x| ≤ 10 ^ a) (hy : |y| ≤ 10 ^ b) : |x * y| ≤ 10 ^ (a + b) := by
  rw [abs_mul, pow_add]
  exact mul_le_mul hx hy (abs_nonneg _) (by positivity)

theorem abs_div_le_pow {x y : ℝ} {a : ℕ} (hx : |x| ≤ 10 ^ a) (hy : 1 / 10 ≤ y) : |x / y| ≤ 10 ^ (a + 1) := by
  rw [abs_div, abs_of_pos (by linarith : 0 < y), div_le_iff₀ (by linarith), pow_succ]
  have : (0 : ℝ) ≤ 10 ^ a := by positivity
  nlinarith

/-- The computed power of pi. -/
theorem piPow_no_overflow (hf : FloatFormat u τ Ω) {p m : XR} (hp : Fx u τ Ω p (XR.fin π))
    (hm : Fx u τ Ω m (XR.pow p (3 / 2))) :
    ∃ p' m' : ℝ, p = .fin p' ∧ m = .fin m' ∧ Fl u p' π ∧ Fu u τ m' (p' ^ (3 / 2 : ℝ)) ∧ 1 ≤ m' ∧ m' ≤ 100 := by
  have hΩ := hf.Ω1
  obtain ⟨p, rfl, hp, hp1, hp2⟩ := pi_no_overflow hf hp
  rw [XR.pow_fin_of_pos (by linarith)] at hm
  have hm1 : 9 / 5 ≤ p ^ (3 / 2 : ℝ) := by
    have := rpow_le_rpow_of_exponent_le (show 1 ≤ p by linarith) (show (1 : ℝ) ≤ 3 / 2 by norm_num)
    rw [rpow_one] at this
    linarith
  have hm2 : p ^ (3 / 2 : ℝ) ≤ 25 := by
    have := rpow_le_rpow_of_exponent_le (show 1 ≤ p by linarith) (show (3 / 2 : ℝ) ≤ 2 by norm_num)
    rw [rpow_two] at this
    nlinarith
  obtain ⟨μ, rfl, hμ⟩ := hm.fin (by rw [abs_of_pos (by linarith)]; linarith)
  refine ⟨p, μ, rfl, rfl, hp, hμ, ?_, ?_⟩
  · have h := hμ.normal (by linarith [hf.τ1])
    unfold Fl at h
    rw [abs_of_pos (show 0 < p ^ (3 / 2 : ℝ) by linarith)] at h
    have h := abs_le.mp h
    have := hf.u1
    nlinarith
  · have := hμ.le' hf (by linarith)
    linarith

theorem rpow_abs_le {e p : ℝ} (h1 : 1 / 10 ^ 13 ≤ e) (h2 : e ≤ 10 ^ 10) (hp0 : 0 ≤ p) (hp : p ≤ 5 / 2) :
    |e ^ p| ≤ 10 ^ 32 := by
  have he : 0 < e := lt_of_lt_of_le (by norm_num) h1
  rw [abs_of_pos (rpow_pos_of_pos he p)]
  have k1 := pow_le_one_add he hp0 hp
  have k2 := (pow_five_half_bounds h1 h2).2
  norm_num at *
  linarith

/-- The term of normalised functions does not overflow. -/
theorem XNormTerm.finite (hf : FloatFormat u τ Ω) (hΩ : 10 ^ 200 ≤ Ω) {isS : Bool} {e r c ρ : ℝ} {y : XR}
    (h1 : 1 / 10 ^ 13 ≤ e) (h2 : e ≤ 10 ^ 10) (hc : |c| ≤ 10 ^ 100) (hρ : Fu u τ ρ (r ^ 2))
    (hρ1 : |ρ| ≤ 10 ^ 13) (h : XNormTerm u τ Ω isS (.fin e) (.fin ρ) (.fin c) y) :
    ∃ z, y = .fin z ∧ RNormTerm u τ isS e ρ c z ∧ |z| ≤ 10 ^ 160 := by
  have he : 0 < e := lt_of_lt_of_le (by norm_num) h1
  have hu1 : u < 1 := by linarith [hf.u1]
  have hρ0 : 0 ≤ ρ := hρ.nonneg hf.u0 hu1 (sq_nonneg r)
  have hea : |e| ≤ 10 ^ 10 := by rwa [abs_of_pos he]
  obtain ⟨a, E, p, m, ha, hE, hp, hm, h⟩ := h
  have ha : Fx u τ Ω a (.fin (-e * ρ)) := ha
  obtain ⟨α, rfl, hα, -⟩ := ha.step hf hΩ 23 (by norm_num) (abs_mul_le_pow (a := 10) (by rwa [abs_neg]) hρ1)
  have hE : Fx u τ Ω E (.fin (exp α)) := hE
  have hα0 : α ≤ 0 := by
    have hq : 0 ≤ e * ρ := by positivity
    rcases hα with h | ⟨h, _, _, h'⟩
    · unfold Fl at h
      rw [abs_of_nonpos (by linarith : -e * ρ ≤ 0)] at h
      have := (abs_le.mp h).2
      nlinarith
    · have : -e * ρ < 0 := lt_of_le_of_ne (by linarith) (abs_pos.mp h)
      nlinarith
  obtain ⟨ε, rfl, hε, hε1⟩ := hE.step hf hΩ 0 (by norm_num) (by
    rw [abs_of_pos (exp_pos _), pow_zero]; exact exp_le_one_iff.mpr hα0)
  obtain ⟨p, m, rfl, rfl, hp, hm, hm1, hm2⟩ := piPow_no_overflow hf hp hm
  cases isS with
  | true =>
    simp only [if_true] at h
    obtain ⟨b, s, w, x, hb, hs, hw, hx, hy⟩ := h
    have hb : Fx u τ Ω b (.fin (3 / 2 * ε)) := hb
    obtain ⟨b, rfl, hb, hb1⟩ := hb.step hf hΩ 2 (by norm_num)
      (abs_mul_le_pow (a := 1) (by rw [abs_of_pos] <;> norm_num) hε1)
    rw [XR.pow_fin_of_pos he] at hs
    obtain ⟨s, rfl, hs, hs1⟩ := hs.step hf hΩ 32 (by norm_num) (rpow_abs_le h1 h2 (by norm_num) (by norm_num))
    have hw : Fx u τ Ω w (.fin (c * s)) := hw
    obtain ⟨w, rfl, hw, hw1⟩ := hw.step hf hΩ 133 (by norm_num) (abs_mul_le_pow hc hs1)
    have hx : Fx u τ Ω x (.fin (b * w)) := hx
    obtain ⟨x, rfl, hx, hx1⟩ := hx.step hf hΩ 137 (by norm_num) (abs_mul_le_pow hb1 hw1)
    rw [XR.div_fin_of_ne _ (by linarith)] at hy
    obtain ⟨y, rfl, hy, hy1⟩ := hy.step hf hΩ 139 (by norm_num) (abs_div_le_pow hx1 (by linarith))
    refine ⟨y, rfl, ⟨α, ε, p, m, hα, hε, hp, hm, ?_⟩, hy1.trans (pow_le_pow_right₀ (by norm_num) (by norm_num))⟩
    rw [if_pos rfl]
    exact ⟨b, s, w, x, hb, hs, hw, hx, hy⟩
  | false =>
    simp only [Bool.false_eq_true, if_false] at h
    obtain ⟨g, b, s, w, x, d, hg, hb, hs, hw, hx, hd, hy⟩ := h
    have hg : Fx u τ Ω g (.fin (ε * ρ)) := hg
    obtain ⟨g, rfl, hg, hg1⟩ := hg.step hf hΩ 14 (by norm_num) (abs_mul_le_pow hε1 hρ1)
    have hb : Fx u τ Ω b (.fin (5 * g)) := hb
    obtain ⟨b, rfl, hb, hb1⟩ := hb.step hf hΩ 16 (by norm_num)
      (abs_mul_le_pow (a := 1) (by rw [abs_of_pos] <;> norm_num) hg1)
    rw [XR.pow_fin_of_pos he] at hs
    obtain ⟨s, rfl, hs, hs1⟩ := hs.step hf hΩ 32 (by norm_num) (rpow_abs_le h1 h2 (by norm_num) (by norm_num))
    have hw : Fx u τ Ω w (.fin (c * s)) := hw
    obtain ⟨w, rfl, hw, hw1⟩ := hw.step hf hΩ 133 (by norm_num) (abs_mul_le_pow hc hs1)
    have hx : Fx u τ Ω x (.fin (b * w)) := hx
    obtain ⟨x, rfl, hx, hx1⟩ := hx.step hf hΩ 151 (by norm_num) (abs_mul_le_pow hb1 hw1)
    have hd : Fx u τ Ω d (.fin (3 * m)) := hd
    obtain ⟨d, rfl, hd, -⟩ := hd.step hf hΩ 3 (by norm_num) (by rw [abs_of_pos (by linarith)]; norm_num; linarith)
    have hd1 : 1 / 10 ≤ d := by
      have h := hd.normal (by linarith [hf.τ1])
      unfold Fl at h
      rw [abs_of_pos (by linarith : 0 < 3 * m)] at h
      have h := (abs_le.mp h).1
      have := mul_le_mul_of_nonneg_right hf.u1 (by linarith : 0 ≤ 3 * m)
      linarith
    rw [XR.div_fin_of_ne _ (by linarith)] at hy
    obtain ⟨y, rfl, hy, hy1⟩ := hy.step hf hΩ 153 (by norm_num) (abs_div_le_pow hx1 hd1)
    refine ⟨y, rfl, ⟨α, ε, p, m, hα, hε, hp, hm, ?_⟩, hy1.trans (pow_le_pow_right₀ (by norm_num) (by norm_num))⟩
    rw [if_neg (by decide)]
    exact ⟨g, b, s, w, x, d, hg, hb, hs, hw, hx, hd, hy⟩

/-- **C147.**  In a format that reaches `10²⁰⁰` the derivatives do not overflow for exponents from `10⁻¹³` to `10¹⁰`,
distances up to `10⁶` and coefficients up to `10¹⁰⁰`, and they are results of the operations without overflow. -/
theorem C147_finite (hf : FloatFormat u τ Ω) (hΩ : 10 ^ 200 ≤ Ω) (isS norm : Bool) (e r c : ℝ) (v : XR)
    (h1 : 1 / 10 ^ 13 ≤ e) (h2 : e ≤ 10 ^ 10) (hr : |r| ≤ 10 ^ 6) (hc : |c| ≤ 10 ^ 100)
    (h : XDeriv u τ Ω isS norm (.fin e) (.fin r) (.fin c) v) : ∃ y, v = .fin y ∧ RDeriv u τ isS norm e r c y := by
  have he : 0 < e := lt_of_lt_of_le (by norm_num) h1
  have hu1 : u < 1 := by linarith [hf.u1]
  have heΩ : 1 ≤ e ^ 2 * Ω := by
    have := mul_le_mul (pow_le_pow_left₀ (by norm_num) h1 2) hΩ (by norm_num) (by positivity)
    refine le_trans ?_ this
    norm_num
  have heΩ' : e ^ (5 / 2 : ℝ) ≤ Ω / 16 := by
    refine (pow_five_half_bounds h1 h2).2.trans ?_
    rw [le_div_iff₀ (by norm_num)]
    refine le_trans ?_ hΩ
    norm_num
  have hr2 : |r ^ 2| ≤ 10 ^ 12 := by
    have := abs_mul_le_pow hr hr
    rwa [← pow_two] at this
  obtain ⟨r2, a, E, φ, q, t, hρ, ha, hE, hφ, hq, ht, h⟩ := h
  rw [XR.pow_fin_two] at hρ
  obtain ⟨ρ, rfl, hρ, hρ1⟩ := hρ.step hf hΩ 12 (by norm_num) hr2
  obtain ⟨ρ', α, ε, hρ', rfl, -, hα, hε⟩ := gauss_no_overflow (r := r) hf he heΩ (r2 := .fin ρ) (by
    rw [XR.pow_fin_two]
    refine .inl ⟨?_, ρ, rfl, hρ⟩
    have : (10 : ℝ) ^ 12 < 10 ^ 200 := pow_lt_pow_right₀ (by norm_num) (by norm_num)
    linarith [abs_nonneg (r ^ 2)]) ha hE
  have hρρ : ρ' = ρ := by
    rcases hρ' with h | h
    · exact (XR.fin.inj h).symm
    · have : (10 : ℝ) ^ 12 < 10 ^ 200 := pow_lt_pow_right₀ (by norm_num) (by norm_num)
      have := le_abs_self (r ^ 2)
      linarith
  subst hρρ
  obtain ⟨y, rfl, hy, hy0, hy1⟩ : ∃ y, φ = .fin y ∧ RValue u τ isS norm e ρ' ε y ∧ 0 ≤ y ∧ y ≤ gaussBound e := by
    obtain ⟨_, hε0, hε1, hερ⟩ := gauss_bounds hf he hρ hα hε
    have hei : 0 < 3 / e := by positivity
    have hq0 : 0 < e ^ (5 / 2 : ℝ) := rpow_pos_of_pos he _
    unfold XValue at hφ
    unfold RValue
    cases isS with
    | true =>
      simp only [if_true] at hφ ⊢
      cases norm with
      | false =>
        simp only [Bool.false_eq_true, if_false] at hφ ⊢
        refine ⟨ε, hφ, rfl, hε0, ?_⟩
        unfold gaussBound
        linarith
      | true =>
        simp only [if_true] at hφ ⊢
        obtain ⟨p, d, n, hp, hd, hn, hv⟩ := hφ
        obtain ⟨p, d, n, y, rfl, k1, k2, k3, k4, k5⟩ := sNorm_no_overflow hf he heΩ' hε0 hε1 hp hd hn hv
        exact ⟨y, rfl, ⟨p, d, n, k1, k2, k3, k4⟩, k5⟩
    | false =>
      simp only [Bool.false_eq_true, if_false] at hφ ⊢
      have hερ := hερ (by
        have h3 := le_abs_self (r ^ 2)
        rw [le_div_iff₀ (by norm_num)]
        have : (10 : ℝ) ^ 12 * 2 ≤ 10 ^ 200 := by norm_num
        linarith)
      obtain ⟨g, hg, hφ⟩ := hφ
      have hg : Fx u τ Ω g (.fin (ε * ρ')) := hg
      have hρ0 : 0 ≤ ρ' := hρ.nonneg hf.u0 hu1 (sq_nonneg r)
      have hg0 : 0 ≤ ε * ρ' := by positivity
      obtain ⟨γ, rfl, hγ, -⟩ := hg.step hf hΩ 14 (by norm_num)
        (abs_mul_le_pow (a := 1) (by rw [abs_of_nonneg hε0]; linarith) hρ1)
      have hγ0 := hγ.nonneg hf.u0 hu1 hg0
      have hγ1 : γ ≤ 7 / 5 / e + 5 / 4 := by
        have h1 := hγ.le' hf hg0
        have h2 : 11 / 10 * (5 / 4 / e) ≤ 7 / 5 / e := by
          rw [show 11 / 10 * (5 / 4 / e) = 11 / 8 / e by ring]
          exact div_le_div_of_nonneg_right (by norm_num) he.le
        linarith
      have h7 : 7 / 5 / e ≤ 3 / e := div_le_div_of_nonneg_right (by norm_num) he.le
      cases norm with
      | false =>
        simp only [Bool.false_eq_true, if_false] at hφ ⊢
        refine ⟨γ, hφ, ⟨γ, hγ, rfl⟩, hγ0, ?_⟩
        unfold gaussBound
        linarith
      | true =>
        simp only [if_true] at hφ ⊢
        obtain ⟨p, n, m, d, k, hp, hn, hm, hd, hk, hv⟩ := hφ
        obtain ⟨p, n, m, d, k, y, rfl, k1, k2, k3, k4, k5, k6, k7⟩ :=
          pNorm_no_overflow hf he heΩ heΩ' hγ0 hγ1 hp hn hm hd hk hv
        exact ⟨y, rfl, ⟨γ, hγ, p, n, m, d, k, k1, k2, k3, k4, k5, k6⟩, k7⟩
  have hyb : |y| ≤ 10 ^ 33 := by
    rw [abs_of_nonneg hy0]
    refine hy1.trans ?_
    have k1 := (pow_five_half_bounds h1 h2).2
    have k2 : 3 / e ≤ 3 * 10 ^ 13 := by
      rw [div_le_iff₀ he]
      norm_num at h1 ⊢
      linarith
    unfold gaussBound
    norm_num at *
    linarith
  have hq : Fx u τ Ω q (.fin (-y * ρ')) := hq
  obtain ⟨q, rfl, hq, hq1⟩ := hq.step hf hΩ 46 (by norm_num) (abs_mul_le_pow (a := 33) (by rwa [abs_neg]) hρ1)
  have ht : Fx u τ Ω t (.fin (q * c)) := ht
  obtain ⟨t, rfl, ht, ht1⟩ := ht.step hf hΩ 147 (by norm_num) (abs_mul_le_pow hq1 hc)
  cases norm with
  | false =>
    simp only [Bool.false_eq_true, if_false] at h
    exact ⟨t, h, ρ', α, ε, y, q, t, hρ, hα, hε, hy, hq, ht, by simp⟩
  | true =>
    simp only [if_true] at h
    obtain ⟨z, hz, hv⟩ := h
    obtain ⟨z, rfl, hz, hz1⟩ := hz.finite hf hΩ h1 h2 hc hρ hρ1
    have hv : Fx u 0 Ω v (.fin (t + z)) := hv
    have hsum : |t + z| < Ω := by
      refine lt_of_lt_of_le (lt_of_le_of_lt ((abs_add_le t z).trans (add_le_add ht1 hz1)) ?_) hΩ
      norm_num
    obtain ⟨w, rfl, hw⟩ := hv.fin hsum
    exact ⟨w, rfl, ρ', α, ε, y, q, t, hρ, hα, hε, hy, hq, ht, by
      rw [if_pos rfl]; exact ⟨z, hz, fl_of_fu_zero hw⟩⟩

/-- **C147.**  Double precision with overflow: for exponents from `10⁻¹³` to `10¹⁰`, distances up to `10⁶` and
coefficients up to `10¹⁰⁰` the derivatives in the exponents are finite and right up to `2⁻⁴⁸` times a bound of the
derivative, and `2⁻⁸⁰⁰`. -/
theorem C147_double (isS norm : Bool) (e r c : ℝ) (v : XR) (h1 : 1 / 10 ^ 13 ≤ e) (h2 : e ≤ 10 ^ 10)
    (hr : |r| ≤ 10 ^ 6) (hc : |c| ≤ 10 ^ 100)
    (h : XDeriv (1 / 2 ^ 53) (1 / 2 ^ 1022) (2 ^ 1023) isS norm (.fin e) (.fin r) (.fin c) v) :
    ∃ y D : ℝ, v = .fin y ∧ HasDerivAt (fun a => c * bf isS norm a r) D e ∧
      |y - D| ≤ 1 / 2 ^ 48 * (|c| * gaussDPeak isS norm e) + 1 / 2 ^ 800 * (|c| + 1) := by
  obtain ⟨y, rfl, hy⟩ := C147_finite C144_double (by
    have h1 : (10 : ℝ) ^ 200 ≤ (2 ^ 4) ^ 200 := pow_le_pow_left₀ (by norm_num) (by norm_num) 200
    rw [← pow_mul] at h1
    exact h1.trans (pow_le_pow_right₀ (by norm_num) (by norm_num))) isS norm e r c v h1 h2 hr hc h
  obtain ⟨D, hD⟩ := deriv_double isS norm e r c y h1 h2 hr hy
  exact ⟨y, D, rfl, hD⟩

/-- **C147.**  Far away: if the squared distance overflows, the derivative of every function with a positive exponent is
nan (zero times infinity), though the exact derivative is zero or tiny; the value of s-type functions is finite there
(`C144_basis`). -/
theorem C147_far (hΩ : 0 < Ω) (isS norm : Bool) (e r : ℝ) (c v : XR) (he : 0 < e) (hr : 2 * Ω ≤ r ^ 2)
    (h : XDeriv u τ Ω isS norm (.fin e) (.fin r) c v) : v = .nan := by
  obtain ⟨r2, a, E, φ, q, t, h1, h2, h3, hφ, hq, ht, h⟩ := h
  have := sq_overflow hΩ hr h1
  subst this
  have e2 : -(XR.fin e) * XR.pinf = .ninf := by
    show XR.sgnInf (-e) = _
    rw [XR.sgnInf, if_neg (by linarith), if_pos (by linarith)]
  rw [e2] at h2
  have h2 : a = .ninf := h2
  subst h2
  have hE : E = .fin 0 := Fx.zero hΩ h3
  subst hE
  have e3 : XR.fin 0 * XR.pinf = .nan := by
    show XR.sgnInf 0 = _
    simp [XR.sgnInf]
  have hq' : -φ * XR.pinf = .nan := by
    have hφ' : φ = .fin 0 ∨ φ = .nan := by
      unfold XValue at hφ
      cases isS with
      | true =>
        rw [if_pos rfl] at hφ
        cases norm with
        | true =>
          rw [if_pos rfl] at hφ
          obtain ⟨p, d, n, _, _, _, hv⟩ := hφ
          cases n with
          | fin x =>
            have hv : Fx u τ Ω φ (.fin (0 * x)) := hv
            rw [zero_mul] at hv
            exact .inl (Fx.zero hΩ hv)
          | pinf => rw [e3] at hv; exact .inr hv
          | ninf =>
            have e4 : XR.fin 0 * XR.ninf = .nan := by
              show XR.sgnInf (-0) = _
              simp [XR.sgnInf]
            rw [e4] at hv; exact .inr hv
          | nan => rw [XR.mul_nan] at hv; exact .inr hv
        | false =>
          rw [if_neg (by decide)] at hφ
          exact .inl hφ
      | false =>
        rw [if_neg (by decide)] at hφ
        obtain ⟨g, hg, hφ⟩ := hφ
        rw [e3] at hg
        have hg : g = .nan := hg
        subst hg
        cases norm with
        | true =>
          rw [if_pos rfl] at hφ
          obtain ⟨p, n, m, d, k, _, _, _, _, hk, hv⟩ := hφ
          rw [XR.nan_mul] at hk
          have hk : k = .nan := hk
          subst hk
          exact .inr hv
        | false =>
          rw [if_neg (by decide)] at hφ
          exact .inr hφ
    rcases hφ' with rfl | rfl
    · show XR.sgnInf (-0) = _
      simp [XR.sgnInf]
    · rfl
  rw [hq'] at hq
  have hq : q = .nan := hq
  subst hq
  rw [XR.nan_mul] at ht
  have ht : t = .nan := ht
  subst ht
  cases norm with
  | true =>
    rw [if_pos rfl] at h
    obtain ⟨y, _, hv⟩ := h
    rw [XR.nan_add] at hv
    exact hv
  | false =>
    rw [if_neg (by decide)] at h
    exact h

/-- Executions exist, so the theorems are not vacuous. -/
theorem C147_total (h0 : 0 ≤ u) (isS norm : Bool) (e r c : XR) : ∃ v, XDeriv u τ Ω isS norm e r c v := by
  have T := fun x => Fx.total (τ := τ) (Ω := Ω) h0 x
  obtain ⟨r2, h1⟩ := T (XR.pow r 2)
  obtain ⟨a, h2⟩ := T (-e * r2)
  obtain ⟨E, h3⟩ := T (XR.exp a)
  obtain ⟨p, hp⟩ := T (.fin π)
  obtain ⟨m, hm⟩ := T (XR.pow p (3 / 2))
  have hv : ∃ φ, XValue u τ Ω isS norm e r2 E φ := by
    unfold XValue
    cases isS with
    | true =>
      cases norm with
      | true =>
        obtain ⟨d, hd⟩ := T (e / p)
        obtain ⟨n, hn⟩ := T (XR.pow d (3 / 2))
        obtain ⟨v, hv⟩ := T (E * n)
        exact ⟨v, p, d, n, hp, hd, hn, hv⟩
      | false => exact ⟨E, rfl⟩
    | false =>
      obtain ⟨g, hg⟩ := T (E * r2)
      cases norm with
      | true =>
        obtain ⟨n, hn⟩ := T (XR.pow e (5 / 2))
        obtain ⟨d, hd⟩ := T (n / m)
        obtain ⟨k, hk⟩ := T (g * d)
        obtain ⟨v, hv⟩ := T (k / .fin (3 / 2))
        exact ⟨v, g, hg, p, n, m, d, k, hp, hn, hm, hd, hk, hv⟩
      | false => exact ⟨g, g, hg, rfl⟩
  have hy : ∃ y, XNormTerm u τ Ω isS e r2 c y := by
    cases isS with
    | true =>
      obtain ⟨b, hb⟩ := T (.fin (3 / 2) * E)
      obtain ⟨s, hs⟩ := T (XR.pow e (1 / 2))
      obtain ⟨w, hw⟩ := T (c * s)
      obtain ⟨x, hx⟩ := T (b * w)
      obtain ⟨y, hy⟩ := T (x / m)
      exact ⟨y, a, E, p, m, h2, h3, hp, hm, b, s, w, x, hb, hs, hw, hx, hy⟩
    | false =>
      obtain ⟨g, hg⟩ := T (E * r2)
      obtain ⟨b, hb⟩ := T (.fin 5 * g)
      obtain ⟨s, hs⟩ := T (XR.pow e (3 / 2))
      obtain ⟨w, hw⟩ := T (c * s)
      obtain ⟨x, hx⟩ := T (b * w)
      obtain ⟨d, hd⟩ := T (.fin 3 * m)
      obtain ⟨y, hy⟩ := T (x / d)
      exact ⟨y, a, E, p, m, h2, h3, hp, hm, g, b, s, w, x, d, hg, hb, hs, hw, hx, hd, hy⟩
  obtain ⟨φ, hφ⟩ := hv
  obtain ⟨y, hy⟩ := hy
  obtain ⟨q, hq⟩ := T (-φ * r2)
  obtain ⟨t, ht⟩ := T (q * c)
  cases norm with
  | true =>
    obtain ⟨v, hv⟩ := Fx.total (τ := 0) (Ω := Ω) h0 (t + y)
    exact ⟨v, r2, a, E, φ, q, t, h1, h2, h3, hφ, hq, ht, y, hy, hv⟩
  | false => exact ⟨t, r2, a, E, φ, q, t, h1, h2, h3, hφ, hq, ht, rfl⟩

/-- In double precision the derivative of an s-type function with exponent 2 is nan at the distance `10²⁰⁰`. -/
example : ∃ v, XDeriv (1 / 2 ^ 53) (1 / 2 ^ 1022) (2 ^ 1023) true true (.fin 2) (.fin (10 ^ 200)) (.fin 1) v ∧ v = .nan := by
  obtain ⟨v, hv⟩ := C147_total (τ := 1 / 2 ^ 1022) (Ω := 2 ^ 1023) (by positivity : (0 : ℝ) ≤ 1 / 2 ^ 53) true true
    (.fin 2) (.fin (10 ^ 200)) (.fin 1)
  refine ⟨v, hv, C147_far (by positivity) true true 2 (10 ^ 200) _ v (by norm_num) ?_ hv⟩
  have h1 : ((2 : ℝ) ^ 3) ^ 400 ≤ 10 ^ 400 := pow_le_pow_left₀ (by norm_num) (by norm_num) 400
  rw [← pow_mul] at h1
  rw [← pow_mul, ← pow_succ']
  exact (pow_le_pow_right₀ (by norm_num) (by norm_num)).trans h1

/-- A normalised p-type function of exponent 2 with coefficient -3 in double precision, at distance 1/2. -/
example : ∃ y D : ℝ, XDeriv (1 / 2 ^ 53) (1 / 2 ^ 1022) (2 ^ 1023) false true (.fin 2) (.fin (1 / 2)) (.fin (-3)) (.fin y) ∧
    HasDerivAt (fun a => -3 * bf false true a (1 / 2)) D 2 ∧
    |y - D| ≤ 1 / 2 ^ 48 * (|-3| * gaussDPeak false true 2) + 1 / 2 ^ 800 * (|-3| + 1) := by
  obtain ⟨v, hv⟩ := C147_total (τ := 1 / 2 ^ 1022) (Ω := 2 ^ 1023) (by positivity : (0 : ℝ) ≤ 1 / 2 ^ 53) false true
    (.fin 2) (.fin (1 / 2)) (.fin (-3))
  obtain ⟨y, D, rfl, hD⟩ := C147_double false true 2 (1 / 2) (-3) v (by norm_num) (by norm_num)
    (by rw [abs_of_pos] <;> norm_num) (by rw [abs_neg, abs_of_pos] <;> norm_num) hv
  exact ⟨y, D, hv, hD⟩

end
end BFit
