import Verif.Props.Overflow

/-! # C145: accuracy of `evaluate` at all points -/

namespace BFit

open Real Classical Finset

noncomputable section

variable {u τ Ω : ℝ}

theorem mul_exp_neg_le_half {y : ℝ} (hy : 0 ≤ y) : y * exp (-y) ≤ 1 / 2 := by
  have h := Real.quadratic_le_exp_of_nonneg hy
  have e : exp y * exp (-y) = 1 := by rw [← exp_add]; simp
  have h2 : 2 * y ≤ exp y := by nlinarith [sq_nonneg (y - 1)]
  nlinarith [mul_le_mul_of_nonneg_right h2 (exp_pos (-y)).le]

theorem sq_mul_exp_neg_le_one {y : ℝ} (hy : 0 ≤ y) : y ^ 2 * exp (-y) ≤ 1 := by
  have h := mul_exp_neg_le_half (y := y / 2) (by linarith)
  have h0 : 0 ≤ y / 2 * exp (-(y / 2)) := by positivity
  have e : exp (-y) = exp (-(y / 2)) * exp (-(y / 2)) := by rw [← exp_add]; congr 1; ring
  rw [e]
  nlinarith

/-- The exponential of a number with a relative error. -/
theorem exp_rel_err (h0 : 0 ≤ u) (hu : u ≤ 1 / 10) {a x : ℝ} (hx : 0 ≤ x) (h : |a - x| ≤ u * x) :
    |exp (-a) - exp (-x)| ≤ u * (5 / 9) ∧ x * |exp (-a) - exp (-x)| ≤ u * (5 / 4) := by
  have ha := abs_le.mp h
  have hm : 9 / 10 * x ≤ a := by nlinarith
  have hb : |exp (-a) - exp (-x)| ≤ u * x * exp (-(9 / 10 * x)) := by
    have h1 := exp_neg_lipschitz (a := a - 9 / 10 * x) (b := x - 9 / 10 * x) (by linarith) (by linarith)
    have e1 : exp (-a) = exp (-(9 / 10 * x)) * exp (-(a - 9 / 10 * x)) := by rw [← exp_add]; congr 1; ring
    have e2 : exp (-x) = exp (-(9 / 10 * x)) * exp (-(x - 9 / 10 * x)) := by rw [← exp_add]; congr 1; ring
    rw [e1, e2, ← mul_sub, abs_mul, abs_of_pos (exp_pos _), mul_comm]
    refine mul_le_mul_of_nonneg_right (h1.trans ?_) (exp_pos _).le
    rwa [show a - 9 / 10 * x - (x - 9 / 10 * x) = a - x by ring]
  have h2 := mul_exp_neg_le_half (y := 9 / 10 * x) (by linarith)
  have h3 := sq_mul_exp_neg_le_one (y := 9 / 10 * x) (by linarith)
  generalize exp (-(9 / 10 * x)) = E at *
  constructor
  · refine hb.trans ?_
    rw [mul_assoc]
    exact mul_le_mul_of_nonneg_left (by linarith) h0
  · refine (mul_le_mul_of_nonneg_left hb hx).trans ?_
    rw [show x * (u * x * E) = u * (x ^ 2 * E) by ring]
    exact mul_le_mul_of_nonneg_left (by nlinarith) h0

/-- The absolute error of an operation. -/
theorem Fu.abs_err (hf : FloatFormat u τ Ω) {v x : ℝ} (h : Fu u τ v x) : |v - x| ≤ u * |x| + u * τ := by
  have h3 := mul_nonneg hf.u0 hf.τ0.le
  have h4 := mul_nonneg hf.u0 (abs_nonneg x)
  rcases h with h | ⟨_, _, h, _⟩
  · unfold Fl at h; linarith
  · linarith

/-- Errors of the Gaussian and of the Gaussian times the squared distance. -/
theorem gauss_near (hf : FloatFormat u τ Ω) {e r ρ α ε : ℝ} (he : 0 < e) (hr : Fu u τ ρ (r ^ 2))
    (ha : Fu u τ α (-e * ρ)) (hE : Fu u τ ε (exp α)) :
    |ε - exp (-(e * r ^ 2))| ≤ 3 * u + u * τ * (2 + e) ∧
    |ε * ρ - r ^ 2 * exp (-(e * r ^ 2))| ≤ 5 * (u / e) + u * τ * (3 * r ^ 2 + 2 * e + 2) := by
  have hu0 := hf.u0
  have hu1 := hf.u1
  have hw := mul_nonneg hf.u0 hf.τ0.le
  have hw1 := hf.ut
  have hx0 : 0 ≤ r ^ 2 := sq_nonneg r
  have hρ0 : 0 ≤ ρ := hr.nonneg hu0 (by linarith) hx0
  have hρ1 := hr.le' hf hx0
  have hρ2 := hr.le hf hx0
  generalize r ^ 2 = x at *
  have hy0 : 0 ≤ e * ρ := by positivity
  have hex0 : 0 ≤ e * x := by positivity
  have hue : 0 ≤ u / e := by positivity
  -- the argument of the exponential
  have hα0 : α ≤ 0 := by
    rcases ha with h | ⟨h, _, _, h'⟩
    · unfold Fl at h
      rw [abs_of_nonpos (by linarith : -e * ρ ≤ 0)] at h
      have := (abs_le.mp h).2
      nlinarith
    · have : -e * ρ < 0 := lt_of_le_of_ne (by linarith) (abs_pos.mp h)
      nlinarith
  have he1 : exp α ≤ 1 := exp_le_one_iff.mpr hα0
  -- error of exp
  have d1 : |ε - exp α| ≤ u * exp α + u * τ := by
    have := hE.abs_err hf
    rwa [abs_of_pos (exp_pos α)] at this
  -- error of the product
  have d2 : |exp α - exp (-(e * ρ))| ≤ u * (5 / 9) + u * τ ∧
      ρ * |exp α - exp (-(e * ρ))| ≤ u / e * (5 / 4) + u * τ * ρ := by
    rcases ha with h | ⟨_, _, h, _⟩
    · unfold Fl at h
      rw [abs_of_nonpos (by linarith : -e * ρ ≤ 0)] at h
      obtain ⟨k1, k2⟩ := exp_rel_err hu0 hu1 (a := -α) (x := e * ρ) hy0 (by
        rw [abs_sub_comm, show e * ρ - -α = α - -e * ρ by ring]; linarith)
      rw [neg_neg] at k1 k2
      refine ⟨by linarith, ?_⟩
      have : ρ * |exp α - exp (-(e * ρ))| ≤ u / e * (5 / 4) := by
        rw [div_mul_eq_mul_div, le_div_iff₀ he]
        linarith
      have := mul_nonneg hw hρ0
      linarith
    · have k := exp_neg_lipschitz (a := -α) (b := e * ρ) (by linarith) hy0
      rw [neg_neg, abs_sub_comm (-α), show e * ρ - -α = α - -e * ρ by ring] at k
      have k := k.trans h
      refine ⟨by linarith, ?_⟩
      have := mul_le_mul_of_nonneg_left k hρ0
      linarith
  -- error of the squared distance
  have d3 : |exp (-(e * ρ)) - exp (-(e * x))| ≤ u * (5 / 9) + u * τ * e ∧
      ρ * |exp (-(e * ρ)) - exp (-(e * x))| ≤ u / e * (7 / 5) + u * τ * (2 * e) := by
    rcases hr with h | ⟨_, ht, h, _⟩
    · unfold Fl at h
      rw [abs_of_nonneg hx0] at h
      obtain ⟨k1, k2⟩ := exp_rel_err hu0 hu1 (a := e * ρ) (x := e * x) hex0 (by
        rw [← mul_sub, abs_mul, abs_of_pos he]
        have := mul_le_mul_of_nonneg_left h he.le
        linarith)
      have hwe := mul_nonneg hw he.le
      refine ⟨by linarith, ?_⟩
      have hρx : ρ ≤ 11 / 10 * x := by
        have := (abs_le.mp h).2
        nlinarith
      have h3 := mul_le_mul_of_nonneg_right hρx (abs_nonneg (exp (-(e * ρ)) - exp (-(e * x))))
      have : 11 / 10 * x * |exp (-(e * ρ)) - exp (-(e * x))| ≤ u / e * (7 / 5) := by
        rw [show u / e * (7 / 5) = u * (7 / 5) / e by ring, le_div_iff₀ he]
        linarith
      linarith
    · have k := exp_neg_lipschitz (a := e * ρ) (b := e * x) hy0 hex0
      rw [← mul_sub, abs_mul, abs_of_pos he] at k
      have k := k.trans (mul_le_mul_of_nonneg_left h he.le)
      refine ⟨by linarith, ?_⟩
      rw [abs_of_nonneg hx0] at ht
      have hρ3 : ρ ≤ 2 := by
        have := hf.τ1
        linarith
      have := mul_le_mul hρ3 k (abs_nonneg _) (by norm_num)
      linarith
  set G := exp (-(e * x)) with hG
  have hG0 : 0 < G := exp_pos _
  have hG1 : G ≤ 1 := exp_le_one_iff.mpr (by linarith)
  have tri : |ε - G| ≤ |ε - exp α| + |exp α - exp (-(e * ρ))| + |exp (-(e * ρ)) - G| := by
    have t1 := abs_add_le (ε - exp α) (exp α - exp (-(e * ρ)))
    have t2 := abs_add_le (ε - exp (-(e * ρ))) (exp (-(e * ρ)) - G)
    rw [sub_add_sub_cancel] at t1 t2
    linarith
  have hu1e := mul_le_mul_of_nonneg_left he1 hu0
  refine ⟨by linarith [d2.1, d3.1], ?_⟩
  -- the product with the squared distance
  have b1 : ρ * |ε - exp α| ≤ u / e * (10 / 9) + u * τ * ρ := by
    have k1 := mul_le_mul_of_nonneg_left d1 hρ0
    have k2 : exp α * ρ ≤ 10 / 9 / e := by
      rcases ha with h | ⟨h, ht, _, h'⟩
      · unfold Fl at h
        rw [abs_of_nonpos (by linarith : -e * ρ ≤ 0)] at h
        have h := (abs_le.mp h).2
        have h9 : α ≤ -(9 / 10 * (e * ρ)) := by nlinarith
        have h10 := exp_le_exp.mpr h9
        have h11 := mul_exp_neg_le_one (9 / 10 * (e * ρ))
        rw [le_div_iff₀ he]
        have h12 := mul_le_mul_of_nonneg_right h10 hy0
        nlinarith
      · have hn : -e * ρ < 0 := lt_of_le_of_ne (by linarith) (abs_pos.mp h)
        rw [abs_of_neg hn] at ht
        rw [le_div_iff₀ he]
        have := mul_le_mul_of_nonneg_right he1 hy0
        nlinarith [hf.τ1]
    have k3 := mul_le_mul_of_nonneg_left k2 hu0
    rw [show u * (10 / 9 / e) = u / e * (10 / 9) by ring] at k3
    linarith
  have b2 : |ρ - x| * G ≤ u / e * (1 / 2) + u * τ := by
    have k1 := hr.abs_err hf
    rw [abs_of_nonneg hx0] at k1
    have k2 := mul_le_mul_of_nonneg_right k1 hG0.le
    have k3 := mul_exp_neg_le_half hex0
    rw [← hG] at k3
    have k4 : u * x * G ≤ u / e * (1 / 2) := by
      rw [div_mul_eq_mul_div, le_div_iff₀ he]
      have := mul_le_mul_of_nonneg_left k3 hu0
      linarith
    have k5 := mul_le_mul_of_nonneg_left hG1 hw
    linarith
  have e1 : ε * ρ - x * G = ρ * (ε - G) + (ρ - x) * G := by ring
  have b3 : |ε * ρ - x * G| ≤ ρ * |ε - G| + |ρ - x| * G := by
    rw [e1]
    refine (abs_add_le _ _).trans ?_
    rw [abs_mul, abs_mul, abs_of_nonneg hρ0, abs_of_pos hG0]
  have b4 := mul_le_mul_of_nonneg_left tri hρ0
  have b5 : u * τ * ρ ≤ u * τ * (11 / 10 * x + 1 / 1000) := mul_le_mul_of_nonneg_left hρ1 hw
  have b6 := d2.2
  have b7 := d3.2
  have b8 := mul_nonneg hw hx0
  linarith

/-- The normalisation of a basis function, or one. -/
def gaussFactor (isS norm : Bool) (e : ℝ) : ℝ :=
  if norm then (if isS then (e / π) ^ (3 / 2 : ℝ) else 2 * e ^ (5 / 2 : ℝ) / (3 * π ^ (3 / 2 : ℝ))) else 1

/-- A bound of the values of a basis function. -/
def gaussPeak (isS norm : Bool) (e : ℝ) : ℝ := gaussFactor isS norm e * (if isS then 1 else 1 / e)

/-- The size of the errors by underflow, in multiples of the smallest positive number. -/
def gaussTail (isS norm : Bool) (e r : ℝ) : ℝ :=
  gaussFactor isS norm e * (if isS then 2 + e else 3 * r ^ 2 + 2 * e + 3) + 2

theorem inv_pow_ge (h0 : 0 ≤ u) (h1 : u < 1) (k : ℕ) : 1 + k * u ≤ 1 / (1 - u) ^ k := by
  rw [le_div_iff₀ (pow_pos (by linarith) k)]
  induction k with
  | zero => simp
  | succ k ih =>
    have hp : 0 < (1 - u) ^ k := pow_pos (by linarith) k
    have hk : (0 : ℝ) ≤ k := Nat.cast_nonneg k
    rw [pow_succ]
    push_cast
    have : (1 + (k + 1) * u) * (1 - u) ≤ 1 + k * u := by nlinarith [mul_nonneg hk (mul_nonneg h0 h0), mul_nonneg h0 h0]
    calc (1 + (k + 1) * u) * ((1 - u) ^ k * (1 - u)) = ((1 + (k + 1) * u) * (1 - u)) * (1 - u) ^ k := by ring
      _ ≤ (1 + k * u) * (1 - u) ^ k := mul_le_mul_of_nonneg_right this hp.le
      _ ≤ 1 := ih

/-- An absolute error as an error of the top. -/
theorem NearTop.of_abs (h0 : 0 ≤ u) (h1 : u < 1) {k : ℕ} {a b B d : ℝ} (hb : |b| ≤ B) (hd : 0 ≤ d)
    (h : |a - b| ≤ k * u * B + d) : NearTop u k a b B (B + d) := by
  have hB : 0 ≤ B := (abs_nonneg _).trans hb
  refine ⟨hb, by linarith, h.trans ?_⟩
  have g := inv_pow_ge h0 h1 k
  have hk : 0 ≤ k * u := mul_nonneg (Nat.cast_nonneg k) h0
  nlinarith [mul_le_mul_of_nonneg_right g (by linarith : 0 ≤ B + d), mul_nonneg hk hd]

/-- The computed normalisation of s-type functions. -/
theorem sNorm_rel (hf : FloatFormat u τ Ω) {e : ℝ} (he : 0 < e) (h1 : 100 * τ ≤ e) (h2 : 100 * τ ≤ e ^ (5 / 2 : ℝ))
    {p d n : ℝ} (hp : Fl u p π) (hd : Fu u τ d (e / p)) (hn : Fu u τ n (d ^ (3 / 2 : ℝ))) :
    Rel u 4 n ((e / π) ^ (3 / 2 : ℝ)) := by
  have hu0 := hf.u0
  have hu1 : u < 1 := by linarith [hf.u1]
  have hu10 := hf.u1
  have hτ := hf.τ0
  have h2π := two_le_pi
  have h4π := pi_le_four
  have hp' := hp
  unfold Fl at hp'
  rw [abs_of_pos pi_pos] at hp'
  have hpl := (abs_le.mp hp').1
  have hpu := (abs_le.mp hp').2
  have p1 : 9 / 5 ≤ p := by nlinarith
  have p2 : p ≤ 5 := by nlinarith
  have hp0 : 0 < p := by linarith
  have q1 : e / 5 ≤ e / p := div_le_div_of_nonneg_left he.le hp0 p2
  have hd := hd.normal (by linarith)
  have d1 : 9 / 50 * e ≤ d := by
    have h := hd
    unfold Fl at h
    have hq : 0 < e / p := by positivity
    rw [abs_of_pos hq] at h
    have := (abs_le.mp h).1
    nlinarith
  have hlow : τ ≤ d ^ (3 / 2 : ℝ) := by
    have k1 : (9 / 50 * e) ^ (3 / 2 : ℝ) ≤ d ^ (3 / 2 : ℝ) := rpow_le_rpow (by positivity) d1 (by norm_num)
    rw [mul_rpow (by norm_num) he.le] at k1
    have k2 : (9 / 50 : ℝ) ^ (2 : ℝ) ≤ (9 / 50 : ℝ) ^ (3 / 2 : ℝ) :=
      rpow_le_rpow_of_exponent_ge (by norm_num) (by norm_num) (by norm_num)
    rw [rpow_two] at k2
    have k3 : 100 * τ ≤ e ^ (3 / 2 : ℝ) := by
      rcases le_total e 1 with h | h
      · exact h2.trans (rpow_le_rpow_of_exponent_ge he h (by norm_num))
      · have := rpow_le_rpow_of_exponent_le h (by norm_num : (1 : ℝ) ≤ 3 / 2)
        rw [rpow_one] at this
        linarith
    have k4 := mul_le_mul k2 k3 (by positivity) (by positivity)
    norm_num at k4
    linarith
  have w1 := (Rel.of_fl hu0 hu1 hd).trans hu0 hu1 ((Rel.refl hu0 hu1 e).div hu0 hu1 (Rel.of_fl hu0 hu1 hp))
  have w2 := w1.rpow hu0 hu1 (p := 3 / 2) (l := 3) (by have := pi_pos; positivity) (by norm_num) (by norm_num)
  exact ((Rel.of_fl hu0 hu1 (hn.normal hlow)).trans hu0 hu1 w2).mono hu0 hu1 (by omega)

/-- The computed normalisation of p-type functions (without the last factor). -/
theorem pNorm_rel (hf : FloatFormat u τ Ω) {e : ℝ} (he : 0 < e) (h2 : 100 * τ ≤ e ^ (5 / 2 : ℝ))
    {p n m d : ℝ} (hp : Fl u p π) (hn : Fu u τ n (e ^ (5 / 2 : ℝ))) (hm : Fu u τ m (p ^ (3 / 2 : ℝ)))
    (hd : Fu u τ d (n / m)) : Rel u 5 d (e ^ (5 / 2 : ℝ) / π ^ (3 / 2 : ℝ)) := by
  have hu0 := hf.u0
  have hu1 : u < 1 := by linarith [hf.u1]
  have hu10 := hf.u1
  have hτ := hf.τ0
  have h2π := two_le_pi
  have h4π := pi_le_four
  have hp' := hp
  unfold Fl at hp'
  rw [abs_of_pos pi_pos] at hp'
  have hpl := (abs_le.mp hp').1
  have hpu := (abs_le.mp hp').2
  have p1 : 9 / 5 ≤ p := by nlinarith
  have p2 : p ≤ 5 := by nlinarith
  have hp0 : 0 < p := by linarith
  have hn := hn.normal (by linarith)
  have q1 : 1 ≤ p ^ (3 / 2 : ℝ) := one_le_rpow (by linarith) (by norm_num)
  have q2 : p ^ (3 / 2 : ℝ) ≤ 25 := by
    have k1 := rpow_le_rpow_of_exponent_le (by linarith : 1 ≤ p) (by norm_num : (3 / 2 : ℝ) ≤ 2)
    rw [rpow_two] at k1
    nlinarith
  have hm := hm.normal (by linarith [hf.τ1])
  have m1 := hm
  unfold Fl at m1
  rw [abs_of_pos (by linarith : 0 < p ^ (3 / 2 : ℝ))] at m1
  have m2 := (abs_le.mp m1).1
  have m3 := (abs_le.mp m1).2
  have m4 : m ≤ 28 := by nlinarith
  have m5 : 0 < m := by nlinarith
  have n1 := hn
  have he5 : 0 < e ^ (5 / 2 : ℝ) := rpow_pos_of_pos he _
  unfold Fl at n1
  rw [abs_of_pos he5] at n1
  have n2 := (abs_le.mp n1).1
  have n3 : 9 / 10 * e ^ (5 / 2 : ℝ) ≤ n := by nlinarith
  have hd := hd.normal (by
    rw [le_div_iff₀ m5]
    nlinarith)
  have w2 := (Rel.of_fl hu0 hu1 hm).trans hu0 hu1 ((Rel.of_fl hu0 hu1 hp).rpow hu0 hu1 (p := 3 / 2) (l := 2)
    pi_pos.le (by norm_num) (by norm_num))
  exact ((Rel.of_fl hu0 hu1 hd).trans hu0 hu1 ((Rel.of_fl hu0 hu1 hn).div hu0 hu1 w2)).mono hu0 hu1 (by omega)

theorem gaussFactor_nonneg (isS norm : Bool) {e : ℝ} (he : 0 < e) : 0 ≤ gaussFactor isS norm e := by
  have hπ := pi_pos
  unfold gaussFactor
  split_ifs <;> positivity

/-- Computed values of basis functions against the exact ones. -/
theorem RBasis.nearTop (hf : FloatFormat u τ Ω) {isS norm : Bool} {e r v : ℝ} (he : 0 < e)
    (hn : norm = true → 100 * τ ≤ e ∧ 100 * τ ≤ e ^ (5 / 2 : ℝ)) (h : RBasis u τ isS norm e r v) :
    NearTop u 13 v (bf isS norm e r) (gaussPeak isS norm e) (gaussPeak isS norm e + u * τ * gaussTail isS norm e r) := by
  have hu0 := hf.u0
  have hu1 : u < 1 := by linarith [hf.u1]
  have hτ := hf.τ0.le
  have hw := mul_nonneg hf.u0 hf.τ0.le
  have hx0 : 0 ≤ r ^ 2 := sq_nonneg r
  have hF0 := gaussFactor_nonneg isS norm he
  obtain ⟨ρ, α, ε, hρ, hα, hε, h⟩ := h
  obtain ⟨g1, g2⟩ := gauss_near hf he hρ hα hε
  have hexp : exp (-(e * r ^ 2)) = exp (-e * r ^ 2) := by ring_nf
  unfold bf gaussPeak gaussTail
  cases isS with
  | true =>
    have G : NearTop u 3 ε (exp (-(e * r ^ 2))) 1 (1 + u * τ * (2 + e)) := by
      refine NearTop.of_abs hu0 hu1 ?_ (by positivity) (by push_cast; linarith)
      rw [abs_of_pos (exp_pos _)]
      exact exp_le_one_iff.mpr (by nlinarith)
    rw [hexp] at G
    unfold sBasis
    cases norm with
    | true =>
      obtain ⟨k1, k2⟩ := hn rfl
      simp only [if_true, gaussFactor] at h ⊢
      simp only [if_true, gaussFactor] at hF0
      obtain ⟨p, d, n, hp, hd, hn', hv⟩ := h
      have R := NearTop.of_near (NearBy.of_rel hu0 hu1 (sNorm_rel hf he k1 k2 hp hd hn'))
      have w := (G.mul R).fu hu0 hu1 hτ hv
      rw [abs_of_nonneg hF0] at w
      generalize (e / π) ^ (3 / 2 : ℝ) = F at *
      rw [mul_comm F, mul_comm F 1]
      exact w.mono hu0 hu1 (by norm_num) (by nlinarith)
    | false =>
      simp only [if_true, Bool.false_eq_true, if_false, one_mul, gaussFactor] at h ⊢
      subst h
      exact G.mono hu0 hu1 (by norm_num) (by nlinarith)
  | false =>
    have hex := mul_exp_neg_le_one (e * r ^ 2)
    have G : NearTop u 5 (ε * ρ) (r ^ 2 * exp (-(e * r ^ 2))) (1 / e) (1 / e + u * τ * (3 * r ^ 2 + 2 * e + 2)) := by
      refine NearTop.of_abs hu0 hu1 ?_ (by positivity) (g2.trans (le_of_eq ?_))
      · rw [abs_of_nonneg (by positivity), le_div_iff₀ he]
        linarith
      · push_cast; ring
    rw [hexp] at G
    unfold pBasis
    simp only [Bool.false_eq_true, if_false] at h ⊢
    obtain ⟨g, hg, h⟩ := h
    have G := G.fu hu0 hu1 hτ hg
    cases norm with
    | true =>
      obtain ⟨k1, k2⟩ := hn rfl
      simp only [if_true, Bool.false_eq_true, if_false, gaussFactor] at h ⊢
      obtain ⟨p, n, m, d, k, hp, hn', hm, hd, hk, hv⟩ := h
      have R := NearTop.of_near (NearBy.of_rel hu0 hu1 (pNorm_rel hf he k2 hp hn' hm hd))
      have w := (((G.mul R).fu hu0 hu1 hτ hk).div_rel hu0 hu1 (Rel.refl hu0 hu1 (3 / 2))).fu hu0 hu1 hτ hv
      have hq : 0 ≤ e ^ (5 / 2 : ℝ) / π ^ (3 / 2 : ℝ) := by have := pi_pos; positivity
      rw [abs_of_nonneg hq, abs_of_pos (by norm_num : (0 : ℝ) < 3 / 2)] at w
      have hval : 2 * e ^ (5 / 2 : ℝ) / (3 * π ^ (3 / 2 : ℝ)) = e ^ (5 / 2 : ℝ) / π ^ (3 / 2 : ℝ) / (3 / 2) := by
        have : π ^ (3 / 2 : ℝ) ≠ 0 := (rpow_pos_of_pos pi_pos _).ne'
        field_simp
      rw [hval]
      generalize e ^ (5 / 2 : ℝ) / π ^ (3 / 2 : ℝ) = F at *
      have e1 : F / (3 / 2) * (1 / e) = 1 / e * F / (3 / 2) := by ring
      have e2 : F / (3 / 2) * (r ^ 2 * exp (-e * r ^ 2)) = r ^ 2 * exp (-e * r ^ 2) * F / (3 / 2) := by ring
      rw [e1, e2]
      refine w.mono hu0 hu1 (by norm_num) ?_
      have e3 : ((1 / e + u * τ * (3 * r ^ 2 + 2 * e + 2) + u * τ) * F + u * τ) / (3 / 2) + u * τ =
          1 / e * F / (3 / 2) + u * τ * (F / (3 / 2) * (3 * r ^ 2 + 2 * e + 3) + 5 / 3) := by ring
      rw [e3]
      nlinarith
    | false =>
      simp only [Bool.false_eq_true, if_false, one_mul, gaussFactor] at h ⊢
      subst h
      exact G.mono hu0 hu1 (by norm_num) (by nlinarith)

/-- **C145.**  The value of a basis function computed with rounding, underflow and overflow, at every distance: the
error is a small multiple of the largest value of the function, plus a small multiple of the smallest positive number. -/
theorem C145_basis (hf : FloatFormat u τ Ω) (isS norm : Bool) (e r : ℝ) (he : 0 < e) (heΩ : 1 ≤ e ^ 2 * Ω)
    (heΩ' : e ^ (5 / 2 : ℝ) ≤ Ω / 16) (hn : norm = true → 100 * τ ≤ e ∧ 100 * τ ≤ e ^ (5 / 2 : ℝ))
    (hr : isS = false → r ^ 2 ≤ Ω / 2) (v : XR) (h : XBasis u τ Ω isS norm (.fin e) (.fin r) v) :
    ∃ y, v = .fin y ∧ |y - bf isS norm e r| ≤ (1 / (1 - u) ^ 13 - 1) * gaussPeak isS norm e +
      1 / (1 - u) ^ 13 * (u * τ * gaussTail isS norm e r) := by
  obtain ⟨y, rfl, hy, _⟩ := C144_basis hf isS norm e r he heΩ heΩ' hr v h
  refine ⟨y, rfl, (hy.nearTop hf he hn).2.2.trans (le_of_eq ?_)⟩
  ring

/-- **C145.**  The model density computed by `evaluate` at one point with rounding, underflow and overflow: it is
finite, and the error is a small multiple of the sum of the largest values of the terms, plus a small multiple of the
smallest positive number.  No bound on the distances of s-type centres. -/
theorem C145_density (hf : FloatFormat u τ Ω) (n : ℕ) (isS : ℕ → Bool) (norm : Bool) (c e r : ℕ → ℝ) (φ : ℕ → XR)
    (m : XR) (he : ∀ k < n, 0 < e k ∧ 1 ≤ e k ^ 2 * Ω ∧ e k ^ (5 / 2 : ℝ) ≤ Ω / 16)
    (hn : norm = true → ∀ k < n, 100 * τ ≤ e k ∧ 100 * τ ≤ e k ^ (5 / 2 : ℝ))
    (hr : ∀ k < n, isS k = false → r k ^ 2 ≤ Ω / 2)
    (hc : ∑ k ∈ range n, (2 * |c k| * (4 * e k ^ (5 / 2 : ℝ) + 3 / e k + 12) + 1) < (1 - u) ^ n * Ω)
    (hφ : ∀ k < n, XBasis u τ Ω (isS k) norm (.fin (e k)) (.fin (r k)) (φ k))
    (hm : XDens u τ Ω n φ (fun k => .fin (c k)) m) :
    ∃ y, m = .fin y ∧ |y - ∑ k ∈ range n, c k * bf (isS k) norm (e k) (r k)| ≤
      (1 / (1 - u) ^ (13 + n) - 1) * ∑ k ∈ range n, |c k| * gaussPeak (isS k) norm (e k) +
      1 / (1 - u) ^ (13 + n) * (u * τ * ∑ k ∈ range n, (|c k| * gaussTail (isS k) norm (e k) (r k) + 1)) := by
  have hu1 : u < 1 := by linarith [hf.u1]
  obtain ⟨ψ, y, hψ, rfl, hy⟩ := C144_density hf n isS norm c e r φ m he hr hc hφ hm
  refine ⟨y, rfl, ?_⟩
  have w := hy.nearTop hf.u0 hu1 hf.τ0.le
    (fun k hk => (hψ k hk).2.nearTop hf (he k hk).1 (fun h => hn h k hk))
    (fun k _ => NearTop.of_near (NearBy.refl hf.u0 hu1 (c k)))
  have e1 : ∑ k ∈ range n, bf (isS k) norm (e k) (r k) * c k =
      ∑ k ∈ range n, c k * bf (isS k) norm (e k) (r k) := sum_congr rfl fun k _ => mul_comm _ _
  have e2 : ∑ k ∈ range n, gaussPeak (isS k) norm (e k) * |c k| =
      ∑ k ∈ range n, |c k| * gaussPeak (isS k) norm (e k) := sum_congr rfl fun k _ => mul_comm _ _
  have e3 : ∑ k ∈ range n, ((gaussPeak (isS k) norm (e k) + u * τ * gaussTail (isS k) norm (e k) (r k)) * |c k| +
      u * τ) = ∑ k ∈ range n, |c k| * gaussPeak (isS k) norm (e k) +
      u * τ * ∑ k ∈ range n, (|c k| * gaussTail (isS k) norm (e k) (r k) + 1) := by
    rw [mul_sum, ← sum_add_distrib]
    exact sum_congr rfl fun k _ => by ring
  rw [e1, e2, e3, add_zero] at w
  refine w.2.2.trans (le_of_eq ?_)
  ring

theorem inv_pow_le (h1 : u ≤ 1) (k : ℕ) (hk : k * u < 1) : 1 / (1 - u) ^ k ≤ 1 / (1 - k * u) := by
  refine one_div_le_one_div_of_le (by linarith) ?_
  have := one_add_mul_le_pow (a := -u) (by linarith) k
  rw [← sub_eq_add_neg] at this
  linarith

theorem gaussFactor_le (isS norm : Bool) {e : ℝ} (he : 0 < e) : gaussFactor isS norm e ≤ 1 + e ^ (5 / 2 : ℝ) := by
  have h2π := two_le_pi
  have h5 : 0 ≤ e ^ (5 / 2 : ℝ) := (rpow_pos_of_pos he _).le
  unfold gaussFactor
  split_ifs
  · refine le_trans (rpow_le_rpow (by positivity) ?_ (by norm_num)) (pow_le_one_add he (s := 3 / 2) (by norm_num) (by norm_num))
    exact div_le_self he.le (by linarith)
  · have h1 : 1 ≤ π ^ (3 / 2 : ℝ) := one_le_rpow (by linarith) (by norm_num)
    rw [div_le_iff₀ (by linarith)]
    nlinarith
  · linarith

theorem pow_five_half_bounds {e : ℝ} (h1 : 1 / 10 ^ 13 ≤ e) (h2 : e ≤ 10 ^ 10) :
    1 / 10 ^ 39 ≤ e ^ (5 / 2 : ℝ) ∧ e ^ (5 / 2 : ℝ) ≤ 10 ^ 31 := by
  have he : 0 < e := lt_of_lt_of_le (by norm_num) h1
  have e3 : e ^ (3 : ℝ) = e ^ 3 := by exact_mod_cast rpow_natCast e 3
  have l3 := pow_le_pow_left₀ (by norm_num) h1 3
  have u3 := pow_le_pow_left₀ he.le h2 3
  norm_num at l3 u3 ⊢
  rcases le_total e 1 with h | h
  · have k1 := rpow_le_rpow_of_exponent_ge he h (by norm_num : (5 / 2 : ℝ) ≤ 3)
    have k2 := rpow_le_one he.le h (by norm_num : (0 : ℝ) ≤ 5 / 2)
    rw [e3] at k1
    constructor <;> linarith
  · have k1 := rpow_le_rpow_of_exponent_le h (by norm_num : (5 / 2 : ℝ) ≤ 3)
    have k2 := one_le_rpow h (by norm_num : (0 : ℝ) ≤ 5 / 2)
    rw [e3] at k1
    constructor <;> linarith

theorem gaussTail_le (isS norm : Bool) {e r : ℝ} (h1 : 1 / 10 ^ 13 ≤ e) (h2 : e ≤ 10 ^ 10) (hr : |r| ≤ 10 ^ 6) :
    gaussTail isS norm e r ≤ 10 ^ 46 := by
  have he : 0 < e := lt_of_lt_of_le (by norm_num) h1
  have hF0 := gaussFactor_nonneg isS norm he
  have hF : gaussFactor isS norm e ≤ 10 ^ 32 := by
    have := gaussFactor_le isS norm he
    have := (pow_five_half_bounds h1 h2).2
    norm_num at *
    linarith
  have hr2 : r ^ 2 ≤ 10 ^ 12 := by
    rw [← sq_abs]
    have := pow_le_pow_left₀ (abs_nonneg r) hr 2
    norm_num at *
    linarith
  have hx0 : 0 ≤ r ^ 2 := sq_nonneg r
  have hW : (if isS then 2 + e else 3 * r ^ 2 + 2 * e + 3) ≤ 10 ^ 13 := by
    split_ifs <;> norm_num at * <;> linarith
  have hW0 : 0 ≤ (if isS then 2 + e else 3 * r ^ 2 + 2 * e + 3) := by
    split_ifs <;> positivity
  unfold gaussTail
  have := mul_le_mul hF hW hW0 (by positivity)
  norm_num at *
  linarith

theorem density_format (hf : FloatFormat u τ Ω) (hu : u = 1 / 2 ^ 53) (hτ : τ * 10 ^ 150 ≤ 1) (hΩ : 10 ^ 150 ≤ Ω)
    (n : ℕ) (hn : n ≤ 100) (isS : ℕ → Bool) (norm : Bool) (c e r : ℕ → ℝ) (φ : ℕ → XR) (m : XR)
    (he : ∀ k < n, 1 / 10 ^ 13 ≤ e k ∧ e k ≤ 10 ^ 10) (hr : ∀ k < n, |r k| ≤ 10 ^ 6) (hc : ∀ k < n, |c k| ≤ 10 ^ 100)
    (hφ : ∀ k < n, XBasis u τ Ω (isS k) norm (.fin (e k)) (.fin (r k)) (φ k))
    (hm : XDens u τ Ω n φ (fun k => .fin (c k)) m) :
    ∃ y, m = .fin y ∧ |y - ∑ k ∈ range n, c k * bf (isS k) norm (e k) (r k)| ≤
      1 / 2 ^ 46 * ∑ k ∈ range n, |c k| * gaussPeak (isS k) norm (e k) +
      u * τ * 2 ^ 160 * ∑ k ∈ range n, (|c k| + 1) := by
  have hu1 : u < 1 := by rw [hu]; norm_num
  have he0 : ∀ k < n, 0 < e k := fun k hk => lt_of_lt_of_le (by norm_num) (he k hk).1
  have hw := mul_nonneg hf.u0 hf.τ0.le
  have hnr : (n : ℝ) ≤ 100 := by exact_mod_cast hn
  have hku : ((13 + n : ℕ) : ℝ) * u ≤ 113 / 2 ^ 53 := by
    rw [hu]; push_cast; norm_num; linarith
  have hk1 : ((13 + n : ℕ) : ℝ) * u < 1 := lt_of_le_of_lt hku (by norm_num)
  have hg : 1 / (1 - u) ^ (13 + n) ≤ 1 + 1 / 2 ^ 46 := by
    refine (inv_pow_le hu1.le (13 + n) hk1).trans ?_
    rw [div_le_iff₀ (by linarith)]
    norm_num at hku ⊢
    linarith
  obtain ⟨y, rfl, hy⟩ := C145_density hf n isS norm c e r φ m
    (fun k hk => ⟨he0 k hk, by
      have := mul_le_mul (pow_le_pow_left₀ (by norm_num) (he k hk).1 2) hΩ (by norm_num) (by positivity)
      refine le_trans ?_ this
      norm_num, by
      have := (pow_five_half_bounds (he k hk).1 (he k hk).2).2
      refine this.trans ?_
      rw [le_div_iff₀ (by norm_num)]
      refine le_trans ?_ hΩ
      norm_num⟩)
    (fun _ k hk => by
      have h1 := (pow_five_half_bounds (he k hk).1 (he k hk).2).1
      have h2 := (he k hk).1
      have h3 : τ ≤ 1 / 10 ^ 150 := by rwa [le_div_iff₀ (by norm_num)]
      constructor
      · refine le_trans (mul_le_mul_of_nonneg_left h3 (by norm_num)) (le_trans ?_ h2); norm_num
      · refine le_trans (mul_le_mul_of_nonneg_left h3 (by norm_num)) (le_trans ?_ h1); norm_num)
    (fun k hk _ => by
      rw [← sq_abs]
      refine (pow_le_pow_left₀ (abs_nonneg _) (hr k hk) 2).trans ?_
      rw [le_div_iff₀ (by norm_num)]
      refine le_trans ?_ hΩ
      norm_num)
    (by
      have hs : ∑ k ∈ range n, (2 * |c k| * (4 * e k ^ (5 / 2 : ℝ) + 3 / e k + 12) + 1) ≤ ∑ k ∈ range n, (10 ^ 140 : ℝ) := by
        refine sum_le_sum fun k hk => ?_
        have hk := mem_range.mp hk
        have h1 := (pow_five_half_bounds (he k hk).1 (he k hk).2).2
        have h2 : 3 / e k ≤ 3 * 10 ^ 13 := by
          rw [div_le_iff₀ (he0 k hk)]
          have := (he k hk).1
          norm_num at this ⊢
          linarith
        have h3 : 0 ≤ e k ^ (5 / 2 : ℝ) := (rpow_pos_of_pos (he0 k hk) _).le
        have h4 : 0 ≤ 3 / e k := by have := he0 k hk; positivity
        have h5 : 4 * e k ^ (5 / 2 : ℝ) + 3 / e k + 12 ≤ 10 ^ 33 := by norm_num at *; linarith
        have h6 := mul_le_mul (mul_le_mul_of_nonneg_left (hc k hk) (by norm_num : (0 : ℝ) ≤ 2)) h5 (by linarith) (by norm_num)
        refine (add_le_add_left h6 1).trans ?_
        norm_num
      rw [sum_const, card_range, nsmul_eq_mul] at hs
      refine lt_of_le_of_lt (hs.trans (mul_le_mul_of_nonneg_right hnr (by norm_num))) ?_
      have hb : (1 : ℝ) / 2 ≤ (1 - u) ^ n := by
        have := one_add_mul_le_pow (a := -u) (by linarith) n
        rw [← sub_eq_add_neg] at this
        have h3 : (n : ℝ) * u ≤ 1 / 2 := by rw [hu]; norm_num; linarith
        linarith
      refine lt_of_lt_of_le ?_ (mul_le_mul hb hΩ (by norm_num) (by linarith))
      norm_num) hφ hm
  refine ⟨y, rfl, hy.trans (add_le_add ?_ ?_)⟩
  · refine mul_le_mul_of_nonneg_right (by linarith) (sum_nonneg fun k hk => mul_nonneg (abs_nonneg _) ?_)
    have h1 := gaussFactor_nonneg (isS k) norm (he0 k (mem_range.mp hk))
    have h2 := he0 k (mem_range.mp hk)
    unfold gaussPeak
    split_ifs <;> positivity
  · have hs : ∑ k ∈ range n, (|c k| * gaussTail (isS k) norm (e k) (r k) + 1) ≤
        10 ^ 46 * ∑ k ∈ range n, (|c k| + 1) := by
      rw [mul_sum]
      refine sum_le_sum fun k hk => ?_
      have hk := mem_range.mp hk
      have := mul_le_mul_of_nonneg_left (gaussTail_le (isS k) norm (he k hk).1 (he k hk).2 (hr k hk)) (abs_nonneg (c k))
      norm_num at this ⊢
      linarith
    have hS : 0 ≤ ∑ k ∈ range n, (|c k| + 1) := sum_nonneg fun k _ => by positivity
    have hg2 : 1 / (1 - u) ^ (13 + n) ≤ 2 := hg.trans (by norm_num)
    have h3 := mul_le_mul hg2 (mul_le_mul_of_nonneg_left hs hw)
      (mul_nonneg hw (sum_nonneg fun k hk => ?_)) (by norm_num : (0 : ℝ) ≤ 2)
    · refine h3.trans ?_
      have h4 := mul_nonneg hw hS
      rw [show 2 * (u * τ * (10 ^ 46 * ∑ k ∈ range n, (|c k| + 1))) =
        2 * 10 ^ 46 * (u * τ * ∑ k ∈ range n, (|c k| + 1)) by ring,
        show u * τ * 2 ^ 160 * ∑ k ∈ range n, (|c k| + 1) = 2 ^ 160 * (u * τ * ∑ k ∈ range n, (|c k| + 1)) by ring]
      exact mul_le_mul_of_nonneg_right (by norm_num) h4
    · have h5 := gaussFactor_nonneg (isS k) norm (he0 k (mem_range.mp hk))
      have h6 := he0 k (mem_range.mp hk)
      unfold gaussTail
      split_ifs <;> positivity

/-- **C145.**  Double precision: for at most 100 functions with exponents from `10⁻¹³` to `10¹⁰` and coefficients up to
`10¹⁰⁰`, at distances up to `10⁶`, `evaluate` is right up to `2⁻⁴⁶` times the sum of the largest values of the terms,
and `2⁻⁹⁰⁰`. -/
theorem C145_double (n : ℕ) (hn : n ≤ 100) (isS : ℕ → Bool) (norm : Bool) (c e r : ℕ → ℝ) (φ : ℕ → XR) (m : XR)
    (he : ∀ k < n, 1 / 10 ^ 13 ≤ e k ∧ e k ≤ 10 ^ 10) (hr : ∀ k < n, |r k| ≤ 10 ^ 6) (hc : ∀ k < n, |c k| ≤ 10 ^ 100)
    (hφ : ∀ k < n, XBasis (1 / 2 ^ 53) (1 / 2 ^ 1022) (2 ^ 1023) (isS k) norm (.fin (e k)) (.fin (r k)) (φ k))
    (hm : XDens (1 / 2 ^ 53) (1 / 2 ^ 1022) (2 ^ 1023) n φ (fun k => .fin (c k)) m) :
    ∃ y, m = .fin y ∧ |y - ∑ k ∈ range n, c k * bf (isS k) norm (e k) (r k)| ≤
      1 / 2 ^ 46 * ∑ k ∈ range n, |c k| * gaussPeak (isS k) norm (e k) +
      1 / 2 ^ 900 * ∑ k ∈ range n, (|c k| + 1) := by
  have hf := C144_double
  have e1 : (2 : ℝ) ^ 1023 = 2 * 2 ^ 1022 := pow_succ' 2 1022
  have e2 : (2 : ℝ) ^ 1022 = 2 ^ 900 * 2 ^ 122 := by rw [← pow_add]
  have e3 : (10 : ℝ) ^ 150 ≤ 2 ^ 1022 := by
    have h1 : (10 : ℝ) ^ 150 ≤ (2 ^ 4) ^ 150 := pow_le_pow_left₀ (by norm_num) (by norm_num) 150
    rw [← pow_mul] at h1
    exact h1.trans (pow_le_pow_right₀ (by norm_num) (by norm_num))
  have e4 : (0 : ℝ) < 2 ^ 900 := pow_pos (by norm_num) _
  generalize (2 : ℝ) ^ 1023 = Ω at *
  generalize (2 : ℝ) ^ 1022 = T at *
  generalize (2 : ℝ) ^ 900 = A at *
  have hT : 0 < T := lt_of_lt_of_le (by norm_num) e3
  obtain ⟨y, rfl, hy⟩ := density_format hf rfl (by rw [one_div_mul_eq_div, div_le_one hT]; exact e3) (by linarith) n hn
    isS norm c e r φ m he hr hc hφ hm
  refine ⟨y, rfl, hy.trans ?_⟩
  have hS : 0 ≤ ∑ k ∈ range n, (|c k| + 1) := sum_nonneg fun k _ => by positivity
  have : 1 / 2 ^ 53 * (1 / T) * 2 ^ 160 ≤ 1 / A := by
    rw [e2, le_div_iff₀ e4]
    have : 1 / 2 ^ 53 * (1 / (A * 2 ^ 122)) * 2 ^ 160 * A = 1 / 2 ^ 15 := by
      field_simp
    rw [this]
    norm_num
  linarith [mul_le_mul_of_nonneg_right this hS]

theorem XSum.total (h0 : 0 ≤ u) (l : List XR) : ∃ v, XSum u Ω l v := by
  induction l with
  | nil => exact ⟨_, .nil⟩
  | cons a l ih =>
    cases l with
    | nil => exact ⟨a, .one a⟩
    | cons b l =>
      obtain ⟨s, hs⟩ := ih
      obtain ⟨v, hv⟩ := Fx.total (τ := 0) (Ω := Ω) h0 (a + s)
      exact ⟨v, .add (.one a) hs (by simp) (by simp) (List.Perm.refl _) hv⟩

/-- Executions of `evaluate` exist, so the theorems are not vacuous. -/
theorem C145_total (h0 : 0 ≤ u) (n : ℕ) (isS : ℕ → Bool) (norm : Bool) (c e r : ℕ → XR) :
    ∃ φ m, (∀ k < n, XBasis u τ Ω (isS k) norm (e k) (r k) (φ k)) ∧ XDens u τ Ω n φ c m := by
  choose φ hφ using fun k => C144_total (τ := τ) (Ω := Ω) h0 (isS k) norm (e k) (r k)
  choose t ht using fun k => Fx.total (τ := τ) (Ω := Ω) h0 (φ k * c k)
  obtain ⟨m, hm⟩ := XSum.total (Ω := Ω) h0 ((List.range n).map t)
  exact ⟨φ, m, fun k _ => hφ k, t, fun k _ => ht k, hm⟩

/-- A normalised model in double precision with an s-type function of exponent 3 and a p-type function of exponent 2,
with coefficients 5 and -1, at distance 100. -/
example : ∃ (φ : ℕ → XR) (y : ℝ),
    XDens (1 / 2 ^ 53) (1 / 2 ^ 1022) (2 ^ 1023) 2 φ (fun k => .fin (if k = 0 then 5 else -1)) (.fin y) ∧
    |y - ∑ k ∈ range 2, (if k = 0 then 5 else -1) * bf (decide (k = 0)) true (if k = 0 then 3 else 2) 100| ≤
      1 / 2 ^ 46 * ∑ k ∈ range 2, |if k = 0 then (5 : ℝ) else -1| * gaussPeak (decide (k = 0)) true (if k = 0 then 3 else 2) +
      1 / 2 ^ 900 * ∑ k ∈ range 2, (|if k = 0 then (5 : ℝ) else -1| + 1) := by
  obtain ⟨φ, m, h1, h2⟩ := C145_total (τ := 1 / 2 ^ 1022) (Ω := 2 ^ 1023) (by positivity : (0 : ℝ) ≤ 1 / 2 ^ 53) 2
    (fun k => decide (k = 0)) true (fun k => .fin (if k = 0 then 5 else -1)) (fun k => .fin (if k = 0 then 3 else 2))
    (fun _ => .fin 100)
  obtain ⟨y, rfl, hy⟩ := C145_double 2 (by norm_num) (fun k => decide (k = 0)) true (fun k => if k = 0 then 5 else -1)
    (fun k => if k = 0 then 3 else 2) (fun _ => 100) φ m (fun k _ => by split_ifs <;> norm_num)
    (fun k _ => by norm_num) (fun k _ => by split_ifs <;> norm_num) h1 h2
  exact ⟨φ, y, h2, hy⟩

end
end BFit
