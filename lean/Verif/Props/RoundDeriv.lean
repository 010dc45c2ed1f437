import Verif.Model.RoundDeriv
import Verif.Props.RoundGauss

/-! # C147: accuracy of the derivatives in the exponents -/

namespace BFit

open Real Classical Finset

noncomputable section

variable {u τ Ω : ℝ}

theorem cube_mul_exp_neg_le {y : ℝ} (hy : 0 ≤ y) : y ^ 3 * exp (-y) ≤ 27 / 8 := by
  have h := mul_exp_neg_le_half (y := y / 3) (by linarith)
  have h0 : 0 ≤ y / 3 * exp (-(y / 3)) := by positivity
  have e : exp (-y) = exp (-(y / 3)) ^ 3 := by rw [← exp_nat_mul]; congr 1; push_cast; ring
  have h3 := pow_le_pow_left₀ h0 h 3
  rw [mul_pow, ← e] at h3
  linarith

/-- The exponential of a number with a relative error, times the square. -/
theorem exp_rel_err_sq (h0 : 0 ≤ u) (hu : u ≤ 1 / 10) {a x : ℝ} (hx : 0 ≤ x) (h : |a - x| ≤ u * x) :
    x ^ 2 * |exp (-a) - exp (-x)| ≤ u * 5 := by
  have ha := abs_le.mp h
  have hm : 9 / 10 * x ≤ a := by nlinarith
  have hb : |exp (-a) - exp (-x)| ≤ u * x * exp (-(9 / 10 * x)) := by
    have h1 := exp_neg_lipschitz (a := a - 9 / 10 * x) (b := x - 9 / 10 * x) (by linarith) (by linarith)
    have e1 : exp (-a) = exp (-(9 / 10 * x)) * exp (-(a - 9 / 10 * x)) := by rw [← exp_add]; congr 1; ring
    have e2 : exp (-x) = exp (-(9 / 10 * x)) * exp (-(x - 9 / 10 * x)) := by rw [← exp_add]; congr 1; ring
    rw [e1, e2, ← mul_sub, abs_mul, abs_of_pos (exp_pos _), mul_comm]
    refine mul_le_mul_of_nonneg_right (h1.trans ?_) (exp_pos _).le
    rwa [show a - 9 / 10 * x - (x - 9 / 10 * x) = a - x by ring]
  have h3 := cube_mul_exp_neg_le (y := 9 / 10 * x) (by linarith)
  refine (mul_le_mul_of_nonneg_left hb (sq_nonneg x)).trans ?_
  rw [show x ^ 2 * (u * x * exp (-(9 / 10 * x))) = u * (1000 / 729 * ((9 / 10 * x) ^ 3 * exp (-(9 / 10 * x)))) by ring]
  exact mul_le_mul_of_nonneg_left (by linarith) h0

/-- Errors of the Gaussian times the fourth power of the distance. -/
theorem gauss_near_sq (hf : FloatFormat u τ Ω) {e r ρ α ε : ℝ} (he : 0 < e) (hr : Fu u τ ρ (r ^ 2))
    (ha : Fu u τ α (-e * ρ)) (hE : Fu u τ ε (exp α)) :
    |ε * ρ * ρ - r ^ 2 * r ^ 2 * exp (-(e * r ^ 2))| ≤
      15 * (u * (1 / e ^ 2)) + u * τ * (5 * (r ^ 2) ^ 2 + 3 * r ^ 2 + 4 * e + 2) := by
  have hu0 := hf.u0
  have hu1 := hf.u1
  have hw := mul_nonneg hf.u0 hf.τ0.le
  have hw1 := hf.ut
  have hx0 : 0 ≤ r ^ 2 := sq_nonneg r
  have hρ0 : 0 ≤ ρ := hr.nonneg hu0 (by linarith) hx0
  have hρ1 := hr.le' hf hx0
  have hρe := hr.abs_err hf
  generalize r ^ 2 = x at *
  rw [abs_of_nonneg hx0] at hρe
  have hy0 : 0 ≤ e * ρ := by positivity
  have hex0 : 0 ≤ e * x := by positivity
  have he2 : 0 < e ^ 2 := by positivity
  have hρ2 : ρ ^ 2 ≤ 12 / 5 * x ^ 2 + 1 / 2 := by nlinarith [sq_nonneg (x - 1 / 10)]
  have up : ∀ {A C : ℝ}, e ^ 2 * A ≤ u * C → A ≤ u * (1 / e ^ 2) * C := by
    intro A C h
    rw [show u * (1 / e ^ 2) * C = u * C / e ^ 2 by ring, le_div_iff₀ he2]
    linarith
  have hα0 : α ≤ 0 := by
    rcases ha with h | ⟨h, _, _, h'⟩
    · unfold Fl at h
      rw [abs_of_nonpos (by linarith : -e * ρ ≤ 0)] at h
      have := (abs_le.mp h).2
      nlinarith
    · have : -e * ρ < 0 := lt_of_le_of_ne (by linarith) (abs_pos.mp h)
      nlinarith
  have he1 : exp α ≤ 1 := exp_le_one_iff.mpr hα0
  have d1 : |ε - exp α| ≤ u * exp α + u * τ := by
    have := hE.abs_err hf
    rwa [abs_of_pos (exp_pos α)] at this
  have d2 : ρ ^ 2 * |exp α - exp (-(e * ρ))| ≤ u * (1 / e ^ 2) * 5 + u * τ * ρ ^ 2 := by
    rcases ha with h | ⟨_, _, h, _⟩
    · unfold Fl at h
      rw [abs_of_nonpos (by linarith : -e * ρ ≤ 0)] at h
      have k2 := exp_rel_err_sq hu0 hu1 (a := -α) (x := e * ρ) hy0 (by
        rw [abs_sub_comm, show e * ρ - -α = α - -e * ρ by ring]; linarith)
      rw [neg_neg] at k2
      have := up (A := ρ ^ 2 * |exp α - exp (-(e * ρ))|) (C := 5) (by linarith)
      have := mul_nonneg hw (sq_nonneg ρ)
      linarith
    · have k := exp_neg_lipschitz (a := -α) (b := e * ρ) (by linarith) hy0
      rw [neg_neg, abs_sub_comm (-α), show e * ρ - -α = α - -e * ρ by ring] at k
      have := mul_le_mul_of_nonneg_left (k.trans h) (sq_nonneg ρ)
      have : 0 ≤ u * (1 / e ^ 2) * 5 := by positivity
      linarith
  have d3 : ρ ^ 2 * |exp (-(e * ρ)) - exp (-(e * x))| ≤ u * (1 / e ^ 2) * (61 / 10) + u * τ * (4 * e) := by
    rcases hr with h | ⟨_, ht, h, _⟩
    · unfold Fl at h
      rw [abs_of_nonneg hx0] at h
      have k2 := exp_rel_err_sq hu0 hu1 (a := e * ρ) (x := e * x) hex0 (by
        rw [← mul_sub, abs_mul, abs_of_pos he]
        have := mul_le_mul_of_nonneg_left h he.le
        linarith)
      have hwe := mul_nonneg hw he.le
      have hρx : ρ ≤ 11 / 10 * x := by
        have := (abs_le.mp h).2
        nlinarith
      have h2 := pow_le_pow_left₀ hρ0 hρx 2
      have h3 := mul_le_mul_of_nonneg_right h2 (abs_nonneg (exp (-(e * ρ)) - exp (-(e * x))))
      have := up (A := (11 / 10 * x) ^ 2 * |exp (-(e * ρ)) - exp (-(e * x))|) (C := 61 / 10) (by
        rw [show e ^ 2 * ((11 / 10 * x) ^ 2 * |exp (-(e * ρ)) - exp (-(e * x))|) =
          121 / 100 * ((e * x) ^ 2 * |exp (-(e * ρ)) - exp (-(e * x))|) by ring]
        linarith)
      linarith
    · have k := exp_neg_lipschitz (a := e * ρ) (b := e * x) hy0 hex0
      rw [← mul_sub, abs_mul, abs_of_pos he] at k
      have k := k.trans (mul_le_mul_of_nonneg_left h he.le)
      rw [abs_of_nonneg hx0] at ht
      have hρ3 : ρ ^ 2 ≤ 4 := by
        have := hf.τ1
        nlinarith
      have := mul_le_mul hρ3 k (abs_nonneg _) (by norm_num)
      have : 0 ≤ u * (1 / e ^ 2) * (61 / 10) := by positivity
      linarith
  set G := exp (-(e * x)) with hG
  have hG0 : 0 < G := exp_pos _
  have hG1 : G ≤ 1 := exp_le_one_iff.mpr (by linarith)
  have tri : |ε - G| ≤ |ε - exp α| + |exp α - exp (-(e * ρ))| + |exp (-(e * ρ)) - G| := by
    have t1 := abs_add_le (ε - exp α) (exp α - exp (-(e * ρ)))
    have t2 := abs_add_le (ε - exp (-(e * ρ))) (exp (-(e * ρ)) - G)
    rw [sub_add_sub_cancel] at t1 t2
    linarith
  have b1 : ρ ^ 2 * |ε - exp α| ≤ u * (1 / e ^ 2) * (5 / 4) + u * τ * ρ ^ 2 := by
    have k1 := mul_le_mul_of_nonneg_left d1 (sq_nonneg ρ)
    have k2 : (e * ρ) ^ 2 * exp α ≤ 5 / 4 := by
      rcases ha with h | ⟨h, ht, _, h'⟩
      · unfold Fl at h
        rw [abs_of_nonpos (by linarith : -e * ρ ≤ 0)] at h
        have h := (abs_le.mp h).2
        have h9 : α ≤ -(9 / 10 * (e * ρ)) := by nlinarith
        have h10 := mul_le_mul_of_nonneg_left (exp_le_exp.mpr h9) (sq_nonneg (e * ρ))
        have h11 := sq_mul_exp_neg_le_one (y := 9 / 10 * (e * ρ)) (by linarith)
        nlinarith
      · have hn : -e * ρ < 0 := lt_of_le_of_ne (by linarith) (abs_pos.mp h)
        rw [abs_of_neg hn] at ht
        have h5 : (e * ρ) ^ 2 ≤ 1 := by nlinarith [hf.τ1]
        have := mul_le_mul h5 he1 (exp_pos α).le (by norm_num)
        linarith
    have k3 := up (A := ρ ^ 2 * (u * exp α)) (C := 5 / 4) (by
      rw [show e ^ 2 * (ρ ^ 2 * (u * exp α)) = u * ((e * ρ) ^ 2 * exp α) by ring]
      exact mul_le_mul_of_nonneg_left k2 hu0)
    linarith
  have b2 : |ρ * ρ - x * x| * G ≤ u * (1 / e ^ 2) * (21 / 10) + u * τ * (3 * x + 1) := by
    have k0 : ρ ≤ 11 / 10 * x + u * τ := by
      have := (abs_le.mp hρe).2
      have := mul_le_mul_of_nonneg_right hu1 hx0
      linarith
    have k1 : |ρ * ρ - x * x| ≤ (u * x + u * τ) * (21 / 10 * x + u * τ) := by
      rw [show ρ * ρ - x * x = (ρ - x) * (ρ + x) by ring, abs_mul, abs_of_nonneg (by linarith : 0 ≤ ρ + x)]
      exact mul_le_mul hρe (by linarith) (by linarith) ((abs_nonneg _).trans hρe)
    have k2 := mul_le_mul_of_nonneg_right k1 hG0.le
    have k3 := sq_mul_exp_neg_le_one hex0
    rw [← hG] at k3
    have k4 := up (A := u * x * (21 / 10 * x) * G) (C := 21 / 10) (by
      rw [show e ^ 2 * (u * x * (21 / 10 * x) * G) = u * (21 / 10 * ((e * x) ^ 2 * G)) by ring]
      exact mul_le_mul_of_nonneg_left (by linarith) hu0)
    have k5 : u * τ * (u * x + 21 / 10 * x + u * τ) * G ≤ u * τ * (3 * x + 1) := by
      have h3 := mul_le_mul_of_nonneg_right hu1 hx0
      have h1 : u * x + 21 / 10 * x + u * τ ≤ 3 * x + 1 := by linarith
      have h2 : (u * x + 21 / 10 * x + u * τ) * G ≤ 3 * x + 1 :=
        (mul_le_of_le_one_right (by positivity) hG1).trans h1
      rw [mul_assoc]
      exact mul_le_mul_of_nonneg_left h2 hw
    have k6 : (u * x + u * τ) * (21 / 10 * x + u * τ) * G =
      u * x * (21 / 10 * x) * G + u * τ * (u * x + 21 / 10 * x + u * τ) * G := by ring
    linarith
  have e1 : ε * ρ * ρ - x * x * G = ρ ^ 2 * (ε - G) + (ρ * ρ - x * x) * G := by ring
  have b3 : |ε * ρ * ρ - x * x * G| ≤ ρ ^ 2 * |ε - G| + |ρ * ρ - x * x| * G := by
    rw [e1]
    refine (abs_add_le _ _).trans ?_
    rw [abs_mul, abs_mul, abs_of_nonneg (sq_nonneg ρ), abs_of_pos hG0]
  have b4 := mul_le_mul_of_nonneg_left tri (sq_nonneg ρ)
  have b5 := mul_le_mul_of_nonneg_left hρ2 hw
  have b6 := mul_nonneg hw (sq_nonneg x)
  have b7 : 0 ≤ u * (1 / e ^ 2) := by positivity
  linarith

section
variable (h0 : 0 ≤ u) (h1 : u < 1)
include h0 h1

/-- An absolute error of the computed number. -/
theorem NearTop.abs_left {k : ℕ} {a' a b B T d : ℝ} (h : NearTop u k a b B T) (h' : |a' - a| ≤ d) :
    NearTop u k a' b B (T + d) := by
  have hd : 0 ≤ d := (abs_nonneg _).trans h'
  have g := gpow h0 h1 k
  refine ⟨h.1, h.2.1.trans (by linarith), ?_⟩
  have e : |a' - b| ≤ |a' - a| + |a - b| := by
    have := abs_add_le (a' - a) (a - b)
    rwa [sub_add_sub_cancel] at this
  have h3 := h.2.2
  have h4 := mul_le_mul_of_nonneg_right g.2 hd
  linarith

/-- An operation that may underflow inside a product. -/
theorem NearTop.fu_mul (hτ : 0 ≤ τ) {k : ℕ} {a' a ρ b B T : ℝ} (hρ : 0 ≤ ρ) (h : NearTop u k (a * ρ) b B T)
    (h' : Fu u τ a' a) : NearTop u (k + 1) (a' * ρ) b B (T + u * τ * ρ) := by
  have hw : 0 ≤ u * τ * ρ := by positivity
  rcases h' with h' | ⟨-, -, h', -⟩
  · refine (h.rel_left h0 h1 (Rel.of_fl h0 h1 (v := a' * ρ) ?_)).mono h0 h1 le_rfl (by linarith)
    unfold Fl at h' ⊢
    rw [← sub_mul, abs_mul, abs_mul, ← mul_assoc]
    exact mul_le_mul_of_nonneg_right h' (abs_nonneg ρ)
  · refine (h.abs_left h0 h1 (a' := a' * ρ) (d := u * τ * ρ) ?_).mono h0 h1 (Nat.le_succ k) le_rfl
    rw [← sub_mul, abs_mul, abs_of_nonneg hρ]
    exact mul_le_mul_of_nonneg_right h' hρ

omit h0 h1 in
theorem NearTop.neg {k : ℕ} {a b B T : ℝ} (h : NearTop u k a b B T) : NearTop u k (-a) (-b) B T :=
  ⟨by rw [abs_neg]; exact h.1, h.2.1, by rw [← neg_sub', abs_neg]; exact h.2.2⟩

omit h0 h1 in
theorem NearTop.add {k : ℕ} {a b B T a' b' B' T' : ℝ} (h : NearTop u k a b B T) (h' : NearTop u k a' b' B' T') :
    NearTop u k (a + a') (b + b') (B + B') (T + T') := by
  refine ⟨(abs_add_le _ _).trans (add_le_add h.1 h'.1), add_le_add h.2.1 h'.2.1, ?_⟩
  rw [add_sub_add_comm]
  refine (abs_add_le _ _).trans ?_
  have := h.2.2
  have := h'.2.2
  linarith

end

/-- The values in the first half of the array are those of `evaluate` without derivatives. -/
theorem RBasis_iff_value (isS norm : Bool) (e r v : ℝ) : RBasis u τ isS norm e r v ↔
    ∃ r2 a E, Fu u τ r2 (r ^ 2) ∧ Fu u τ a (-e * r2) ∧ Fu u τ E (exp a) ∧ RValue u τ isS norm e r2 E v := Iff.rfl

/-- A bound of the derivative of a basis function in the exponent. -/
def gaussDPeak (isS norm : Bool) (e : ℝ) : ℝ :=
  gaussPeak isS norm e / e * (if norm then (if isS then 5 / 2 else 7 / 2) else 1)

/-- The size of the errors by underflow, in multiples of the smallest positive number. -/
def gaussDTail (isS norm : Bool) (e r : ℝ) : ℝ :=
  50 * ((1 + gaussFactor isS norm e) * (1 + 1 / e) * (1 + e + r ^ 2 + r ^ 4))

/-- The term of both kinds of functions. -/
theorem RValue.near (hf : FloatFormat u τ Ω) {isS norm : Bool} {e r c ρ α ε φ q t : ℝ} (he : 0 < e)
    (hn : norm = true → 100 * τ ≤ e ∧ 100 * τ ≤ e ^ (5 / 2 : ℝ)) (hρ : Fu u τ ρ (r ^ 2)) (hα : Fu u τ α (-e * ρ))
    (hε : Fu u τ ε (exp α)) (h : RValue u τ isS norm e ρ ε φ) (hq : Fu u τ q (-φ * ρ)) (ht : Fu u τ t (q * c)) :
    NearTop u 25 t (-(bf isS norm e r * r ^ 2) * c) (gaussPeak isS norm e / e * |c|)
      (gaussPeak isS norm e / e * |c| +
        u * τ * (10 * (|c| * ((1 + gaussFactor isS norm e) * (1 + e + r ^ 2 + r ^ 4))) + 1)) := by
  have hu0 := hf.u0
  have hu1 : u < 1 := by linarith [hf.u1]
  have hτ := hf.τ0.le
  have hw := mul_nonneg hf.u0 hf.τ0.le
  have hx0 : 0 ≤ r ^ 2 := sq_nonneg r
  have hρ0 : 0 ≤ ρ := hρ.nonneg hu0 hu1 hx0
  have hρ1 := hρ.le' hf hx0
  have hF0 := gaussFactor_nonneg isS norm he
  obtain ⟨-, g2⟩ := gauss_near hf he hρ hα hε
  have g3 := gauss_near_sq hf he hρ hα hε
  have hexp : exp (-(e * r ^ 2)) = exp (-e * r ^ 2) := by ring_nf
  -- it is enough to bound the product with the squared distance
  have fin : ∀ {B T : ℝ}, NearTop u 23 (φ * ρ) (bf isS norm e r * r ^ 2) B T → B = gaussPeak isS norm e / e →
      T ≤ B + u * τ * (9 * ((1 + gaussFactor isS norm e) * (1 + e + r ^ 2 + r ^ 4))) →
      NearTop u 25 t (-(bf isS norm e r * r ^ 2) * c) (gaussPeak isS norm e / e * |c|)
      (gaussPeak isS norm e / e * |c| +
        u * τ * (10 * (|c| * ((1 + gaussFactor isS norm e) * (1 + e + r ^ 2 + r ^ 4))) + 1)) := by
    intro B T hN hB hT
    have w1 := hN.neg
    rw [← neg_mul] at w1
    have w2 := ((w1.fu hu0 hu1 hτ hq).mul (NearTop.of_near (NearBy.refl hu0 hu1 c))).fu hu0 hu1 hτ ht
    rw [hB] at w2 hT
    refine w2.mono hu0 hu1 (by norm_num) ?_
    have hS : 1 ≤ (1 + gaussFactor isS norm e) * (1 + e + r ^ 2 + r ^ 4) := by
      have : 0 ≤ r ^ 4 := by positivity
      nlinarith
    have h3 := mul_le_mul_of_nonneg_right hT (abs_nonneg c)
    have h4 := mul_le_mul_of_nonneg_left hS (mul_nonneg hw (abs_nonneg c))
    linarith
  have hr4 : r ^ 4 = (r ^ 2) ^ 2 := by ring
  have hx20 := sq_nonneg (r ^ 2)
  unfold RValue at h
  cases isS with
  | true =>
    have hex := mul_exp_neg_le_one (e * r ^ 2)
    have G : NearTop u 5 (ε * ρ) (r ^ 2 * exp (-(e * r ^ 2))) (1 / e) (1 / e + u * τ * (3 * r ^ 2 + 2 * e + 2)) := by
      refine NearTop.of_abs hu0 hu1 ?_ (by positivity) (g2.trans (le_of_eq ?_))
      · rw [abs_of_nonneg (by positivity), le_div_iff₀ he]
        linarith
      · push_cast; ring
    rw [hexp] at G
    cases norm with
    | true =>
      obtain ⟨k1, k2⟩ := hn rfl
      simp only [if_true] at h
      obtain ⟨p, d, n, hp, hd, hn', hv⟩ := h
      have R := NearTop.of_near (NearBy.of_rel hu0 hu1 (sNorm_rel hf he k1 k2 hp hd hn'))
      have w := G.mul R
      rw [mul_right_comm] at w
      have w := w.fu_mul hu0 hu1 hτ hρ0 hv
      simp only [bf, sBasis, gaussPeak, gaussFactor, if_true] at fin hF0 ⊢
      rw [abs_of_nonneg hF0] at w
      generalize (e / π) ^ (3 / 2 : ℝ) = F at *
      have w := w.mono hu0 hu1 (l := 23) (by norm_num) le_rfl
      rw [show r ^ 2 * exp (-e * r ^ 2) * F = F * exp (-e * r ^ 2) * r ^ 2 by ring] at w
      refine fin w (by ring) ?_
      · rw [hr4]
        generalize r ^ 2 = x at *
        have b1 := mul_le_mul_of_nonneg_left hρ1 hw
        have b2 : F * (3 * x + 2 * e + 2) + 11 / 10 * x + 1 / 1000 ≤ 9 * ((1 + F) * (1 + e + x + x ^ 2)) := by
          have := mul_nonneg hF0 hx0
          have := mul_nonneg hF0 he.le
          have := mul_nonneg hF0 hx20
          nlinarith
        have b3 := mul_le_mul_of_nonneg_left b2 hw
        linarith
    | false =>
      simp only [if_true, Bool.false_eq_true, if_false] at h
      subst h
      simp only [bf, sBasis, gaussPeak, gaussFactor, if_true, Bool.false_eq_true, if_false] at fin ⊢
      refine fin (B := 1 / e) ?_ (by ring) ?_ (T := 1 / e + u * τ * (3 * r ^ 2 + 2 * e + 2))
      · have := G.mono hu0 hu1 (l := 23) (by norm_num) le_rfl
        rwa [show r ^ 2 * exp (-e * r ^ 2) = 1 * exp (-e * r ^ 2) * r ^ 2 by ring] at this
      · rw [hr4]
        generalize r ^ 2 = x at *
        have b2 : 3 * x + 2 * e + 2 ≤ 9 * ((1 + 1) * (1 + e + x + x ^ 2)) := by linarith
        have b3 := mul_le_mul_of_nonneg_left b2 hw
        linarith
  | false =>
    have hex := sq_mul_exp_neg_le_one (y := e * r ^ 2) (by positivity)
    have G : NearTop u 15 (ε * ρ * ρ) (r ^ 2 * r ^ 2 * exp (-(e * r ^ 2))) (1 / e ^ 2)
        (1 / e ^ 2 + u * τ * (5 * (r ^ 2) ^ 2 + 3 * r ^ 2 + 4 * e + 2)) := by
      refine NearTop.of_abs hu0 hu1 ?_ (by positivity) (g3.trans (le_of_eq ?_))
      · rw [abs_of_nonneg (by positivity), le_div_iff₀ (by positivity)]
        linarith
      · push_cast; ring
    rw [hexp] at G
    simp only [Bool.false_eq_true, if_false] at h
    obtain ⟨g, hg, h⟩ := h
    have G := G.fu_mul hu0 hu1 hτ hρ0 hg
    cases norm with
    | true =>
      obtain ⟨k1, k2⟩ := hn rfl
      simp only [if_true] at h
      obtain ⟨p, n, m, d, k, hp, hn', hm, hd, hk, hv⟩ := h
      have R := NearTop.of_near (NearBy.of_rel hu0 hu1 (pNorm_rel hf he k2 hp hn' hm hd))
      have w := G.mul R
      rw [mul_right_comm g] at w
      have w := (w.fu_mul hu0 hu1 hτ hρ0 hk).div_rel hu0 hu1 (Rel.refl hu0 hu1 (3 / 2))
      rw [mul_div_right_comm k] at w
      have w := w.fu_mul hu0 hu1 hτ hρ0 hv
      have hq : 0 ≤ e ^ (5 / 2 : ℝ) / π ^ (3 / 2 : ℝ) := by have := pi_pos; positivity
      rw [abs_of_nonneg hq, abs_of_pos (by norm_num : (0 : ℝ) < 3 / 2)] at w
      have hval : 2 * e ^ (5 / 2 : ℝ) / (3 * π ^ (3 / 2 : ℝ)) = e ^ (5 / 2 : ℝ) / π ^ (3 / 2 : ℝ) / (3 / 2) := by
        have : π ^ (3 / 2 : ℝ) ≠ 0 := (rpow_pos_of_pos pi_pos _).ne'
        field_simp
      simp only [bf, pBasis, gaussPeak, gaussFactor, if_true, Bool.false_eq_true, if_false] at fin hF0 ⊢
      rw [hval] at fin hF0 ⊢
      generalize e ^ (5 / 2 : ℝ) / π ^ (3 / 2 : ℝ) = F at *
      have w := w.mono hu0 hu1 (l := 23) (by norm_num) le_rfl
      rw [show r ^ 2 * r ^ 2 * exp (-e * r ^ 2) * F / (3 / 2) =
          F / (3 / 2) * (r ^ 2 * exp (-e * r ^ 2)) * r ^ 2 by ring] at w
      refine fin w (by field_simp) ?_
      · rw [hr4]
        generalize r ^ 2 = x at *
        have e3 : ((1 / e ^ 2 + u * τ * (5 * x ^ 2 + 3 * x + 4 * e + 2) + u * τ * ρ) * F + u * τ * ρ) / (3 / 2) +
            u * τ * ρ = 1 / e ^ 2 * F / (3 / 2) +
            u * τ * (F / (3 / 2) * (5 * x ^ 2 + 3 * x + 4 * e + 2 + ρ) + 5 / 3 * ρ) := by ring
        rw [e3]
        generalize F / (3 / 2) = H at *
        have b2 : H * (5 * x ^ 2 + 3 * x + 4 * e + 2 + ρ) + 5 / 3 * ρ ≤ 9 * ((1 + H) * (1 + e + x + x ^ 2)) := by
          have := mul_nonneg hF0 hx0
          have := mul_nonneg hF0 he.le
          have := mul_nonneg hF0 hx20
          have := mul_le_mul_of_nonneg_left hρ1 hF0
          nlinarith
        have b3 := mul_le_mul_of_nonneg_left b2 hw
        linarith
    | false =>
      simp only [Bool.false_eq_true, if_false] at h
      subst h
      simp only [bf, pBasis, gaussPeak, gaussFactor, Bool.false_eq_true, if_false] at fin ⊢
      refine fin (B := 1 / e ^ 2) (T := 1 / e ^ 2 + u * τ * (5 * (r ^ 2) ^ 2 + 3 * r ^ 2 + 4 * e + 2) + u * τ * ρ) ?_
        (by field_simp) ?_
      · have := G.mono hu0 hu1 (l := 23) (by norm_num) le_rfl
        rwa [show r ^ 2 * r ^ 2 * exp (-e * r ^ 2) = 1 * (r ^ 2 * exp (-e * r ^ 2)) * r ^ 2 by ring] at this
      · rw [hr4]
        generalize r ^ 2 = x at *
        have b2 : 5 * x ^ 2 + 3 * x + 4 * e + 2 + ρ ≤ 9 * ((1 + 1) * (1 + e + x + x ^ 2)) := by linarith
        have b3 := mul_le_mul_of_nonneg_left b2 hw
        linarith

theorem tail_monomials {c F q S : ℝ} (hc : 0 ≤ c) (hF : 0 ≤ F) (hq : 0 ≤ q) (hS : 1 ≤ S) :
    S * (c * (F * q)) ≤ (c + 1) * ((1 + F) * (1 + q) * S) ∧ S ≤ (c + 1) * ((1 + F) * (1 + q) * S) ∧
    q ≤ (c + 1) * ((1 + F) * (1 + q) * S) ∧ c * ((1 + F) * S) ≤ (c + 1) * ((1 + F) * (1 + q) * S) := by
  have hS0 : 0 ≤ S := by linarith
  have m1 : 0 ≤ S * c := by positivity
  have m2 : 0 ≤ S * F := by positivity
  have m3 : 0 ≤ S * q := by positivity
  have m4 : 0 ≤ S * (c * F) := by positivity
  have m5 : 0 ≤ S * (c * q) := by positivity
  have m6 : 0 ≤ S * (F * q) := by positivity
  have m7 : 0 ≤ S * (c * (F * q)) := by positivity
  have m8 : q ≤ S * q := le_mul_of_one_le_left hq hS
  refine ⟨?_, ?_, ?_, ?_⟩ <;> linarith

/-- The computed power of pi. -/
theorem piPow_rel (hf : FloatFormat u τ Ω) {p m : ℝ} (hp : Fl u p π) (hm : Fu u τ m (p ^ (3 / 2 : ℝ))) :
    Rel u 3 m (π ^ (3 / 2 : ℝ)) ∧ 1 ≤ p ^ (3 / 2 : ℝ) := by
  have hu0 := hf.u0
  have hu1 : u < 1 := by linarith [hf.u1]
  have hp' := hp
  unfold Fl at hp'
  rw [abs_of_pos pi_pos] at hp'
  have hpl := (abs_le.mp hp').1
  have p1 : 9 / 5 ≤ p := by nlinarith [hf.u1, two_le_pi]
  have q1 : 1 ≤ p ^ (3 / 2 : ℝ) := one_le_rpow (by linarith) (by norm_num)
  have hm := hm.normal (by linarith [hf.τ1])
  have w2 := (Rel.of_fl hu0 hu1 hm).trans hu0 hu1 ((Rel.of_fl hu0 hu1 hp).rpow hu0 hu1 (p := 3 / 2) (l := 2)
    pi_pos.le (by norm_num) (by norm_num))
  exact ⟨w2, q1⟩

/-- A power of the exponent that does not underflow. -/
theorem expPow_rel (hf : FloatFormat u τ Ω) {e s p : ℝ} (he : 0 < e) (hp0 : 0 ≤ p) (hp : p ≤ 5 / 2)
    (h2 : 100 * τ ≤ e ^ (5 / 2 : ℝ)) (hs : Fu u τ s (e ^ p)) : Rel u 1 s (e ^ p) := by
  have hu0 := hf.u0
  have hu1 : u < 1 := by linarith [hf.u1]
  refine Rel.of_fl hu0 hu1 (hs.normal ?_)
  rcases le_total e 1 with h | h
  · have := rpow_le_rpow_of_exponent_ge he h hp
    linarith [hf.τ0]
  · have := one_le_rpow h hp0
    linarith [hf.τ1]

theorem sNorm_div {e : ℝ} (he : 0 < e) : (e / π) ^ (3 / 2 : ℝ) / e = e ^ (1 / 2 : ℝ) / π ^ (3 / 2 : ℝ) := by
  have e2 : e ^ (3 / 2 : ℝ) = e * e ^ (1 / 2 : ℝ) := by
    rw [← Real.rpow_one_add' he.le (by norm_num)]; norm_num
  have : π ^ (3 / 2 : ℝ) ≠ 0 := (rpow_pos_of_pos pi_pos _).ne'
  rw [div_rpow he.le pi_pos.le, e2]
  field_simp

theorem pNorm_div {e : ℝ} (he : 0 < e) :
    2 * e ^ (5 / 2 : ℝ) / (3 * π ^ (3 / 2 : ℝ)) / e = 2 * (e ^ (3 / 2 : ℝ) / (3 * π ^ (3 / 2 : ℝ))) := by
  have e2 : e ^ (5 / 2 : ℝ) = e * e ^ (3 / 2 : ℝ) := by
    rw [← Real.rpow_one_add' he.le (by norm_num)]; norm_num
  have : π ^ (3 / 2 : ℝ) ≠ 0 := (rpow_pos_of_pos pi_pos _).ne'
  rw [e2]
  field_simp

/-- The exact value of the term added for normalised functions. -/
def normTerm (isS : Bool) (e r c : ℝ) : ℝ :=
  if isS then 3 / 2 * exp (-e * r ^ 2) * (c * e ^ (1 / 2 : ℝ)) / π ^ (3 / 2 : ℝ)
  else 5 * (r ^ 2 * exp (-e * r ^ 2)) * (c * e ^ (3 / 2 : ℝ)) / (3 * π ^ (3 / 2 : ℝ))

/-- The term of normalised functions. -/
theorem RNormTerm.near (hf : FloatFormat u τ Ω) {isS : Bool} {e r c ρ y : ℝ} (he : 0 < e)
    (h2 : 100 * τ ≤ e ^ (5 / 2 : ℝ)) (hρ : Fu u τ ρ (r ^ 2)) (h : RNormTerm u τ isS e ρ c y) :
    NearTop u 15 y (normTerm isS e r c) (gaussPeak isS true e / e * |c| * (if isS then 3 / 2 else 5 / 2))
      (gaussPeak isS true e / e * |c| * (if isS then 3 / 2 else 5 / 2) +
        u * τ * (35 * ((|c| + 1) * ((1 + gaussFactor isS true e) * (1 + 1 / e) * (1 + e + r ^ 2 + r ^ 4))))) := by
  have hu0 := hf.u0
  have hu1 : u < 1 := by linarith [hf.u1]
  have hτ := hf.τ0.le
  have hw := mul_nonneg hf.u0 hf.τ0.le
  have hw1 : u * τ ≤ 1 := by linarith [hf.ut]
  have hx0 : 0 ≤ r ^ 2 := sq_nonneg r
  have hr4 : 0 ≤ r ^ 4 := by positivity
  have hF0 := gaussFactor_nonneg isS true he
  have hq : 0 ≤ 1 / e := by positivity
  have hP1 : 1 ≤ π ^ (3 / 2 : ℝ) := one_le_rpow (by linarith [two_le_pi]) (by norm_num)
  obtain ⟨M1, M2, M3, -⟩ := tail_monomials (abs_nonneg c) hF0 hq (by linarith : 1 ≤ 1 + e + r ^ 2 + r ^ 4)
  obtain ⟨α, ε, p, m, hα, hε, hp, hm, h⟩ := h
  obtain ⟨g1, g2⟩ := gauss_near hf he hρ hα hε
  obtain ⟨Rm, q1⟩ := piPow_rel hf hp hm
  have hexp : exp (-(e * r ^ 2)) = exp (-e * r ^ 2) := by ring_nf
  rw [hexp] at g1 g2
  unfold normTerm
  cases isS with
  | true =>
    simp only [if_true, gaussPeak, gaussFactor] at h M1 M2 M3 hF0 ⊢
    obtain ⟨b, s, w, x, hb, hs, hwc, hx, hy⟩ := h
    have G : NearTop u 3 ε (exp (-e * r ^ 2)) 1 (1 + u * τ * (2 + e)) := by
      refine NearTop.of_abs hu0 hu1 ?_ (by positivity) (by push_cast; linarith)
      rw [abs_of_pos (exp_pos _)]
      exact exp_le_one_iff.mpr (by nlinarith)
    have w1 := ((NearTop.of_near (NearBy.refl hu0 hu1 (3 / 2))).mul G).fu hu0 hu1 hτ hb
    have w2 := ((NearTop.of_near (NearBy.refl hu0 hu1 c)).mul
      (NearTop.of_near (NearBy.of_rel hu0 hu1 (expPow_rel hf he (by norm_num) (by norm_num) h2 hs)))).fu hu0 hu1 hτ hwc
    have w3 := (((w1.mul w2).fu hu0 hu1 hτ hx).div_rel hu0 hu1 Rm).fu hu0 hu1 hτ hy
    have hs0 : 0 ≤ e ^ (1 / 2 : ℝ) := rpow_nonneg he.le _
    rw [abs_of_pos (by norm_num : (0 : ℝ) < 3 / 2), abs_of_nonneg hs0, abs_of_pos (by linarith : 0 < π ^ (3 / 2 : ℝ))]
      at w3
    have hd := sNorm_div he
    have hB : 3 / 2 * 1 * (|c| * e ^ (1 / 2 : ℝ)) / π ^ (3 / 2 : ℝ) = (e / π) ^ (3 / 2 : ℝ) * 1 / e * |c| * (3 / 2) := by
      rw [mul_one ((e / π) ^ (3 / 2 : ℝ)), hd]; ring
    rw [hB] at w3
    have w3 := w3.mono hu0 hu1 (l := 15) (by norm_num) le_rfl
    refine w3.mono hu0 hu1 le_rfl ?_
    rw [← hB]
    rw [show (e / π) ^ (3 / 2 : ℝ) * (1 / e) = e ^ (1 / 2 : ℝ) / π ^ (3 / 2 : ℝ) by rw [← hd]; ring] at M1
    generalize (|c| + 1) * ((1 + (e / π) ^ (3 / 2 : ℝ)) * (1 + 1 / e) * (1 + e + r ^ 2 + r ^ 4)) = X at *
    generalize π ^ (3 / 2 : ℝ) = P at *
    generalize e ^ (1 / 2 : ℝ) = s' at *
    have hP0 : 0 < P := by linarith
    have hc := abs_nonneg c
    generalize |c| = C at *
    have e1 : ((3 / 2 * (1 + u * τ * (2 + e)) + u * τ) * (C * s' + u * τ) + u * τ) / P + u * τ =
        3 / 2 * 1 * (C * s') / P + u * τ * ((4 + 3 / 2 * e) * (C * (s' / P)) +
          (3 / 2 + u * τ * (4 + 3 / 2 * e) + 1) / P + 1) := by ring
    rw [e1]
    have e2 : (3 / 2 + u * τ * (4 + 3 / 2 * e) + 1) / P ≤ 3 / 2 + (4 + 3 / 2 * e) + 1 := by
      refine (div_le_self (by positivity) hP1).trans ?_
      have := mul_le_of_le_one_left (by positivity : 0 ≤ 4 + 3 / 2 * e) hw1
      linarith
    have hcs : 0 ≤ C * (s' / P) := by positivity
    have e3 : (4 + 3 / 2 * e) * (C * (s' / P)) ≤ 4 * ((1 + e + r ^ 2 + r ^ 4) * (C * (s' / P))) := by
      rw [show 4 * ((1 + e + r ^ 2 + r ^ 4) * (C * (s' / P))) = 4 * (1 + e + r ^ 2 + r ^ 4) * (C * (s' / P)) by ring]
      exact mul_le_mul_of_nonneg_right (by linarith) hcs
    have e4 : (4 + 3 / 2 * e) * (C * (s' / P)) + (3 / 2 + u * τ * (4 + 3 / 2 * e) + 1) / P + 1 ≤ 35 * X := by linarith
    have := mul_le_mul_of_nonneg_left e4 hw
    linarith
  | false =>
    simp only [Bool.false_eq_true, if_false, if_true, gaussPeak, gaussFactor] at h M1 M2 M3 hF0 ⊢
    obtain ⟨g, b, s, w, x, d, hg, hb, hs, hwc, hx, hd', hy⟩ := h
    have hex := mul_exp_neg_le_one (e * r ^ 2)
    rw [hexp] at hex
    have G : NearTop u 5 (ε * ρ) (r ^ 2 * exp (-e * r ^ 2)) (1 / e) (1 / e + u * τ * (3 * r ^ 2 + 2 * e + 2)) := by
      refine NearTop.of_abs hu0 hu1 ?_ (by positivity) (g2.trans (le_of_eq ?_))
      · rw [abs_of_nonneg (by positivity), le_div_iff₀ he]
        linarith
      · push_cast; ring
    have G := G.fu hu0 hu1 hτ hg
    have w1 := ((NearTop.of_near (NearBy.refl hu0 hu1 5)).mul G).fu hu0 hu1 hτ hb
    have w2 := ((NearTop.of_near (NearBy.refl hu0 hu1 c)).mul
      (NearTop.of_near (NearBy.of_rel hu0 hu1 (expPow_rel hf he (by norm_num) (by norm_num) h2 hs)))).fu hu0 hu1 hτ hwc
    have Rd : Rel u 4 d (3 * π ^ (3 / 2 : ℝ)) := by
      have hm' := hm.normal (by linarith [hf.τ1])
      unfold Fl at hm'
      rw [abs_of_pos (by linarith : 0 < p ^ (3 / 2 : ℝ))] at hm'
      have k := (abs_le.mp hm').1
      have k2 : 9 / 10 ≤ m := by nlinarith [hf.u1]
      exact ((Rel.of_fl hu0 hu1 (hd'.normal (by linarith [hf.τ1]))).trans hu0 hu1
        ((Rel.refl hu0 hu1 3).mul hu0 hu1 Rm)).mono hu0 hu1 (by omega)
    have w3 := (((w1.mul w2).fu hu0 hu1 hτ hx).div_rel hu0 hu1 Rd).fu hu0 hu1 hτ hy
    have hs0 : 0 ≤ e ^ (3 / 2 : ℝ) := rpow_nonneg he.le _
    rw [abs_of_pos (by norm_num : (0 : ℝ) < 5), abs_of_nonneg hs0,
      abs_of_pos (by linarith : 0 < 3 * π ^ (3 / 2 : ℝ))] at w3
    have hd := pNorm_div he
    have hB : 5 * (1 / e) * (|c| * e ^ (3 / 2 : ℝ)) / (3 * π ^ (3 / 2 : ℝ)) =
        2 * e ^ (5 / 2 : ℝ) / (3 * π ^ (3 / 2 : ℝ)) * (1 / e) / e * |c| * (5 / 2) := by
      rw [(mul_one_div (2 * e ^ (5 / 2 : ℝ) / (3 * π ^ (3 / 2 : ℝ))) e).trans hd]; ring
    rw [hB] at w3
    have w3 := w3.mono hu0 hu1 (l := 15) (by norm_num) le_rfl
    refine w3.mono hu0 hu1 le_rfl ?_
    rw [← hB]
    rw [mul_one_div, hd] at M1
    generalize (|c| + 1) * ((1 + 2 * e ^ (5 / 2 : ℝ) / (3 * π ^ (3 / 2 : ℝ))) * (1 + 1 / e) *
      (1 + e + r ^ 2 + r ^ 4)) = X at *
    have hP3 : 1 ≤ 3 * π ^ (3 / 2 : ℝ) := by linarith
    generalize 3 * π ^ (3 / 2 : ℝ) = P at *
    generalize e ^ (3 / 2 : ℝ) = s' at *
    have hP0 : 0 < P := by linarith
    have hc := abs_nonneg c
    generalize |c| = C at *
    have e1 : ((5 * (1 / e + u * τ * (3 * r ^ 2 + 2 * e + 2) + u * τ) + u * τ) * (C * s' + u * τ) + u * τ) / P + u * τ =
        5 * (1 / e) * (C * s') / P + u * τ * ((15 * r ^ 2 + 10 * e + 16) * (C * (s' / P)) +
          (5 * (1 / e) + u * τ * (15 * r ^ 2 + 10 * e + 16) + 1) / P + 1) := by ring
    rw [e1]
    have e2 : (5 * (1 / e) + u * τ * (15 * r ^ 2 + 10 * e + 16) + 1) / P ≤
        5 * (1 / e) + (15 * r ^ 2 + 10 * e + 16) + 1 := by
      refine (div_le_self (by positivity) hP3).trans ?_
      have := mul_le_of_le_one_left (by positivity : 0 ≤ 15 * r ^ 2 + 10 * e + 16) hw1
      linarith
    have hcs : 0 ≤ C * (s' / P) := by positivity
    have e3 : (15 * r ^ 2 + 10 * e + 16) * (C * (s' / P)) ≤ 8 * ((1 + e + r ^ 2 + r ^ 4) * (C * (2 * (s' / P)))) := by
      rw [show 8 * ((1 + e + r ^ 2 + r ^ 4) * (C * (2 * (s' / P)))) =
        16 * (1 + e + r ^ 2 + r ^ 4) * (C * (s' / P)) by ring]
      exact mul_le_mul_of_nonneg_right (by linarith) hcs
    have e4 : (15 * r ^ 2 + 10 * e + 16) * (C * (s' / P)) +
        (5 * (1 / e) + u * τ * (15 * r ^ 2 + 10 * e + 16) + 1) / P + 1 ≤ 35 * X := by linarith
    have := mul_le_mul_of_nonneg_left e4 hw
    linarith

/-- The derivative in the exponent by its two terms. -/
theorem hasDerivAt_bf_terms (isS norm : Bool) {e : ℝ} (r c : ℝ) (he : 0 < e) :
    HasDerivAt (fun a => c * bf isS norm a r)
      (-(bf isS norm e r * r ^ 2) * c + if norm then normTerm isS e r c else 0) e := by
  cases isS with
  | true =>
    refine ((hasDerivAt_sBasis norm e r fun _ => he).const_mul c).congr_deriv ?_
    cases norm <;> simp [bf, sBasis, dsBasis, normTerm] <;> ring
  | false =>
    refine ((hasDerivAt_pBasis norm e r fun _ => he).const_mul c).congr_deriv ?_
    cases norm <;> simp [bf, pBasis, dpBasis, normTerm] <;> ring

/-- **C147.**  The derivatives in the exponents returned by `evaluate(..., deriv=True)`, computed with rounding and
underflow: at every distance they are the derivatives of the model density, up to a small multiple of a bound of the
derivative and a small multiple of the smallest positive number. -/
theorem C147_deriv (hf : FloatFormat u τ Ω) (isS norm : Bool) (e r c v : ℝ) (he : 0 < e)
    (hn : norm = true → 100 * τ ≤ e ∧ 100 * τ ≤ e ^ (5 / 2 : ℝ)) (h : RDeriv u τ isS norm e r c v) :
    ∃ D, HasDerivAt (fun a => c * bf isS norm a r) D e ∧
      |v - D| ≤ (1 / (1 - u) ^ 26 - 1) * (|c| * gaussDPeak isS norm e) +
        1 / (1 - u) ^ 26 * (u * τ * ((|c| + 1) * gaussDTail isS norm e r)) := by
  have hu0 := hf.u0
  have hu1 : u < 1 := by linarith [hf.u1]
  have hw := mul_nonneg hf.u0 hf.τ0.le
  have hr4 : 0 ≤ r ^ 4 := by positivity
  have hx0 : 0 ≤ r ^ 2 := sq_nonneg r
  have hF0 := gaussFactor_nonneg isS norm he
  refine ⟨_, hasDerivAt_bf_terms isS norm r c he, ?_⟩
  obtain ⟨ρ, α, ε, φ, q, t, hρ, hα, hε, hφ, hq, ht, h⟩ := h
  have w1 := RValue.near hf he hn hρ hα hε hφ hq ht
  obtain ⟨-, M2, -, M4⟩ := tail_monomials (abs_nonneg c) hF0 (by positivity : 0 ≤ 1 / e)
    (by linarith : 1 ≤ 1 + e + r ^ 2 + r ^ 4)
  have k : NearTop u 26 v (-(bf isS norm e r * r ^ 2) * c + if norm then normTerm isS e r c else 0)
      (|c| * gaussDPeak isS norm e) (|c| * gaussDPeak isS norm e + u * τ * ((|c| + 1) * gaussDTail isS norm e r)) := by
    unfold gaussDPeak gaussDTail
    cases norm with
    | true =>
      simp only [if_true] at h ⊢
      obtain ⟨y, hy, hv⟩ := h
      have w2 := (RNormTerm.near hf he (hn rfl).2 hρ hy).mono hu0 hu1 (l := 25) (by norm_num) le_rfl
      have w3 := (w1.add w2).rel_left hu0 hu1 (Rel.of_fl hu0 hu1 hv)
      have e1 : gaussPeak isS true e / e * |c| + gaussPeak isS true e / e * |c| * (if isS then 3 / 2 else 5 / 2) =
          |c| * (gaussPeak isS true e / e * (if isS then 5 / 2 else 7 / 2)) := by
        split_ifs <;> ring
      rw [e1] at w3
      refine w3.mono hu0 hu1 le_rfl ?_
      rw [show (|c| + 1) * (50 * ((1 + gaussFactor isS true e) * (1 + 1 / e) * (1 + e + r ^ 2 + r ^ 4))) =
        50 * ((|c| + 1) * ((1 + gaussFactor isS true e) * (1 + 1 / e) * (1 + e + r ^ 2 + r ^ 4))) by ring]
      generalize (|c| + 1) * ((1 + gaussFactor isS true e) * (1 + 1 / e) * (1 + e + r ^ 2 + r ^ 4)) = X at *
      have e2 : gaussPeak isS true e / e * |c| +
          u * τ * (10 * (|c| * ((1 + gaussFactor isS true e) * (1 + e + r ^ 2 + r ^ 4))) + 1) +
          (gaussPeak isS true e / e * |c| * (if isS then 3 / 2 else 5 / 2) + u * τ * (35 * X)) =
          |c| * (gaussPeak isS true e / e * (if isS then 5 / 2 else 7 / 2)) +
          u * τ * (10 * (|c| * ((1 + gaussFactor isS true e) * (1 + e + r ^ 2 + r ^ 4))) + 1 + 35 * X) := by
        rw [← e1]; ring
      rw [e2]
      have e3 : 10 * (|c| * ((1 + gaussFactor isS true e) * (1 + e + r ^ 2 + r ^ 4))) + 1 + 35 * X ≤ 50 * X := by
        linarith
      have := mul_le_mul_of_nonneg_left e3 hw
      linarith
    | false =>
      simp only [Bool.false_eq_true, if_false, add_zero, mul_one] at h ⊢
      subst h
      rw [mul_comm |c|]
      refine w1.mono hu0 hu1 (by norm_num) ?_
      rw [show (|c| + 1) * (50 * ((1 + gaussFactor isS false e) * (1 + 1 / e) * (1 + e + r ^ 2 + r ^ 4))) =
        50 * ((|c| + 1) * ((1 + gaussFactor isS false e) * (1 + 1 / e) * (1 + e + r ^ 2 + r ^ 4))) by ring]
      generalize (|c| + 1) * ((1 + gaussFactor isS false e) * (1 + 1 / e) * (1 + e + r ^ 2 + r ^ 4)) = X at *
      have e3 : 10 * (|c| * ((1 + gaussFactor isS false e) * (1 + e + r ^ 2 + r ^ 4))) + 1 ≤ 50 * X := by
        linarith
      have := mul_le_mul_of_nonneg_left e3 hw
      linarith
  refine k.2.2.trans (le_of_eq ?_)
  ring

/-- **C147.**  Without rounding and underflow the computed number is the derivative. -/
theorem C147_exact (isS norm : Bool) (e r c v : ℝ) (he : 0 < e) (h : RDeriv 0 τ isS norm e r c v) :
    HasDerivAt (fun a => c * bf isS norm a r) v e := by
  refine (hasDerivAt_bf_terms isS norm r c he).congr_deriv ?_
  obtain ⟨ρ, α, ε, φ, q, t, hρ, hα, hε, hφ, hq, ht, h⟩ := h
  have hρ := hρ.zero
  have hα := hα.zero
  have hε := hε.zero
  have hq := hq.zero
  have ht := ht.zero
  have h32 : (3 : ℝ) / 2 ≠ 0 := by norm_num
  have hφ' : φ = bf isS norm e r := by
    unfold RValue at hφ
    unfold bf sBasis pBasis
    cases isS with
    | true =>
      cases norm with
      | true =>
        simp only [if_true] at hφ ⊢
        obtain ⟨p, d, n, hp, hd, hn, hv⟩ := hφ
        rw [hv.zero, hn.zero, hd.zero, hp.zero, hε, hα, hρ, mul_comm]
      | false =>
        simp only [if_true, Bool.false_eq_true, if_false, one_mul] at hφ ⊢
        rw [hφ, hε, hα, hρ]
    | false =>
      simp only [Bool.false_eq_true, if_false] at hφ ⊢
      obtain ⟨g, hg, hφ⟩ := hφ
      have hg := hg.zero
      cases norm with
      | true =>
        simp only [if_true] at hφ ⊢
        obtain ⟨p, n, m, d, k, hp, hn, hm, hd, hk, hv⟩ := hφ
        rw [hv.zero, hk.zero, hd.zero, hm.zero, hn.zero, hp.zero, hg, hε, hα, hρ]
        have : π ^ (3 / 2 : ℝ) ≠ 0 := (rpow_pos_of_pos pi_pos _).ne'
        field_simp
      | false =>
        simp only [Bool.false_eq_true, if_false, one_mul] at hφ ⊢
        rw [hφ, hg, hε, hα, hρ, mul_comm]
  cases norm with
  | false =>
    simp only [Bool.false_eq_true, if_false, add_zero] at h ⊢
    rw [h, ht, hq, hφ', hρ]
    ring
  | true =>
    simp only [if_true] at h ⊢
    obtain ⟨y, ⟨a, E, p, m, ha, hE, hp, hm, hy⟩, hv⟩ := h
    have ha := ha.zero
    have hE := hE.zero
    have hp := hp.zero
    have hm := hm.zero
    rw [hv.zero, ht, hq, hφ', hρ]
    congr 1
    · ring
    · unfold normTerm
      cases isS with
      | true =>
        simp only [if_true] at hy ⊢
        obtain ⟨b, s, w, x, hb, hs, hw, hx, hy⟩ := hy
        rw [hy.zero, hx.zero, hw.zero, hs.zero, hb.zero, hE, ha, hm, hp, hρ]
      | false =>
        simp only [Bool.false_eq_true, if_false] at hy ⊢
        obtain ⟨g, b, s, w, x, d, hg, hb, hs, hw, hx, hd, hy⟩ := hy
        rw [hy.zero, hd.zero, hx.zero, hw.zero, hs.zero, hb.zero, hg.zero, hE, ha, hm, hp, hρ]
        ring

/-- Executions exist, so the theorems are not vacuous. -/
theorem RDeriv.total (h0 : 0 ≤ u) (isS norm : Bool) (e r c : ℝ) : ∃ v, RDeriv u τ isS norm e r c v := by
  have hv : ∃ φ, RValue u τ isS norm e (r ^ 2) (exp (-e * r ^ 2)) φ := by
    unfold RValue
    cases isS <;> cases norm <;> simp only [if_true, Bool.false_eq_true, if_false]
    · exact ⟨_, _, Fu.refl h0 _, rfl⟩
    · exact ⟨_, _, Fu.refl h0 _, _, _, _, _, _, Fl.refl h0 _, Fu.refl h0 _, Fu.refl h0 _, Fu.refl h0 _, Fu.refl h0 _,
        Fu.refl h0 _⟩
    · exact ⟨_, rfl⟩
    · exact ⟨_, _, _, _, Fl.refl h0 _, Fu.refl h0 _, Fu.refl h0 _, Fu.refl h0 _⟩
  have hy : ∃ y, RNormTerm u τ isS e (r ^ 2) c y := by
    unfold RNormTerm
    cases isS <;> simp only [if_true, Bool.false_eq_true, if_false]
    · exact ⟨_, _, _, _, _, Fu.refl h0 _, Fu.refl h0 _, Fl.refl h0 _, Fu.refl h0 _, _, _, _, _, _, _, Fu.refl h0 _,
        Fu.refl h0 _, Fu.refl h0 _, Fu.refl h0 _, Fu.refl h0 _, Fu.refl h0 _, Fu.refl h0 _⟩
    · exact ⟨_, _, _, _, _, Fu.refl h0 _, Fu.refl h0 _, Fl.refl h0 _, Fu.refl h0 _, _, _, _, _, Fu.refl h0 _,
        Fu.refl h0 _, Fu.refl h0 _, Fu.refl h0 _, Fu.refl h0 _⟩
  obtain ⟨φ, hφ⟩ := hv
  obtain ⟨y, hy⟩ := hy
  refine ⟨-φ * r ^ 2 * c + if norm then y else 0, _, _, _, φ, _, _, Fu.refl h0 _, Fu.refl h0 _, Fu.refl h0 _, hφ,
    Fu.refl h0 _, Fu.refl h0 _, ?_⟩
  cases norm with
  | true => exact ⟨y, hy, Fl.refl h0 _⟩
  | false => simp

theorem deriv_format (hf : FloatFormat u τ Ω) (hu : u = 1 / 2 ^ 53) (hτ : τ * 10 ^ 150 ≤ 1) (isS norm : Bool)
    (e r c v : ℝ) (h1 : 1 / 10 ^ 13 ≤ e) (h2 : e ≤ 10 ^ 10) (hr : |r| ≤ 10 ^ 6) (h : RDeriv u τ isS norm e r c v) :
    ∃ D, HasDerivAt (fun a => c * bf isS norm a r) D e ∧
      |v - D| ≤ 1 / 2 ^ 48 * (|c| * gaussDPeak isS norm e) + u * τ * 2 ^ 260 * (|c| + 1) := by
  have he : 0 < e := lt_of_lt_of_le (by norm_num) h1
  have hu1 : u < 1 := by rw [hu]; norm_num
  have hw := mul_nonneg hf.u0 hf.τ0.le
  have h5 := pow_five_half_bounds h1 h2
  have h3 : τ ≤ 1 / 10 ^ 150 := by rwa [le_div_iff₀ (by norm_num)]
  obtain ⟨D, hD, hv⟩ := C147_deriv hf isS norm e r c v he (fun _ =>
    ⟨le_trans (mul_le_mul_of_nonneg_left h3 (by norm_num)) (le_trans (by norm_num) h1),
      le_trans (mul_le_mul_of_nonneg_left h3 (by norm_num)) (le_trans (by norm_num) h5.1)⟩) h
  refine ⟨D, hD, hv.trans ?_⟩
  have hg : 1 / (1 - u) ^ 26 ≤ 1 + 1 / 2 ^ 48 := by
    refine (inv_pow_le hu1.le 26 (by rw [hu]; norm_num)).trans ?_
    rw [hu]; norm_num
  have hF0 := gaussFactor_nonneg isS norm he
  have hF : gaussFactor isS norm e ≤ 10 ^ 32 := by
    have := gaussFactor_le isS norm he
    have := h5.2
    norm_num at *
    linarith
  have hP0 : 0 ≤ |c| * gaussDPeak isS norm e := by
    unfold gaussDPeak gaussPeak
    split_ifs <;> positivity
  have hx0 : 0 ≤ r ^ 2 := sq_nonneg r
  have hx2 : r ^ 2 ≤ 10 ^ 12 := by
    rw [← sq_abs]
    have := pow_le_pow_left₀ (abs_nonneg r) hr 2
    norm_num at *
    linarith
  have hx4 : r ^ 4 ≤ 10 ^ 24 := by
    rw [show r ^ 4 = (r ^ 2) ^ 2 by ring]
    have := pow_le_pow_left₀ hx0 hx2 2
    norm_num at *
    linarith
  have hq : 1 / e ≤ 10 ^ 13 := by
    rw [div_le_iff₀ he]
    norm_num at h1 ⊢
    linarith
  have hq0 : 0 ≤ 1 / e := by positivity
  have hT : gaussDTail isS norm e r ≤ 2 ^ 259 := by
    unfold gaussDTail
    have k1 : 1 + gaussFactor isS norm e ≤ 10 ^ 33 := by norm_num at *; linarith
    have k2 : 1 + 1 / e ≤ 10 ^ 14 := by norm_num at *; linarith
    have k3 : 1 + e + r ^ 2 + r ^ 4 ≤ 10 ^ 25 := by norm_num at *; linarith
    have k4 := mul_le_mul (mul_le_mul k1 k2 (by linarith) (by norm_num)) k3 (by positivity) (by norm_num)
    refine (mul_le_mul_of_nonneg_left k4 (by norm_num)).trans ?_
    have k5 : (50 : ℝ) * (10 ^ 33 * 10 ^ 14 * 10 ^ 25) ≤ 2 ^ 250 := by norm_num
    exact k5.trans (pow_le_pow_right₀ (by norm_num) (by norm_num))
  have hT0 : 0 ≤ gaussDTail isS norm e r := by unfold gaussDTail; positivity
  refine add_le_add (mul_le_mul_of_nonneg_right (by linarith) hP0) ?_
  have hg2 : 1 / (1 - u) ^ 26 ≤ 2 := hg.trans (by norm_num)
  have hc : 0 ≤ |c| + 1 := by positivity
  have k1 := mul_le_mul_of_nonneg_left hT (mul_nonneg hw hc)
  have k2 := mul_le_mul_of_nonneg_right hg2 (by positivity : 0 ≤ u * τ * ((|c| + 1) * gaussDTail isS norm e r))
  have e260 : (2 : ℝ) ^ 260 = 2 * 2 ^ 259 := pow_succ' 2 259
  rw [e260]
  generalize (2 : ℝ) ^ 259 = A at *
  linarith

/-- Double precision without overflow: for exponents from `10⁻¹³` to `10¹⁰` and distances up to `10⁶` the derivatives in the
exponents are right up to `2⁻⁴⁸` times a bound of the derivative, and `2⁻⁸⁰⁰`. -/
theorem deriv_double (isS norm : Bool) (e r c v : ℝ) (h1 : 1 / 10 ^ 13 ≤ e) (h2 : e ≤ 10 ^ 10) (hr : |r| ≤ 10 ^ 6)
    (h : RDeriv (1 / 2 ^ 53) (1 / 2 ^ 1022) isS norm e r c v) :
    ∃ D, HasDerivAt (fun a => c * bf isS norm a r) D e ∧
      |v - D| ≤ 1 / 2 ^ 48 * (|c| * gaussDPeak isS norm e) + 1 / 2 ^ 800 * (|c| + 1) := by
  have hf := C144_double
  have e2 : (2 : ℝ) ^ 1022 = 2 ^ 800 * 2 ^ 222 := by rw [← pow_add]
  have e3 : (10 : ℝ) ^ 150 ≤ 2 ^ 1022 := by
    have h1 : (10 : ℝ) ^ 150 ≤ (2 ^ 4) ^ 150 := pow_le_pow_left₀ (by norm_num) (by norm_num) 150
    rw [← pow_mul] at h1
    exact h1.trans (pow_le_pow_right₀ (by norm_num) (by norm_num))
  have e4 : (0 : ℝ) < 2 ^ 800 := pow_pos (by norm_num) _
  have e5 : (2 : ℝ) ^ 260 = 2 ^ 222 * 2 ^ 38 := by rw [← pow_add]
  have e6 : (0 : ℝ) < 2 ^ 222 := pow_pos (by norm_num) _
  generalize (2 : ℝ) ^ 1023 = Ω at *
  generalize (2 : ℝ) ^ 1022 = T at *
  have hT : 0 < T := lt_of_lt_of_le (by norm_num) e3
  obtain ⟨D, hD, hv⟩ := deriv_format hf rfl (by rw [one_div_mul_eq_div, div_le_one hT]; exact e3) isS norm e r c v h1 h2
    hr h
  refine ⟨D, hD, hv.trans ?_⟩
  rw [e5]
  generalize (2 : ℝ) ^ 800 = A at *
  generalize (2 : ℝ) ^ 222 = B at *
  have : 1 / 2 ^ 53 * (1 / T) * (B * 2 ^ 38) ≤ 1 / A := by
    rw [e2, le_div_iff₀ e4]
    have : 1 / 2 ^ 53 * (1 / (A * B)) * (B * 2 ^ 38) * A = 1 / 2 ^ 15 := by
      field_simp
    rw [this]
    norm_num
  linarith [mul_le_mul_of_nonneg_right this (by positivity : 0 ≤ |c| + 1)]

/-- The same operations with a normalised p-type function of exponent 2 at distance 1/2. -/
example : ∃ v D : ℝ, RDeriv (1 / 2 ^ 53) (1 / 2 ^ 1022) false true 2 (1 / 2) (-3) v ∧
    HasDerivAt (fun a => -3 * bf false true a (1 / 2)) D 2 ∧
    |v - D| ≤ 1 / 2 ^ 48 * (|-3| * gaussDPeak false true 2) + 1 / 2 ^ 800 * (|-3| + 1) := by
  obtain ⟨v, hv⟩ := RDeriv.total (τ := 1 / 2 ^ 1022) (by positivity : (0 : ℝ) ≤ 1 / 2 ^ 53) false true 2 (1 / 2) (-3)
  obtain ⟨D, hD⟩ := deriv_double false true 2 (1 / 2) (-3) v (by norm_num) (by norm_num)
    (by rw [abs_of_pos] <;> norm_num) hv
  exact ⟨v, D, hv, hD⟩

end
end BFit
