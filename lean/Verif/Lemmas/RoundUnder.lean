import Verif.Lemmas.RoundQuad

/-! Accumulated relative errors together with an absolute error from underflow. -/

namespace BFit

open Real Classical Finset

noncomputable section

/-- `a` is `b` up to `k` relative errors and an absolute error `δ` (itself up to `k` relative errors). -/
def Ap (u : ℝ) (k : ℕ) (δ a b : ℝ) : Prop :=
  ∃ t s, (1 - u) ^ k ≤ t ∧ t * (1 - u) ^ k ≤ 1 ∧ |s| * (1 - u) ^ k ≤ δ ∧ a = b * t + s

section
variable {u : ℝ} (h0 : 0 ≤ u) (h1 : u < 1)
include h0 h1

theorem Ap.of_rel {k : ℕ} {a b : ℝ} (h : Rel u k a b) : Ap u k 0 a b := by
  obtain ⟨t, h2, h3, rfl⟩ := h
  exact ⟨t, 0, h2, h3, by simp, by simp⟩

theorem Ap.mono {k l : ℕ} {δ ε a b : ℝ} (h : Ap u k δ a b) (hkl : k ≤ l) (hδ : δ ≤ ε) : Ap u l ε a b := by
  obtain ⟨t, s, ht, ht', hs, rfl⟩ := h
  have hp : (1 - u) ^ l ≤ (1 - u) ^ k := pow_le_pow_of_le_one (by linarith) (by linarith) hkl
  have ht0 : 0 ≤ t := (pow_nonneg (by linarith) k).trans ht
  exact ⟨t, s, hp.trans ht, (mul_le_mul_of_nonneg_left hp ht0).trans ht',
    (mul_le_mul_of_nonneg_left hp (abs_nonneg s)).trans (hs.trans hδ), rfl⟩

theorem Ap.of_fu {τ v x : ℝ} (hτ : 0 ≤ τ) (h : Fu u τ v x) : Ap u 1 (u * τ) v x := by
  rcases h with h | ⟨-, -, h, -⟩
  · exact (Ap.of_rel h0 h1 (Rel.of_fl h0 h1 h)).mono h0 h1 le_rfl (mul_nonneg h0 hτ)
  · refine ⟨1, v - x, by simp; exact h0, by simp; exact h0, ?_, by ring⟩
    rw [pow_one]
    exact (mul_le_of_le_one_right (abs_nonneg _) (by linarith)).trans h

theorem Ap.trans {k l : ℕ} {δ ε a b c : ℝ} (h : Ap u k δ a b) (h' : Ap u l ε b c) :
    Ap u (k + l) (δ + ε) a c := by
  obtain ⟨t, s, ht, ht', hs, rfl⟩ := h
  obtain ⟨r, q, hr, hr', hq, rfl⟩ := h'
  have hu : 0 ≤ 1 - u := by linarith
  have hk : 0 ≤ (1 - u) ^ k := pow_nonneg hu k
  have hl : 0 ≤ (1 - u) ^ l := pow_nonneg hu l
  have hl1 : (1 - u) ^ l ≤ 1 := pow_le_one₀ hu (by linarith)
  have ht0 : 0 ≤ t := hk.trans ht
  refine ⟨r * t, q * t + s, ?_, ?_, ?_, by ring⟩
  · rw [pow_add, mul_comm]
    exact mul_le_mul hr ht hk (hl.trans hr)
  · rw [pow_add, show r * t * ((1 - u) ^ k * (1 - u) ^ l) = (t * (1 - u) ^ k) * (r * (1 - u) ^ l) by ring]
    exact mul_le_one₀ ht' (mul_nonneg (hl.trans hr) hl) hr'
  · have e1 : |q * t| * (1 - u) ^ (k + l) ≤ ε := by
      rw [abs_mul, abs_of_nonneg ht0, pow_add,
        show |q| * t * ((1 - u) ^ k * (1 - u) ^ l) = (t * (1 - u) ^ k) * (|q| * (1 - u) ^ l) by ring]
      exact (mul_le_of_le_one_left (mul_nonneg (abs_nonneg _) hl) ht').trans hq
    have e2 : |s| * (1 - u) ^ (k + l) ≤ δ := by
      rw [pow_add, ← mul_assoc]
      exact (mul_le_of_le_one_right (mul_nonneg (abs_nonneg _) hk) hl1).trans hs
    have e3 := mul_le_mul_of_nonneg_right (abs_add_le (q * t) s) (pow_nonneg hu (k + l))
    linarith

theorem Ap.mul_rel {k l : ℕ} {δ a b c d : ℝ} (h : Ap u k δ a b) (h' : Rel u l c d) :
    Ap u (k + l) (δ * |d|) (a * c) (b * d) := by
  obtain ⟨t, s, ht, ht', hs, rfl⟩ := h
  obtain ⟨r, hr, hr', rfl⟩ := h'
  have hu : 0 ≤ 1 - u := by linarith
  have hk : 0 ≤ (1 - u) ^ k := pow_nonneg hu k
  have hl : 0 ≤ (1 - u) ^ l := pow_nonneg hu l
  have hr0 : 0 ≤ r := hl.trans hr
  refine ⟨t * r, s * (d * r), ?_, ?_, ?_, by ring⟩
  · rw [pow_add]
    exact mul_le_mul ht hr hl (hk.trans ht)
  · rw [pow_add, show t * r * ((1 - u) ^ k * (1 - u) ^ l) = (t * (1 - u) ^ k) * (r * (1 - u) ^ l) by ring]
    exact mul_le_one₀ ht' (mul_nonneg hr0 hl) hr'
  · rw [abs_mul, abs_mul, abs_of_nonneg hr0, pow_add,
      show |s| * (|d| * r) * ((1 - u) ^ k * (1 - u) ^ l) =
        (|s| * (1 - u) ^ k * |d|) * (r * (1 - u) ^ l) by ring]
    exact (mul_le_of_le_one_right (by positivity) hr').trans
      (mul_le_mul_of_nonneg_right hs (abs_nonneg d))

theorem Ap.mul_const {k : ℕ} {δ a b : ℝ} (h : Ap u k δ a b) {z : ℝ} (hz : 0 ≤ z) :
    Ap u k (δ * z) (a * z) (b * z) := by
  have := h.mul_rel h0 h1 (Rel.refl h0 h1 z)
  rwa [abs_of_nonneg hz] at this

theorem Ap.const_mul {k : ℕ} {δ a b : ℝ} (h : Ap u k δ a b) {z : ℝ} (hz : 0 ≤ z) :
    Ap u k (z * δ) (z * a) (z * b) := by
  simpa only [mul_comm z] using h.mul_const h0 h1 hz

theorem Ap.symm {k : ℕ} {δ a b : ℝ} (h : Ap u k δ a b) : Ap u (2 * k) δ b a := by
  obtain ⟨t, s, ht, ht', hs, rfl⟩ := h
  have hu : 0 < 1 - u := by linarith
  have hk : 0 < (1 - u) ^ k := pow_pos hu k
  have ht0 : 0 < t := hk.trans_le ht
  have h2 : (1 - u) ^ (2 * k) ≤ (1 - u) ^ k := pow_le_pow_of_le_one hu.le (by linarith) (by omega)
  have hq : (1 - u) ^ k / t ≤ 1 := by rw [div_le_one ht0]; exact ht
  refine ⟨t⁻¹, -(s / t), ?_, ?_, ?_, by field_simp; ring⟩
  · refine h2.trans ?_
    rw [le_inv_comm₀ hk ht0, ← one_div, le_div_iff₀ hk]
    exact ht'
  · refine (mul_le_mul_of_nonneg_left h2 (by positivity)).trans ?_
    rw [inv_mul_le_iff₀ ht0, mul_one]
    exact ht
  · rw [abs_neg, abs_div, abs_of_pos ht0, two_mul, pow_add,
      show |s| / t * ((1 - u) ^ k * (1 - u) ^ k) = (|s| * (1 - u) ^ k) * ((1 - u) ^ k / t) by ring]
    exact (mul_le_of_le_one_right (mul_nonneg (abs_nonneg _) hk.le) hq).trans hs

theorem Ap.sum {k n : ℕ} {δ a b : ℕ → ℝ} (h : ∀ i < n, Ap u k (δ i) (a i) (b i)) (hb : ∀ i < n, 0 ≤ b i) :
    Ap u k (∑ i ∈ range n, δ i) (∑ i ∈ range n, a i) (∑ i ∈ range n, b i) := by
  have hk : 0 ≤ (1 - u) ^ k := pow_nonneg (by linarith) k
  choose! t s ht ht' hs hab using h
  have r : Rel u k (∑ i ∈ range n, b i * t i) (∑ i ∈ range n, b i) :=
    Rel.sum h0 h1 (fun i hi => ⟨t i, ht i hi, ht' i hi, rfl⟩) hb
  obtain ⟨t', h2, h3, h4⟩ := r
  refine ⟨t', ∑ i ∈ range n, s i, h2, h3, ?_, ?_⟩
  · refine (mul_le_mul_of_nonneg_right (abs_sum_le_sum_abs _ _) hk).trans ?_
    rw [sum_mul]
    exact sum_le_sum fun i hi => hs i (mem_range.mp hi)
  · rw [← h4, ← sum_add_distrib]
    exact sum_congr rfl fun i hi => hab i (mem_range.mp hi)

theorem Ap.add {k : ℕ} {δ ε a b c d : ℝ} (h : Ap u k δ a b) (h' : Ap u k ε c d) (hb : 0 ≤ b) (hd : 0 ≤ d) :
    Ap u k (δ + ε) (a + c) (b + d) := by
  have := Ap.sum h0 h1 (k := k) (n := 2) (δ := fun i => if i = 0 then δ else ε)
    (a := fun i => if i = 0 then a else c) (b := fun i => if i = 0 then b else d)
    (fun i _ => by by_cases hi : i = 0 <;> simp only [hi, if_true, if_false] <;> assumption)
    (fun i _ => by by_cases hi : i = 0 <;> simp only [hi, if_true, if_false] <;> assumption)
  simpa [sum_range_succ] using this

theorem Ap.bounds {k : ℕ} {δ a b : ℝ} (h : Ap u k δ a b) (hb : 0 ≤ b) :
    b * (1 - u) ^ k ≤ a + δ / (1 - u) ^ k ∧ a * (1 - u) ^ k ≤ b + δ := by
  obtain ⟨t, s, ht, ht', hs, rfl⟩ := h
  have hk : 0 < (1 - u) ^ k := pow_pos (by linarith) k
  constructor
  · have e1 := mul_le_mul_of_nonneg_left ht hb
    have e2 : |s| ≤ δ / (1 - u) ^ k := by rw [le_div_iff₀ hk]; exact hs
    have e3 := neg_abs_le s
    linarith
  · have e1 : b * t * (1 - u) ^ k ≤ b := by
      rw [mul_assoc]; exact mul_le_of_le_one_right hb ht'
    have e2 := mul_le_mul_of_nonneg_right (le_abs_self s) hk.le
    rw [add_mul]
    linarith

theorem Ap.abs_sub {k : ℕ} {δ a b : ℝ} (h : Ap u k δ a b) :
    |a - b| ≤ (1 / (1 - u) ^ k - 1) * |b| + δ / (1 - u) ^ k := by
  obtain ⟨t, s, ht, ht', hs, rfl⟩ := h
  have hk : 0 < (1 - u) ^ k := pow_pos (by linarith) k
  have e1 := Rel.abs_sub h0 h1 (k := k) (a := b * t) (b := b) ⟨t, ht, ht', rfl⟩
  have e2 : |s| ≤ δ / (1 - u) ^ k := by rw [le_div_iff₀ hk]; exact hs
  rw [show b * t + s - b = (b * t - b) + s by ring]
  exact (abs_add_le _ _).trans (add_le_add e1 e2)

variable {τ : ℝ} (hτ : 0 ≤ τ)
include hτ

/-- The trapezoid sum with rounding and underflow. -/
theorem RTrapz.ap {N : ℕ} {x y : ℕ → ℝ} {v : ℝ} (h : RTrapz u τ N x y v) :
    ∃ b : ℕ → ℝ, (∀ i < N - 1,
        Ap u (N + 2) (2 * (u * τ)) (b i) ((x (i + 1) - x i) * (y (i + 1) + y i) / 2)) ∧
      v = ∑ i ∈ range (N - 1), b i := by
  obtain ⟨t, ht, hs⟩ := h
  obtain ⟨b, hb, rfl⟩ := hs.rel_tab h0 h1
  refine ⟨b, fun i hi => ?_, rfl⟩
  obtain ⟨d, s, p, hd, hs, hp, ht⟩ := ht i (by omega)
  have r1 := Ap.of_rel h0 h1 ((Rel.of_fl h0 h1 hd).mul h0 h1 (Rel.of_fl h0 h1 hs))
  have r2 := (Ap.of_fu h0 h1 hτ hp).trans h0 h1 r1
  have r3 := r2.mul_const h0 h1 (z := 1 / 2) (by norm_num)
  rw [mul_one_div, mul_one_div, mul_one_div] at r3
  have r4 := (Ap.of_fu h0 h1 hτ ht).trans h0 h1 r3
  have hn := mul_nonneg h0 hτ
  exact ((Ap.of_rel h0 h1 (hb i hi)).trans h0 h1 r4).mono h0 h1 (by omega) (by linarith)

theorem RWeighted.ap {N : ℕ} {w y : ℕ → ℝ} {v : ℝ} (h : RWeighted u τ N w y v) :
    ∃ b : ℕ → ℝ, (∀ i < N, Ap u N (u * τ) (b i) (w i * y i)) ∧ v = ∑ i ∈ range N, b i := by
  obtain ⟨t, ht, hs⟩ := h
  obtain ⟨b, hb, rfl⟩ := hs.rel_tab h0 h1
  exact ⟨b, fun i hi => ((Ap.of_rel h0 h1 (hb i hi)).trans h0 h1 (Ap.of_fu h0 h1 hτ (ht i hi))).mono h0 h1
    (by omega) (by linarith), rfl⟩

omit hτ in
/-- A sum of numbers with errors, in absolute value. -/
theorem abs_sum_sub_le' {k n : ℕ} {δ : ℝ} {a b : ℕ → ℝ} (h : ∀ i < n, Ap u k δ (a i) (b i)) :
    |∑ i ∈ range n, a i - ∑ i ∈ range n, b i| ≤
      (1 / (1 - u) ^ k - 1) * ∑ i ∈ range n, |b i| + n * δ / (1 - u) ^ k := by
  rw [← sum_sub_distrib, mul_sum]
  refine (abs_sum_le_sum_abs _ _).trans ((sum_le_sum fun i hi => (h i (mem_range.mp hi)).abs_sub h0 h1).trans ?_)
  rw [sum_add_distrib, sum_const, card_range, nsmul_eq_mul, mul_div_assoc]

/-- Trapezoid sum of computed values on an ascending grid. -/
theorem RTrapz.ap_nonneg {x : List ℝ} (hx : x.Pairwise (· ≤ ·)) {y z ε : ℕ → ℝ} {v : ℝ} {j : ℕ}
    (h : RTrapz u τ x.length (x.getD · 0) y v) (hy : ∀ i < x.length, Ap u j (ε i) (y i) (z i))
    (hz : ∀ i < x.length, 0 ≤ z i) :
    Ap u (x.length + 2 + j) (2 * x.length * (u * τ) +
        ∑ i ∈ range (x.length - 1), (x.getD (i + 1) 0 - x.getD i 0) * (ε (i + 1) + ε i) / 2) v
      (∑ i ∈ range (x.length - 1), (x.getD (i + 1) 0 - x.getD i 0) * (z (i + 1) + z i) / 2) := by
  obtain ⟨b, hb, rfl⟩ := h.ap h0 h1 hτ
  have key : ∀ i < x.length - 1, Ap u (x.length + 2 + j) (2 * (u * τ) +
      (x.getD (i + 1) 0 - x.getD i 0) * (ε (i + 1) + ε i) / 2) (b i)
      ((x.getD (i + 1) 0 - x.getD i 0) * (z (i + 1) + z i) / 2) := by
    intro i hi
    refine (hb i hi).trans h0 h1 ?_
    have hd := step_nonneg hx (i := i) (by omega)
    have := ((hy (i + 1) (by omega)).add h0 h1 (hy i (by omega)) (hz _ (by omega))
      (hz _ (by omega))).const_mul h0 h1 (z := (x.getD (i + 1) 0 - x.getD i 0) / 2) (by linarith)
    simpa only [div_mul_eq_mul_div] using this
  refine (Ap.sum h0 h1 key fun i hi => ?_).mono h0 h1 le_rfl ?_
  · have := step_nonneg hx (i := i) (by omega)
    have := hz i (by omega)
    have := hz (i + 1) (by omega)
    positivity
  · rw [sum_add_distrib, sum_const, card_range, nsmul_eq_mul]
    have : ((x.length - 1 : ℕ) : ℝ) ≤ x.length := by exact_mod_cast Nat.sub_le _ _
    have hn := mul_nonneg h0 hτ
    nlinarith

end

theorem sum_steps (x : ℕ → ℝ) (n : ℕ) : ∑ i ∈ range n, (x (i + 1) - x i) = x n - x 0 := by
  induction n with
  | zero => simp
  | succ n ih => rw [sum_range_succ, ih]; ring

/-- An integral of non-negative values with underflow: relative errors and an absolute error that depends on the
grid only.  `V` is the integral of one, `L` at least the length of a radial grid. -/
theorem RIntegrate.ap {u τ : ℝ} (h0 : 0 ≤ u) (h1 : u < 1) (hτ : 0 ≤ τ) {grid : Grid} {s : Bool} {N : ℕ}
    {W : ℕ → ℝ} (hg : grid.Positive) (hN : N = grid.len) (hq : Quad grid s N W) {L : ℝ} (hL0 : 0 ≤ L)
    (hW : ∀ i < N, 0 ≤ W i)
    (hL : ∀ x : List ℝ, grid = .radial ⟨fins x⟩ → x.getD (x.length - 1) 0 - x.getD 0 0 ≤ L)
    (hx : s = true → ∀ x : List ℝ, grid = .radial ⟨fins x⟩ → ∀ a ∈ x, a = 0 ∨ τ ≤ a ^ 2)
    {y : ℕ → ℝ} {v : ℝ} (h : RIntegrate u τ grid s y v) (hy : ∀ i < N, 0 ≤ y i) :
    Ap u (N + 7) (u * τ * (∑ i ∈ range N, W i + L + 2 * N)) v (∑ i ∈ range N, W i * y i) := by
  have hn := mul_nonneg h0 hτ
  have hV : 0 ≤ ∑ i ∈ range N, W i := sum_nonneg fun i hi => hW i (mem_range.mp hi)
  cases grid with
  | radial g =>
    obtain ⟨x, hx', hs⟩ := hg
    obtain ⟨x', hx'', h⟩ := h
    have : x' = x := fins_injective (hx''.symm.trans hx')
    subst this
    obtain ⟨pts⟩ := g
    simp only at hx'
    subst hx'
    simp only [Grid.len, fins, List.length_map] at hN
    subst hN
    have hL' := hL _ rfl
    have hv := hq.fin y
    cases s with
    | false =>
      rw [quad_radial_value] at hv
      injection hv with hv
      injection hv with hv
      rw [← hv]
      simp only [Bool.false_eq_true, if_false] at h
      refine (h.ap_nonneg h0 h1 hτ hs (ε := fun _ => 0) (j := 0)
        (fun i _ => Ap.of_rel h0 h1 (Rel.refl h0 h1 _)) hy).mono h0 h1 (by omega) ?_
      simp only [add_zero, mul_zero, zero_div, sum_const_zero]
      nlinarith
    | true =>
      have hv1 := hq.fin fun _ => 1
      rw [quad_radial_spherical] at hv hv1
      injection hv with hv
      injection hv with hv
      injection hv1 with hv1
      injection hv1 with hv1
      simp only [mul_one] at hv1
      rw [← hv]
      simp only [if_true] at h
      obtain ⟨t, ht, h⟩ := h
      have hxn : ∀ i < x'.length, x'.getD i 0 = 0 ∨ τ ≤ x'.getD i 0 ^ 2 := fun i hi => by
        rw [List.getD_eq_getElem _ _ hi]
        exact hx rfl _ rfl _ (List.getElem_mem hi)
      refine (h.ap_nonneg h0 h1 hτ hs (j := 5) (z := fun i => y i * 4 * π * x'.getD i 0 ^ 2)
        (ε := fun i => u * τ * (1 + 4 * π * x'.getD i 0 ^ 2)) (fun i hi => ?_) fun i hi => ?_).mono h0 h1
          (by omega) ?_
      · obtain ⟨a, p, b, q, ha, hp, hb, hq, ht⟩ := ht i hi
        have hq' : Rel u 1 q (x'.getD i 0 ^ 2) := by
          rcases hq with hq | ⟨c1, c2, -⟩
          · exact Rel.of_fl h0 h1 hq
          · rcases hxn i hi with h2 | h2
            · rw [h2] at c1
              simp at c1
            · rw [abs_of_nonneg (sq_nonneg _)] at c2
              exact absurd c2 (not_lt.mpr h2)
        have r1 := (Ap.of_fu h0 h1 hτ hb).trans h0 h1
          ((Ap.of_fu h0 h1 hτ ha).mul_rel h0 h1 (Rel.of_fl h0 h1 hp))
        have r2 := (Ap.of_fu h0 h1 hτ ht).trans h0 h1 (r1.mul_rel h0 h1 hq')
        refine r2.mono h0 h1 (by omega) ?_
        rw [abs_of_nonneg (sq_nonneg (x'.getD i 0)), abs_of_pos pi_pos]
        have h3 := mul_nonneg hn (sq_nonneg (x'.getD i 0))
        have h4 := two_le_pi
        nlinarith
      · have := hy i hi
        have := pi_pos
        positivity
      · have e : ∑ i ∈ range (x'.length - 1), (x'.getD (i + 1) 0 - x'.getD i 0) *
            (u * τ * (1 + 4 * π * x'.getD (i + 1) 0 ^ 2) + u * τ * (1 + 4 * π * x'.getD i 0 ^ 2)) / 2 =
            u * τ * ((x'.getD (x'.length - 1) 0 - x'.getD 0 0) + ∑ i ∈ range x'.length, W i) := by
          rw [← hv1, ← sum_steps (x'.getD · 0), ← sum_add_distrib, mul_sum]
          refine sum_congr rfl fun i _ => by ring
        rw [e]
        nlinarith
  | cubic g =>
    obtain ⟨w, hw, hs⟩ := hg
    obtain ⟨rfl, w', hw', hl, h⟩ := h
    have : w' = w := fins_injective (hw'.symm.trans hw)
    subst this
    simp only [Grid.len] at hN
    rw [← hl] at hN
    subst hN
    have hv := hq.fin y
    rw [quad_cubic_value hw hl] at hv
    injection hv with hv
    injection hv with hv
    rw [← hv]
    obtain ⟨b, hb, rfl⟩ := h.ap h0 h1 hτ
    refine (Ap.sum h0 h1 hb fun i hi => mul_nonneg (getD_nonneg hs i) (hy i hi)).mono h0 h1 (by omega) ?_
    rw [sum_const, card_range, nsmul_eq_mul]
    have : (0 : ℝ) ≤ w'.length := by positivity
    nlinarith [mul_nonneg hn this, mul_nonneg hn hV, mul_nonneg hn hL0]

theorem RDens.ap {u τ : ℝ} (h0 : 0 ≤ u) (h1 : u < 1) (hτ : 0 ≤ τ) {n : ℕ} {φ c : ℕ → ℝ} {m : ℝ}
    (h : RDens u τ n φ c m) (hφ : ∀ k < n, 0 ≤ φ k) (hc : ∀ k < n, 0 ≤ c k) :
    Ap u n (n * (u * τ)) m (∑ k ∈ range n, c k * φ k) := by
  obtain ⟨t, ht, hs⟩ := h
  obtain ⟨b, hb, rfl⟩ := hs.rel_tab h0 h1
  have key : ∀ k < n, Ap u n (u * τ) (b k) (c k * φ k) := fun k hk => by
    have r := (Ap.of_rel h0 h1 (hb k hk)).trans h0 h1 (Ap.of_fu h0 h1 hτ (ht k hk))
    rw [mul_comm (φ k)] at r
    exact r.mono h0 h1 (by omega) (by linarith)
  refine (Ap.sum h0 h1 key fun k hk => mul_nonneg (hc k hk) (hφ k hk)).mono h0 h1 le_rfl ?_
  rw [sum_const, card_range, nsmul_eq_mul]

end
end BFit
