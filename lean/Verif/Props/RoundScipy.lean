import Verif.Model.RoundScipy
import Verif.Lemmas.RoundNear
import Verif.Props.RoundGood
import Verif.Props.ScipyFit

/-!
C133: accuracy of the objective, gradient and constraint of `ScipyFit` when every operation is rounded.
-/

namespace BFit

open Real Classical Finset

noncomputable section

/-- Bound of the derivative of a basis function in its exponent: the sum of the absolute values of its two terms. -/
def dbfB (isS norm : Bool) (e r : ℝ) : ℝ :=
  bf isS norm e r * (r ^ 2 + if norm then (if isS then 3 / 2 else 5 / 2) / e else 0)

/-- The same for a column of the Jacobian. -/
def Shape.jcolB (S : Shape) (norm : Bool) (c e : List ℝ) (j i : ℕ) : ℝ :=
  if j < S.nb then bf (S.isS j) norm (vec e j) (S.rad j i)
  else |vec c (j - S.nb)| * dbfB (S.isS (j - S.nb)) norm (vec e (j - S.nb)) (S.rad (j - S.nb) i)

section
variable {u : ℝ} (h0 : 0 ≤ u) (h1 : u < 1)
include h0 h1

theorem rel_gauss {e r r2 a E : ℝ} (hu : u ≤ 1 / 10) (he : 0 ≤ e) {j : ℕ} (hj : 3 * (e * r ^ 2) ≤ j)
    (hr : Fu u 0 r2 (r ^ 2)) (ha : Fu u 0 a (-e * r2)) (hE : Fu u 0 E (exp a)) : Rel u (j + 1) E (exp (-e * r ^ 2)) := by
  have q1 := Rel.of_fu h0 h1 hr
  have q2 : Rel u 2 (-a) (e * r ^ 2) := by
    have := (Rel.of_fu h0 h1 ha).trans h0 h1 ((Rel.refl h0 h1 (-e)).mul h0 h1 q1)
    obtain ⟨t, ht, ht', hat⟩ := this.mono h0 h1 (l := 2) (by omega)
    exact ⟨t, ht, ht', by rw [hat]; ring⟩
  have q3 := q2.exp_neg h0 h1 hu (by positivity) hj
  rw [neg_neg] at q3
  have q4 := (Rel.of_fu h0 h1 hE).trans h0 h1 q3
  have hexp : exp (-(e * r ^ 2)) = exp (-e * r ^ 2) := by ring_nf
  rw [hexp] at q4
  exact q4.mono h0 h1 (by omega)

/-- The computed derivative column of an exponent. -/
theorem RExpCol.near {isS norm : Bool} {e c r φ v : ℝ} (hu : u ≤ 1 / 10) (he : 0 < e)
    (hφ : RBasis u 0 isS norm e r φ) (h : RExpCol u 0 isS norm e c r φ v) {j : ℕ} (hj : 3 * (e * r ^ 2) ≤ j) :
    NearBy u (j + 16) v (c * dbf isS norm e r) (|c| * dbfB isS norm e r) := by
  have hb0 : 0 ≤ bf isS norm e r := by
    cases norm
    · exact bf_nonneg_unnorm _ _ _
    · exact bf_nonneg _ _ he.le
  have w0 := hφ.rel h0 h1 hu he.le hj
  obtain ⟨r2, a, b, d, hr, ha, hb, hd, h⟩ := h
  have w1 : Rel u (j + 14) d (-(c * (bf isS norm e r * r ^ 2))) := by
    have r1 := (Rel.of_fu h0 h1 ha).trans h0 h1 (((Rel.refl h0 h1 (-1)).mul h0 h1 w0).mul h0 h1 (Rel.of_fu h0 h1 hr) |>
      fun w => by rwa [neg_one_mul] at w)
    have r2 := (Rel.of_fu h0 h1 hd).trans h0 h1 ((Rel.of_fu h0 h1 hb).trans h0 h1 (r1.mul h0 h1 (Rel.refl h0 h1 c)))
    rw [show -1 * bf isS norm e r * r ^ 2 * c = -(c * (bf isS norm e r * r ^ 2)) by ring] at r2
    exact r2.mono h0 h1 (by omega)
  have hsz : |(-(c * (bf isS norm e r * r ^ 2)))| = |c| * (bf isS norm e r * r ^ 2) := by
    rw [abs_neg, abs_mul, abs_of_nonneg (mul_nonneg hb0 (sq_nonneg r))]
  have n1 := NearBy.of_rel h0 h1 w1
  rw [hsz] at n1
  cases norm with
  | false =>
    simp only [Bool.false_eq_true, if_false] at h
    subst h
    have e1 : c * dbf isS false e r = -(c * (bf isS false e r * r ^ 2)) := by
      cases isS <;> simp [dbf, bf, dsBasis, dpBasis, sBasis, pBasis]
    rw [e1]
    refine n1.mono h0 h1 (by omega) (le_of_eq ?_)
    simp [dbfB]
  | true =>
    simp only [if_true] at h
    obtain ⟨s, x, E, t, hh, g, k, p, q, l, y, hs, hx, hE, hg, hk, hp, hq, hy, hv, h⟩ := h
    have q4 := rel_gauss h0 h1 hu he.le hj hs hx hE
    have w2 := (Rel.of_fu h0 h1 hq).trans h0 h1 ((Rel.of_fl h0 h1 hp).rpow h0 h1 (p := 3 / 2) (l := 2)
        pi_pos.le (by norm_num) (by norm_num))
    have hpi : 0 < π ^ (3 / 2 : ℝ) := rpow_pos_of_pos pi_pos _
    have key : ∃ L, Rel u (j + 14) l (c * L) ∧ 0 ≤ L ∧ L = bf isS true e r * ((if isS then 3 / 2 else 5 / 2) / e) ∧
        dbf isS true e r = -(bf isS true e r * r ^ 2) + L := by
      cases isS with
      | true =>
        simp only [if_true] at h
        obtain ⟨ht, hhh, hl⟩ := h
        have v1 := (Rel.of_fu h0 h1 ht).trans h0 h1 ((Rel.refl h0 h1 1.5).mul h0 h1 q4)
        have v2 := (Rel.of_fu h0 h1 hg).trans h0 h1 ((Rel.refl h0 h1 c).mul h0 h1 (Rel.of_fu h0 h1 hhh))
        have v3 := (Rel.of_fu h0 h1 hk).trans h0 h1 (v1.mul h0 h1 v2)
        have v4 := (Rel.of_fu h0 h1 hl).trans h0 h1 (v3.div h0 h1 w2)
        refine ⟨1.5 * exp (-e * r ^ 2) * e ^ (1 / 2 : ℝ) / π ^ (3 / 2 : ℝ), ?_, by positivity, ?_, ?_⟩
        · rw [show 1.5 * exp (-e * r ^ 2) * (c * e ^ (1 / 2 : ℝ)) / π ^ (3 / 2 : ℝ) =
            c * (1.5 * exp (-e * r ^ 2) * e ^ (1 / 2 : ℝ) / π ^ (3 / 2 : ℝ)) by ring] at v4
          exact v4.mono h0 h1 (by omega)
        · simp only [bf, sBasis, if_true]
          rw [div_rpow he.le pi_pos.le, show e ^ (3 / 2 : ℝ) = e ^ (1 / 2 : ℝ) * e by
            rw [← rpow_add_one he.ne']; norm_num]
          field_simp
          norm_num
        · simp only [dbf, bf, dsBasis, sBasis, if_true]
          ring
      | false =>
        simp only [Bool.false_eq_true, if_false] at h
        obtain ⟨m, q3, hm, ht, hhh, hq3, hl⟩ := h
        have v0 := (Rel.of_fu h0 h1 hm).trans h0 h1 (q4.mul h0 h1 (Rel.of_fu h0 h1 hs))
        have v1 := (Rel.of_fu h0 h1 ht).trans h0 h1 ((Rel.refl h0 h1 5).mul h0 h1 v0)
        have v2 := (Rel.of_fu h0 h1 hg).trans h0 h1 ((Rel.refl h0 h1 c).mul h0 h1 (Rel.of_fu h0 h1 hhh))
        have v3 := (Rel.of_fu h0 h1 hk).trans h0 h1 (v1.mul h0 h1 v2)
        have w3 := (Rel.of_fu h0 h1 hq3).trans h0 h1 ((Rel.refl h0 h1 3).mul h0 h1 w2)
        have v4 := (Rel.of_fu h0 h1 hl).trans h0 h1 (v3.div h0 h1 w3)
        refine ⟨5 * (exp (-e * r ^ 2) * r ^ 2) * e ^ (3 / 2 : ℝ) / (3 * π ^ (3 / 2 : ℝ)), ?_, by positivity, ?_, ?_⟩
        · rw [show 5 * (exp (-e * r ^ 2) * r ^ 2) * (c * e ^ (3 / 2 : ℝ)) / (3 * π ^ (3 / 2 : ℝ)) =
            c * (5 * (exp (-e * r ^ 2) * r ^ 2) * e ^ (3 / 2 : ℝ) / (3 * π ^ (3 / 2 : ℝ))) by ring] at v4
          exact v4.mono h0 h1 (by omega)
        · simp only [bf, pBasis, if_true, Bool.false_eq_true, if_false]
          rw [show e ^ (5 / 2 : ℝ) = e ^ (3 / 2 : ℝ) * e by
            rw [← rpow_add_one he.ne']; norm_num]
          field_simp
        · simp only [dbf, bf, dpBasis, pBasis, if_true, Bool.false_eq_true, if_false]
          ring
    obtain ⟨L, hL, hL0, hL1, hL2⟩ := key
    have n2 := NearBy.of_rel h0 h1 hL
    rw [abs_mul, abs_of_nonneg hL0] at n2
    have n3 := ((n1.add h0 h1 n2).fl h0 h1 hy).fu h0 h1 hv
    rw [show -(c * (bf isS true e r * r ^ 2)) + c * L = c * dbf isS true e r by rw [hL2]; ring,
      show |c| * (bf isS true e r * r ^ 2) + |c| * L = |c| * dbfB isS true e r by
        rw [hL1]; simp only [dbfB, if_true]; ring] at n3
    exact n3

theorem NearBy.sub {k : ℕ} {a b B c d D : ℝ} (h : NearBy u k a b B) (h' : NearBy u k c d D) :
    NearBy u k (a - c) (b - d) (B + D) := by
  have := h.add h0 h1 h'.neg
  rwa [← sub_eq_add_neg, ← sub_eq_add_neg] at this

/-- Integration of computed values of any sign. -/
theorem RIntegrate.near {grid : Grid} {s : Bool} {N : ℕ} {W : ℕ → ℝ} (hg : grid.Positive)
    (hN : N = grid.len) (hq : Quad grid s N W) (hW : ∀ i < N, 0 ≤ W i) {y z B : ℕ → ℝ} {v : ℝ} {j : ℕ}
    (h : RIntegrate u 0 grid s y v) (hy : ∀ i < N, NearBy u j (y i) (z i) (B i)) :
    NearBy u (N + 7 + j) v (∑ i ∈ range N, W i * z i) (∑ i ∈ range N, W i * B i) := by
  have a1 := h.abs_sub h0 h1 hg hN hq (j := 0) fun i _ => Rel.refl h0 h1 (y i)
  have a2 : NearBy u j (∑ i ∈ range N, W i * y i) (∑ i ∈ range N, W i * z i) (∑ i ∈ range N, W i * B i) := by
    refine NearBy.sum h0 h1 fun i hi => ?_
    have := (NearBy.refl h0 h1 (W i)).mul h0 h1 (hy i hi)
    rwa [zero_add, abs_of_nonneg (hW i hi)] at this
  refine ⟨?_, a2.2⟩
  have g1 := gpow h0 h1 (N + 7)
  have g2 := gpow h0 h1 j
  have a3 : ∑ i ∈ range N, W i * |y i| ≤ 1 / (1 - u) ^ j * ∑ i ∈ range N, W i * B i := by
    rw [mul_sum]
    refine sum_le_sum fun i hi => ?_
    have := mul_le_mul_of_nonneg_left ((hy i (mem_range.mp hi)).abs_le h0 h1) (hW i (mem_range.mp hi))
    linarith
  have a4 := mul_le_mul_of_nonneg_left a3 (sub_nonneg.mpr g1.2)
  have e2 : 1 / (1 - u) ^ (N + 7 + j) = 1 / (1 - u) ^ (N + 7) * (1 / (1 - u) ^ j) := by
    rw [pow_add _ (N + 7) j]; field_simp
  have a5 := abs_sub_le v (∑ i ∈ range N, W i * y i) (∑ i ∈ range N, W i * z i)
  have a6 := a2.1
  rw [add_zero] at a1
  rw [e2]
  nlinarith

/-- The logarithm of a computed number. -/
theorem NearBy.log {k : ℕ} {a b : ℝ} (h : Rel u k a b) (hb : 0 < b) : NearBy u k (Real.log a) (Real.log b) (|Real.log b| + 1) := by
  have g := gpow h0 h1 k
  have h2 := h.log_sub h0 h1 hb
  have h3 : k * -Real.log (1 - u) ≤ 1 / (1 - u) ^ k - 1 := by
    have := log_le_sub_one_of_pos (x := 1 / (1 - u) ^ k) (by positivity)
    rw [one_div, log_inv, log_pow] at this
    rw [one_div]
    linarith
  refine ⟨?_, by linarith⟩
  have := mul_nonneg (sub_nonneg.mpr g.2) (abs_nonneg (Real.log b))
  nlinarith

/-- The computed density. -/
theorem rel_dens {Sh : Shape} {norm : Bool} {N : ℕ} {c e : List ℝ} (hu : u ≤ 1 / 10) (hc : c.length = Sh.nb)
    (he : e.length = Sh.nb) (hcn : ∀ a ∈ c, 0 ≤ a) (hen : ∀ a ∈ e, 0 < a) {J : ℕ}
    (hJ : ∀ k < Sh.nb, ∀ i < N, 3 * (vec e k * Sh.rad k i ^ 2) ≤ J) {φ : ℕ → ℕ → ℝ} {m : ℕ → ℝ}
    (hφ : ∀ i < N, ∀ j < Sh.nb, RBasis u 0 (Sh.isS j) norm (vec e j) (Sh.rad j i) (φ i j))
    (hm : ∀ i < N, RDens u 0 Sh.nb (φ i) (vec c) (m i)) (i : ℕ) (hi : i < N) :
    Rel u (J + Sh.nb + 10) (m i) (Sh.dens norm (vec c) (vec e) i) ∧ 0 ≤ Sh.dens norm (vec c) (vec e) i := by
  have hev := vec_of_mem he hen
  have hcv := vec_of_mem hc hcn
  have hb : ∀ k < Sh.nb, 0 ≤ bf (Sh.isS k) norm (vec e k) (Sh.rad k i) := by
    intro k hk
    cases norm
    · exact bf_nonneg_unnorm _ _ _
    · exact bf_nonneg _ _ (hev k hk).le
  have := (hm i hi).rel h0 h1 (fun k hk => (hφ i hi k hk).rel h0 h1 hu (hev k hk).le (hJ k hk i hi)) hb hcv
  exact ⟨this.mono h0 h1 (by omega), sum_nonneg fun k hk => mul_nonneg (hcv k (mem_range.mp hk)) (hb k (mem_range.mp hk))⟩

/-- The computed objective and gradient, from the accuracy of the measure. -/
theorem RFunc.near {S : SFit} {norm : Bool} {Sh : Shape} {N : ℕ} {W f w : ℕ → ℝ}
    (h : FitData S.toFit norm Sh N W f) (hg : S.grid.Positive) (hl : N = S.grid.len)
    (hW : ∀ i < N, 0 ≤ W i) {args : SArgs} {x c e : List ℝ} (hp : Params Sh.nb args x c e) (hu : u ≤ 1 / 10)
    (hen : ∀ a ∈ e, 0 < a) {J : ℕ}
    (hJ : ∀ k < Sh.nb, ∀ i < N, 3 * (vec e k * Sh.rad k i ^ 2) ≤ J) {M : Meas} {obj : ℝ} {grad : ℕ → ℝ}
    (R : RFunc u 0 S.grid S.spherical N Sh.nb M f w Sh.isS norm Sh.rad (vec c) (vec e) (args.off Sh.nb) x.length obj grad)
    {v dv B D : ℕ → ℝ} {j₁ j₂ : ℕ} (hv : ∀ i < N, NearBy u j₁ (R.k i) (v i) (B i))
    (hdv : ∀ i < N, NearBy u j₂ (R.dk i) (dv i) (D i)) :
    NearBy u (N + j₁ + 8) obj (∑ i ∈ range N, W i * (w i * v i)) (∑ i ∈ range N, W i * (|w i| * B i)) ∧
    ∀ k < x.length, NearBy u (N + J + j₂ + 26) (grad k)
      (∑ i ∈ range N, W i * (w i * dv i * Sh.jcol norm c e (args.off Sh.nb + k) i))
      (∑ i ∈ range N, W i * (|w i| * D i * Sh.jcolB norm c e (args.off Sh.nb + k) i)) := by
  have hev := vec_of_mem hp.len.2 hen
  constructor
  · refine (R.h_obj.near h0 h1 hg hl h.quad hW (j := j₁ + 1) fun i hi => ?_).mono h0 h1 (by omega) le_rfl
    have := ((NearBy.refl h0 h1 (w i)).mul h0 h1 (hv i hi)).fu h0 h1 (R.h_wk i hi)
    rwa [zero_add] at this
  · intro k hk
    obtain ⟨y, hy, hyg⟩ := R.h_grad k hk
    have hcol : ∀ i < N, NearBy u (J + 16) (R.dm i (args.off Sh.nb + k)) (Sh.jcol norm c e (args.off Sh.nb + k) i)
        (Sh.jcolB norm c e (args.off Sh.nb + k) i) := by
      intro i hi
      unfold Shape.jcol Shape.jcolB
      by_cases hlt : args.off Sh.nb + k < Sh.nb
      · rw [if_pos hlt, if_pos hlt]
        set j := args.off Sh.nb + k
        have hb : 0 ≤ bf (Sh.isS j) norm (vec e j) (Sh.rad j i) := by
          cases norm
          · exact bf_nonneg_unnorm _ _ _
          · exact bf_nonneg _ _ (hev j hlt).le
        have r := (Rel.of_fu h0 h1 (R.h_dm_coeffs i hi j hlt)).trans h0 h1
          ((R.h_φ i hi j hlt).rel h0 h1 hu (hev j hlt).le (hJ j hlt i hi))
        have r2 := NearBy.of_rel h0 h1 r
        rw [abs_of_nonneg hb] at r2
        exact r2.mono h0 h1 (by omega) le_rfl
      · rw [if_neg hlt, if_neg hlt]
        have hj : args.off Sh.nb + k - Sh.nb < Sh.nb := by
          cases hp with
          | both _ _ hc he => simp [hc, he] at hk; simp only [SArgs.off] at hlt ⊢; omega
          | coeffs _ _ hc he => simp only [SArgs.off] at hlt ⊢; omega
          | expons _ _ hc he => simp only [SArgs.off] at hlt ⊢; omega
        have hadd : Sh.nb + (args.off Sh.nb + k - Sh.nb) = args.off Sh.nb + k := by omega
        have := R.h_dm_expons i hi _ hj
        rw [hadd] at this
        exact this.near h0 h1 hu (hev _ hj) (R.h_φ i hi _ hj) (hJ _ hj i hi)
    refine ((hy.near h0 h1 hg hl h.quad hW (j := J + j₂ + 18) fun i hi => ?_).fu h0 h1 hyg).mono h0 h1 (by omega) le_rfl
    have n1 := ((NearBy.refl h0 h1 (w i)).mul h0 h1 (hdv i hi)).fu h0 h1 (R.h_a i hi)
    have n2 := (n1.mul h0 h1 (hcol i hi)).fu h0 h1 (R.h_b k hk i hi)
    exact n2.mono h0 h1 (by omega) le_rfl

end

/-- **C133** (squared difference).  The objective and the entries of the gradient that `func` computes with rounded operations,
in each of its three modes. -/
theorem C133_squared {u : ℝ} (h0 : 0 ≤ u) (hu : u ≤ 1 / 10) {S : SFit} {norm : Bool} {Sh : Shape} {N : ℕ} {W f w : ℕ → ℝ}
    (h : FitData S.toFit norm Sh N W f) (hw : S.weights = fins (tab N w)) (hm : S.measure = .sq)
    (hg : S.grid.Positive) (hl : N = S.grid.len) (hW : ∀ i < N, 0 ≤ W i) (args : SArgs) (x c e : List ℝ)
    (hp : Params Sh.nb args x c e) (hcn : ∀ a ∈ c, 0 ≤ a) (hen : ∀ a ∈ e, 0 < a) {J : ℕ}
    (hJ : ∀ k < Sh.nb, ∀ i < N, 3 * (vec e k * Sh.rad k i ^ 2) ≤ J) :
    ∃ (obj : ℝ) (grad g : List ℝ) (B : ℝ) (D : ℕ → ℝ),
      S.func (fins x) args = .ok (XR.fin obj, fins grad) ∧ grad.length = x.length ∧
      S.model.evaluate (fins c) (fins e) false = .ok (fins g, none) ∧
      S.integrate (fins (tab N fun i => |w i| * (|f i| + vec g i) ^ 2)) = .ok (XR.fin B) ∧
      (∀ k < x.length, S.integrate (fins (tab N fun i =>
        |w i| * (2 * (|f i| + vec g i)) * Sh.jcolB norm c e (args.off Sh.nb + k) i)) = .ok (XR.fin (D k))) ∧
      ∀ (v : ℝ) (d : ℕ → ℝ), RFunc u 0 S.grid S.spherical N Sh.nb S.measure f w Sh.isS norm Sh.rad (vec c) (vec e)
          (args.off Sh.nb) x.length v d →
        |v - obj| ≤ (1 / (1 - u) ^ (N + 2 * J + 2 * Sh.nb + 31) - 1) * B ∧
        ∀ k < x.length, |d k - vec grad k| ≤ (1 / (1 - u) ^ (N + 2 * J + Sh.nb + 38) - 1) * D k := by
  have h1 : u < 1 := by linarith
  set G := Sh.dens norm (vec c) (vec e) with hG
  have hfun := func_fins h hw (by rw [hm]; exact measAt_sq N f) hp (fun _ a ha => (hen a ha).le) fun _ _ => trivial
  have hev := h.model.eval c e false hp.len.1 hp.len.2 fun _ a ha => (hen a ha).le
  refine ⟨_, _, tab N G, ∑ i ∈ range N, W i * (|w i| * (|f i| + G i) ^ 2),
    fun k => ∑ i ∈ range N, W i * (|w i| * (2 * (|f i| + G i)) * Sh.jcolB norm c e (args.off Sh.nb + k) i),
    hfun, by simp, by simpa using hev, ?_, fun k _ => ?_, fun v d R => ?_⟩
  · rw [tab_congr (g := fun i => |w i| * (|f i| + G i) ^ 2) fun i hi => by rw [vec_tab hi]]
    exact h.quad.fin _
  · rw [tab_congr (g := fun i => |w i| * (2 * (|f i| + G i)) * Sh.jcolB norm c e (args.off Sh.nb + k) i)
      fun i hi => by rw [vec_tab hi]]
    exact h.quad.fin _
  · rw [hm] at R
    have key : ∀ i < N, NearBy u (2 * J + 2 * Sh.nb + 23) (R.k i) ((f i - G i) ^ 2) ((|f i| + G i) ^ 2) ∧
        NearBy u (J + Sh.nb + 12) (R.dk i) (-2 * (f i - G i)) (2 * (|f i| + G i)) := by
      intro i hi
      obtain ⟨r1, r2⟩ := rel_dens h0 h1 hu hp.len.1 hp.len.2 hcn hen hJ R.h_φ R.h_m i hi
      rw [← hG] at r1 r2
      obtain ⟨r, hr, hk, hd⟩ := R.h_k i hi
      have n1 := NearBy.of_rel h0 h1 r1
      rw [abs_of_nonneg r2] at n1
      have n2 := ((((NearBy.refl h0 h1 (f i)).mono h0 h1 (Nat.zero_le _) le_rfl).sub h0 h1 n1).fl h0 h1 hr)
      constructor
      · exact ((n2.sq h0 h1).fu h0 h1 hk).mono h0 h1 (by omega) le_rfl
      · have n3 := ((NearBy.refl h0 h1 (-2)).mul h0 h1 n2).fu h0 h1 hd
        rw [abs_neg, abs_of_nonneg (by norm_num : (0 : ℝ) ≤ 2)] at n3
        exact n3.mono h0 h1 (by omega) le_rfl
    obtain ⟨k1, k2⟩ := R.near h0 h1 h hg hl hW hp hu hen hJ (fun i hi => (key i hi).1) fun i hi => (key i hi).2
    refine ⟨(k1.mono h0 h1 (by omega) le_rfl).1, fun k hk => ?_⟩
    rw [vec_tab hk]
    exact ((k2 k hk).mono h0 h1 (by omega) le_rfl).1

/-- **C133** (Kullback-Leibler).  The same where the density is positive and the model exceeds the mask by more than the rounding
errors.  With non-negative weights the derivatives in the coefficients have a small relative error. -/
theorem C133_kl {u : ℝ} (h0 : 0 ≤ u) (hu : u ≤ 1 / 10) {S : SFit} {norm : Bool} {Sh : Shape} {N : ℕ} {W f w : ℕ → ℝ}
    {μ : ℝ} {nv : XR} (h : FitData S.toFit norm Sh N W f) (hw : S.weights = fins (tab N w))
    (hm : S.measure = .kl ⟨XR.fin μ, nv⟩) (hf : ∀ i < N, 0 < f i)
    (hg : S.grid.Positive) (hl : N = S.grid.len) (hW : ∀ i < N, 0 ≤ W i) (args : SArgs) (x c e : List ℝ)
    (hp : Params Sh.nb args x c e) (hcn : ∀ a ∈ c, 0 ≤ a) (hen : ∀ a ∈ e, 0 < a) {J : ℕ}
    (hJ : ∀ k < Sh.nb, ∀ i < N, 3 * (vec e k * Sh.rad k i ^ 2) ≤ J) :
    ∃ g : List ℝ, S.model.evaluate (fins c) (fins e) false = .ok (fins g, none) ∧
    ((∀ i < N, μ < vec g i * (1 - u) ^ (J + Sh.nb + 10) ∧ f i * tiny < vec g i * (1 - u) ^ (J + Sh.nb + 11)) →
    ∃ (obj : ℝ) (grad : List ℝ) (B : ℝ) (D : ℕ → ℝ),
      S.func (fins x) args = .ok (XR.fin obj, fins grad) ∧ grad.length = x.length ∧
      S.integrate (fins (tab N fun i => |w i| * (f i * (|log (f i / vec g i)| + 1)))) = .ok (XR.fin B) ∧
      (∀ k < x.length, S.integrate (fins (tab N fun i =>
        |w i| * (f i / vec g i) * Sh.jcolB norm c e (args.off Sh.nb + k) i)) = .ok (XR.fin (D k))) ∧
      ((∀ i < N, 0 ≤ w i) → ∀ k < x.length, args.off Sh.nb + k < Sh.nb → D k = |vec grad k|) ∧
      ∀ (v : ℝ) (d : ℕ → ℝ), RFunc u 0 S.grid S.spherical N Sh.nb S.measure f w Sh.isS norm Sh.rad (vec c) (vec e)
          (args.off Sh.nb) x.length v d →
        |v - obj| ≤ (1 / (1 - u) ^ (N + J + Sh.nb + 21) - 1) * B ∧
        ∀ k < x.length, |d k - vec grad k| ≤ (1 / (1 - u) ^ (N + 2 * J + Sh.nb + 37) - 1) * D k) := by
  have h1 : u < 1 := by linarith
  have hu1 : 0 < 1 - u := by linarith
  set G := Sh.dens norm (vec c) (vec e) with hG
  have hev := h.model.eval c e false hp.len.1 hp.len.2 fun _ a ha => (hen a ha).le
  refine ⟨tab N G, by simpa using hev, fun hmar => ?_⟩
  have hmar : ∀ i < N, μ < G i * (1 - u) ^ (J + Sh.nb + 10) ∧ f i * tiny < G i * (1 - u) ^ (J + Sh.nb + 11) := by
    intro i hi
    have := hmar i hi
    rwa [vec_tab hi] at this
  have htiny : 0 < tiny := tiny_pos
  have hGpos : ∀ i < N, 0 < G i := fun i hi =>
    pos_of_mul_pos_left ((mul_pos (hf i hi) htiny).trans (hmar i hi).2) (pow_nonneg hu1.le _)
  have hun : ∀ i < N, Unmasked μ (f i) (G i) := fun i hi =>
    ⟨(hmar i hi).1.trans_le (mul_le_of_le_one_right (hGpos i hi).le (pow_le_one₀ hu1.le (by linarith))),
     (hmar i hi).2.trans_le (mul_le_of_le_one_right (hGpos i hi).le (pow_le_one₀ hu1.le (by linarith)))⟩
  have hfun := func_fins h hw (by rw [hm]; exact measAt_kl N f μ nv hf) hp (fun _ a ha => (hen a ha).le) hun
  refine ⟨_, _, ∑ i ∈ range N, W i * (|w i| * (f i * (|log (f i / G i)| + 1))),
    fun k => ∑ i ∈ range N, W i * (|w i| * (f i / G i) * Sh.jcolB norm c e (args.off Sh.nb + k) i),
    hfun, by simp, ?_, fun k _ => ?_, fun hwn k hk hlt => ?_, fun v d R => ?_⟩
  · rw [tab_congr (g := fun i => |w i| * (f i * (|log (f i / G i)| + 1))) fun i hi => by rw [vec_tab hi]]
    exact h.quad.fin _
  · rw [tab_congr (g := fun i => |w i| * (f i / G i) * Sh.jcolB norm c e (args.off Sh.nb + k) i)
      fun i hi => by rw [vec_tab hi]]
    exact h.quad.fin _
  · rw [vec_tab hk]
    have hb : ∀ i, 0 ≤ bf (Sh.isS (args.off Sh.nb + k)) norm (vec e (args.off Sh.nb + k)) (Sh.rad (args.off Sh.nb + k) i) := by
      intro i
      cases norm
      · exact bf_nonneg_unnorm _ _ _
      · exact bf_nonneg _ _ (vec_of_mem hp.len.2 hen _ hlt).le
    have e1 : ∑ i ∈ range N, W i * (w i * -(f i / G i) * Sh.jcol norm c e (args.off Sh.nb + k) i) =
        -∑ i ∈ range N, W i * (|w i| * (f i / G i) * Sh.jcolB norm c e (args.off Sh.nb + k) i) := by
      rw [← sum_neg_distrib]
      refine sum_congr rfl fun i hi => ?_
      rw [Shape.jcol, Shape.jcolB, if_pos hlt, if_pos hlt, abs_of_nonneg (hwn i (mem_range.mp hi))]
      ring
    rw [e1, abs_neg, abs_of_nonneg]
    refine sum_nonneg fun i hi => ?_
    have hi := mem_range.mp hi
    rw [Shape.jcolB, if_pos hlt]
    exact mul_nonneg (hW i hi) (mul_nonneg (mul_nonneg (abs_nonneg _) (div_nonneg (hf i hi).le (hGpos i hi).le)) (hb i))
  · rw [hm] at R
    have key : ∀ i < N, NearBy u (J + Sh.nb + 13) (R.k i) (klInt (f i) (G i)) (f i * (|log (f i / G i)| + 1)) ∧
        NearBy u (J + Sh.nb + 11) (R.dk i) (-(f i / G i)) (f i / G i) := by
      intro i hi
      obtain ⟨r1, r2⟩ := rel_dens h0 h1 hu hp.len.1 hp.len.2 hcn hen hJ R.h_φ R.h_m i hi
      rw [← hG] at r1 r2
      obtain ⟨z, ratio, lg, hz, hr, hlg, hk, hd⟩ := R.h_k i hi
      have b1 := (r1.bounds h0 h1 r2).1
      have b2 := ((Rel.of_fu h0 h1 hz).bounds h0 h1 (mul_pos (hf i hi) htiny).le).2
      rw [pow_one] at b2
      have c1 : μ < R.m i := (hmar i hi).1.trans_le b1
      have c2 : z < R.m i := by
        have e1 : z * (1 - u) < G i * (1 - u) ^ (J + Sh.nb + 10) * (1 - u) := by
          refine b2.trans_lt ((hmar i hi).2.trans_le (le_of_eq ?_))
          rw [pow_succ]; ring
        exact (lt_of_mul_lt_mul_right e1 hu1.le).trans_le b1
      rw [if_pos ⟨by exact c1, c2⟩] at hr
      have r3 : Rel u (J + Sh.nb + 11) ratio (f i / G i) :=
        ((Rel.of_fu h0 h1 hr).trans h0 h1 ((Rel.refl h0 h1 (f i)).div h0 h1 r1)).mono h0 h1 (by omega)
      have hq : 0 < f i / G i := div_pos (hf i hi) (hGpos i hi)
      constructor
      · have n1 := (NearBy.log h0 h1 r3 hq).fu h0 h1 hlg
        have n2 := ((NearBy.refl h0 h1 (f i)).mul h0 h1 n1).fu h0 h1 hk
        rw [abs_of_pos (hf i hi)] at n2
        exact n2.mono h0 h1 (by omega) le_rfl
      · have n1 := (NearBy.of_rel h0 h1 r3).neg
        rw [abs_of_pos hq, ← hd] at n1
        exact n1
    obtain ⟨k1, k2⟩ := R.near h0 h1 h hg hl hW hp hu hen hJ (fun i hi => (key i hi).1) fun i hi => (key i hi).2
    refine ⟨(k1.mono h0 h1 (by omega) le_rfl).1, fun k hk => ?_⟩
    rw [vec_tab hk]
    exact ((k2 k hk).mono h0 h1 (by omega) le_rfl).1

/-- **C133** (constraint).  The value of `const_norm` computed with rounded operations. -/
theorem C133_constraint {u : ℝ} (h0 : 0 ≤ u) (hu : u ≤ 1 / 10) {S : SFit} {norm : Bool} {Sh : Shape} {N : ℕ} {W f : ℕ → ℝ}
    {T : ℝ} (h : FitData S.toFit norm Sh N W f) (hT : S.integralDens = XR.fin T)
    (hg : S.grid.Positive) (hl : N = S.grid.len) (hW : ∀ i < N, 0 ≤ W i) (args : SArgs) (x c e : List ℝ)
    (hp : Params Sh.nb args x c e) (hcn : ∀ a ∈ c, 0 ≤ a) (hen : ∀ a ∈ e, 0 < a) {J : ℕ}
    (hJ : ∀ k < Sh.nb, ∀ i < N, 3 * (vec e k * Sh.rad k i ^ 2) ≤ J) :
    ∃ (r I : ℝ) (g : List ℝ), S.constNorm (fins x) args = .ok (XR.fin r) ∧
      S.model.evaluate (fins c) (fins e) false = .ok (fins g, none) ∧ S.integrate (fins g) = .ok (XR.fin I) ∧
      ∀ cons, RConst u 0 S.grid S.spherical N Sh.nb Sh.isS norm Sh.rad (vec c) (vec e) T cons →
        |cons - r| ≤ (1 / (1 - u) ^ (N + J + Sh.nb + 18) - 1) * (|T| + I) := by
  have h1 : u < 1 := by linarith
  set G := Sh.dens norm (vec c) (vec e) with hG
  have hev := h.model.eval c e false hp.len.1 hp.len.2 fun _ a ha => (hen a ha).le
  have hcn' : S.constNorm (fins x) args = .ok (XR.fin (T - ∑ i ∈ range N, W i * G i)) := by
    unfold SFit.constNorm
    rw [evaluateModel_fins h hp fun _ a ha => (hen a ha).le]
    simp only [Fit.integrate]
    rw [h.quad.fin, hT]
    simp [hG]
  refine ⟨_, ∑ i ∈ range N, W i * G i, tab N G, hcn', by simpa using hev, h.quad.fin _, fun cons R => ?_⟩
  have n1 := R.h_v.near h0 h1 hg hl h.quad hW (z := G) (B := G) (j := J + Sh.nb + 10) fun i hi => by
    obtain ⟨r1, r2⟩ := rel_dens h0 h1 hu hp.len.1 hp.len.2 hcn hen hJ R.h_φ R.h_m i hi
    have := NearBy.of_rel h0 h1 r1
    rwa [abs_of_nonneg r2] at this
  have n2 := ((((NearBy.refl h0 h1 T).mono h0 h1 (Nat.zero_le _) le_rfl).sub h0 h1 n1).fl h0 h1 R.h_cons)
  exact (n2.mono h0 h1 (by omega) le_rfl).1

theorem RExpCol.exact {u τ : ℝ} (h0 : 0 ≤ u) (isS norm : Bool) (e c r : ℝ) :
    RExpCol u τ isS norm e c r (bf isS norm e r) (c * dbf isS norm e r) := by
  have rf : ∀ {x : ℝ}, Fu u τ x x := Fu.refl h0 _
  refine ⟨r ^ 2, -bf isS norm e r * r ^ 2, -bf isS norm e r * r ^ 2 * c, -bf isS norm e r * r ^ 2 * c, rf, rf, rf, rf, ?_⟩
  cases norm with
  | false => cases isS <;> simp [dbf, bf, dsBasis, dpBasis, sBasis, pBasis] <;> ring
  | true =>
    simp only [if_true]
    cases isS with
    | true =>
      refine ⟨r ^ 2, -e * r ^ 2, exp (-e * r ^ 2), 1.5 * exp (-e * r ^ 2), e ^ (1 / 2 : ℝ), c * e ^ (1 / 2 : ℝ),
        1.5 * exp (-e * r ^ 2) * (c * e ^ (1 / 2 : ℝ)), π, π ^ (3 / 2 : ℝ),
        1.5 * exp (-e * r ^ 2) * (c * e ^ (1 / 2 : ℝ)) / π ^ (3 / 2 : ℝ), c * dbf true true e r, rf, rf, rf, rf, rf,
        Fl.refl h0 _, rf, ?_, rf, ?_⟩
      · rw [show -bf true true e r * r ^ 2 * c + 1.5 * exp (-e * r ^ 2) * (c * e ^ (1 / 2 : ℝ)) / π ^ (3 / 2 : ℝ) =
          c * dbf true true e r by simp only [dbf, bf, dsBasis, sBasis, if_true]; ring]
        exact Fl.refl h0 _
      · simp only [if_true]
        exact ⟨rf, rf, rf⟩
    | false =>
      refine ⟨r ^ 2, -e * r ^ 2, exp (-e * r ^ 2), 5 * (exp (-e * r ^ 2) * r ^ 2), e ^ (3 / 2 : ℝ), c * e ^ (3 / 2 : ℝ),
        5 * (exp (-e * r ^ 2) * r ^ 2) * (c * e ^ (3 / 2 : ℝ)), π, π ^ (3 / 2 : ℝ),
        5 * (exp (-e * r ^ 2) * r ^ 2) * (c * e ^ (3 / 2 : ℝ)) / (3 * π ^ (3 / 2 : ℝ)), c * dbf false true e r,
        rf, rf, rf, rf, rf, Fl.refl h0 _, rf, ?_, rf, ?_⟩
      · rw [show -bf false true e r * r ^ 2 * c +
            5 * (exp (-e * r ^ 2) * r ^ 2) * (c * e ^ (3 / 2 : ℝ)) / (3 * π ^ (3 / 2 : ℝ)) = c * dbf false true e r by
          simp only [dbf, bf, dpBasis, pBasis, if_true, Bool.false_eq_true, if_false]; ring]
        exact Fl.refl h0 _
      · simp only [Bool.false_eq_true, if_false]
        exact ⟨exp (-e * r ^ 2) * r ^ 2, 3 * π ^ (3 / 2 : ℝ), rf, rf, rf, rf, rf⟩

/-- An execution with exact operations, from one of the measure. -/
theorem RFunc.exact {u : ℝ} (h0 : 0 ≤ u) {S : SFit} {norm : Bool} {Sh : Shape} {N : ℕ} {W f w : ℕ → ℝ}
    (h : FitData S.toFit norm Sh N W f) (hg : S.grid.Finite) (hl : N = S.grid.len)
    (hs : S.spherical = true → ∃ g, S.grid = .radial g) {v dv : ℕ → ℝ → ℝ} (args : SArgs) (x c e : List ℝ)
    (hm : ∀ i < N, RMeas u 0 S.measure (f i) (Sh.dens norm (vec c) (vec e) i) (v i (Sh.dens norm (vec c) (vec e) i))
      (dv i (Sh.dens norm (vec c) (vec e) i))) :
    Nonempty (RFunc u 0 S.grid S.spherical N Sh.nb S.measure f w Sh.isS norm Sh.rad (vec c) (vec e) (args.off Sh.nb) x.length
      (∑ i ∈ range N, W i * (w i * v i (Sh.dens norm (vec c) (vec e) i)))
      (vec (tab x.length fun k => ∑ i ∈ range N, W i * (w i * dv i (Sh.dens norm (vec c) (vec e) i) *
         Sh.jcol norm c e (args.off Sh.nb + k) i)))) := by
  have hI : ∀ y : ℕ → ℝ, RIntegrate u 0 S.grid S.spherical y (∑ i ∈ range N, W i * y i) := by
    intro y
    obtain ⟨I, k1, k2, -⟩ := RIntegrate.exact (τ := 0) h0 hg S.spherical hs y
    rw [← hl, h.quad.fin] at k1
    injection k1 with k1
    injection k1 with k1
    rwa [← k1] at k2
  refine ⟨⟨fun i k => bf (Sh.isS k) norm (vec e k) (Sh.rad k i), Sh.dens norm (vec c) (vec e), fun i j => Sh.jcol norm c e j i,
    fun i => v i (Sh.dens norm (vec c) (vec e) i), fun i => dv i (Sh.dens norm (vec c) (vec e) i),
    fun i => w i * v i (Sh.dens norm (vec c) (vec e) i), fun i => w i * dv i (Sh.dens norm (vec c) (vec e) i),
    fun l i => w i * dv i (Sh.dens norm (vec c) (vec e) i) * Sh.jcol norm c e (args.off Sh.nb + l) i,
    fun i _ k _ => RBasis.exact h0 _ _ _ _, fun i _ => ?_, fun i _ j hj => ?_, fun i _ j hj => ?_, hm,
    fun i _ => Fu.refl h0 _, hI _, fun i _ => Fu.refl h0 _, fun l _ i _ => Fu.refl h0 _, fun l hl => ⟨_, hI _, ?_⟩⟩⟩
  · refine ⟨fun k => bf (Sh.isS k) norm (vec e k) (Sh.rad k i) * vec c k, fun k _ => Fu.refl h0 _, ?_⟩
    have := RSum.exact h0 ((List.range Sh.nb).map fun k => bf (Sh.isS k) norm (vec e k) (Sh.rad k i) * vec c k)
    rw [sum_tab_range] at this
    refine (congrArg (RSum u _) ?_).mp this
    unfold Shape.dens
    exact sum_congr rfl fun k _ => by ring
  · simp only [Shape.jcol, if_pos hj]
    exact Fu.refl h0 _
  · simp only [Shape.jcol, Nat.not_lt.mpr (Nat.le_add_right Sh.nb j), if_false, Nat.add_sub_cancel_left]
    exact RExpCol.exact h0 _ _ _ _ _
  · rw [vec_tab hl]
    exact Fu.refl h0 _

/-- **C133** (exact arithmetic).  The numbers of the exact model are admissible for every accuracy. -/
theorem C133_exact {u : ℝ} (h0 : 0 ≤ u) {S : SFit} {norm : Bool} {Sh : Shape} {N : ℕ} {W f w : ℕ → ℝ}
    (h : FitData S.toFit norm Sh N W f) (hw : S.weights = fins (tab N w)) (hg : S.grid.Finite) (hl : N = S.grid.len)
    (hs : S.spherical = true → ∃ g, S.grid = .radial g) (args : SArgs) (x c e : List ℝ)
    (hp : Params Sh.nb args x c e) (hpos : norm = true → ∀ a ∈ e, 0 ≤ a)
    (hm : S.measure = .sq ∨ ∃ μ nv, S.measure = .kl ⟨XR.fin μ, nv⟩ ∧ (∀ i < N, 0 < f i) ∧ Sh.AllUnmasked norm N μ f c e) :
    ∃ (obj : ℝ) (grad : List ℝ), S.func (fins x) args = .ok (XR.fin obj, fins grad) ∧
      Nonempty (RFunc u 0 S.grid S.spherical N Sh.nb S.measure f w Sh.isS norm Sh.rad (vec c) (vec e) (args.off Sh.nb) x.length
        obj (vec grad)) := by
  rcases hm with hm | ⟨μ, nv, hm, hf, hun⟩
  · refine ⟨_, _, func_fins h hw (by rw [hm]; exact measAt_sq N f) hp hpos fun _ _ => trivial,
      RFunc.exact h0 h hg hl hs args x c e fun i hi => ?_⟩
    rw [hm]
    exact ⟨_, Fl.refl h0 _, Fu.refl h0 _, Fu.refl h0 _⟩
  · refine ⟨_, _, func_fins h hw (by rw [hm]; exact measAt_kl N f μ nv hf) hp hpos hun,
      RFunc.exact h0 h hg hl hs args x c e fun i hi => ?_⟩
    rw [hm]
    refine ⟨_, f i / Sh.dens norm (vec c) (vec e) i, _, Fu.refl h0 _, ?_, Fu.refl h0 _, Fu.refl h0 _, rfl⟩
    rw [if_pos ⟨by exact (hun i hi).1, (hun i hi).2⟩]
    exact Fu.refl h0 _

theorem demo_J (k : ℕ) (hk : k < (atomShape [0, 1, 2] 1 0).nb) (i : ℕ) (hi : i < 3) :
    3 * (vec [1] k * (atomShape [0, 1, 2] 1 0).rad k i ^ 2) ≤ (12 : ℕ) := by
  have hk : k < 1 := hk
  interval_cases k
  interval_cases i <;> norm_num [atomShape, vec]

/-- C133 for the fit object of C42 with both parameters in double precision: the computed objective and gradient of the squared
difference differ by at most `10⁻¹⁴` of the integrals named in the theorem, and there are such computations. -/
example : ∃ (obj : ℝ) (grad : List ℝ) (B : ℝ) (D : ℕ → ℝ),
    (demoSFit .sq).func (fins [1, 1]) .none = .ok (XR.fin obj, fins grad) ∧
    (∀ (v : ℝ) (d : ℕ → ℝ), RFunc (2 ^ (-53 : ℤ)) 0 (demoSFit .sq).grid (demoSFit .sq).spherical 3 1 .sq demoF
        (fun i => (i : ℝ) + 1) (fun k => decide (k < 1)) true (fun _ i => vec [0, 1, 2] i) (vec [1]) (vec [1]) 0 2 v d →
      |v - obj| ≤ 1 / 10 ^ 14 * B ∧ ∀ k < 2, |d k - vec grad k| ≤ 1 / 10 ^ 14 * D k) ∧
    ∃ (v : ℝ) (d : ℕ → ℝ), Nonempty (RFunc (2 ^ (-53 : ℤ)) 0 (demoSFit .sq).grid (demoSFit .sq).spherical 3 1 .sq demoF
        (fun i => (i : ℝ) + 1) (fun k => decide (k < 1)) true (fun _ i => vec [0, 1, 2] i) (vec [1]) (vec [1]) 0 2 v d) := by
  have hu : (0 : ℝ) ≤ 2 ^ (-53 : ℤ) := by positivity
  obtain ⟨obj, grad, g, B, D, h1, -, -, h2, h3, h4⟩ := C133_squared (u := 2 ^ (-53 : ℤ)) hu (by norm_num)
    (w := fun i => (i : ℝ) + 1) (demoSFit_data .sq) rfl rfl ⟨[0, 1, 2], rfl, by norm_num⟩ rfl demo_W .none [1, 1] [1] [1]
    (.both [1] [1] rfl rfl) (by simp) (by simp) (J := 12) demo_J
  obtain ⟨obj', grad', -, R⟩ := C133_exact (u := 2 ^ (-53 : ℤ)) hu (w := fun i => (i : ℝ) + 1) (demoSFit_data .sq) rfl
    ⟨[0, 1, 2], rfl⟩ rfl (fun _ => ⟨_, rfl⟩) .none [1, 1] [1] [1] (.both [1] [1] rfl rfl) (by simp) (.inl rfl)
  refine ⟨obj, grad, B, D, h1, fun v d R => ?_, obj', vec grad', R⟩
  obtain ⟨k1, k2⟩ := h4 v d R
  have hγ1 : (1 : ℝ) / (1 - 2 ^ (-53 : ℤ)) ^ (3 + 2 * 12 + 2 * (atomShape [0, 1, 2] 1 0).nb + 31) - 1 ≤ 1 / 10 ^ 14 ∧
      (0 : ℝ) < 1 / (1 - 2 ^ (-53 : ℤ)) ^ (3 + 2 * 12 + 2 * (atomShape [0, 1, 2] 1 0).nb + 31) - 1 := by
    constructor <;> norm_num [atomShape]
  have hγ2 : (1 : ℝ) / (1 - 2 ^ (-53 : ℤ)) ^ (3 + 2 * 12 + (atomShape [0, 1, 2] 1 0).nb + 38) - 1 ≤ 1 / 10 ^ 14 ∧
      (0 : ℝ) < 1 / (1 - 2 ^ (-53 : ℤ)) ^ (3 + 2 * 12 + (atomShape [0, 1, 2] 1 0).nb + 38) - 1 := by
    constructor <;> norm_num [atomShape]
  have pos : ∀ {γ b t : ℝ}, |t| ≤ γ * b → 0 < γ → 0 ≤ b := fun h hγ =>
    nonneg_of_mul_nonneg_right ((abs_nonneg _).trans h) hγ
  exact ⟨k1.trans (mul_le_mul_of_nonneg_right hγ1.1 (pos k1 hγ1.2)),
    fun k hk => (k2 k hk).trans (mul_le_mul_of_nonneg_right hγ2.1 (pos (k2 k hk) hγ2.2))⟩

/-- C133 for the Kullback-Leibler measure with the coefficient: the computed derivative is exact to a relative error of
`10⁻¹⁴`, and likewise the constraint. -/
example : ∃ (obj : ℝ) (grad : List ℝ), (demoSFit (.kl ⟨XR.fin 0, XR.fin 7⟩)).func (fins [1]) (.fixedExpons (fins [1])) =
      .ok (XR.fin obj, fins grad) ∧
    ∀ (v : ℝ) (d : ℕ → ℝ), RFunc (2 ^ (-53 : ℤ)) 0 (demoSFit .sq).grid (demoSFit .sq).spherical 3 1
        (.kl ⟨XR.fin 0, XR.fin 7⟩) demoF
        (fun i => (i : ℝ) + 1) (fun k => decide (k < 1)) true (fun _ i => vec [0, 1, 2] i) (vec [1]) (vec [1]) 0 1 v d →
      |d 0 - vec grad 0| ≤ 1 / 10 ^ 14 * |vec grad 0| := by
  have hu : (0 : ℝ) ≤ 2 ^ (-53 : ℤ) := by positivity
  obtain ⟨g, h1, h2⟩ := C133_kl (u := 2 ^ (-53 : ℤ)) hu (by norm_num)
    (w := fun i => (i : ℝ) + 1) (demoSFit_data (.kl ⟨XR.fin 0, XR.fin 7⟩)) rfl rfl (fun i _ => demoF_pos i)
    ⟨[0, 1, 2], rfl, by norm_num⟩ rfl demo_W (.fixedExpons (fins [1])) [1] [1] [1]
    (.coeffs [1] [1] rfl rfl) (by simp) (by simp) (J := 12) demo_J
  have hg : g = tab 3 ((atomShape [0, 1, 2] 1 0).dens true (vec [1]) (vec [1])) := by
    have := (demoSFit_data (.kl ⟨XR.fin 0, XR.fin 7⟩)).model.eval [1] [1] false rfl rfl (by simp)
    rw [h1] at this
    injection this with this
    injection this with this
    exact fins_injective this
  obtain ⟨obj, grad, B, D, h3, -, -, -, h4, h5⟩ := h2 fun i hi => by
    rw [hg, vec_tab hi, demo_dens i hi]
    have hb : 0 < bf true true 1 (i : ℝ) := bf_pos true one_pos (Or.inl rfl)
    have hpw : (3 : ℝ) / 4 < (1 - 2 ^ (-53 : ℤ)) ^ (12 + (atomShape [0, 1, 2] 1 0).nb + 11) := by norm_num [atomShape]
    refine ⟨mul_pos hb (by norm_num), ?_⟩
    unfold demoF
    have h3 : ((i : ℝ) + 1) * tiny < 3 / 4 := by
      have h1 : (i : ℝ) + 1 ≤ 3 := by interval_cases i <;> norm_num
      have := tiny_lt_quarter
      have := tiny_pos
      nlinarith
    calc ((i : ℝ) + 1) * bf true true 1 i * tiny = bf true true 1 i * (((i : ℝ) + 1) * tiny) := by ring
      _ < _ := mul_lt_mul_of_pos_left (h3.trans hpw) hb
  refine ⟨obj, grad, h3, fun v d R => ?_⟩
  have k := (h5 v d R).2 0 (by norm_num)
  rw [h4 (fun i _ => by positivity) 0 (by norm_num) (by norm_num [SArgs.off, atomShape])] at k
  refine k.trans (mul_le_mul_of_nonneg_right ?_ (abs_nonneg _))
  norm_num [atomShape]

/-- The constraint of the same object. -/
example : ∃ (r I : ℝ), (demoSFit .sq).constNorm (fins [1]) (.fixedCoeffs (fins [1])) = .ok (XR.fin r) ∧
    ∀ cons, RConst (2 ^ (-53 : ℤ)) 0 (demoSFit .sq).grid (demoSFit .sq).spherical 3 1 (fun k => decide (k < 1)) true
        (fun _ i => vec [0, 1, 2] i) (vec [1]) (vec [1]) 1 cons →
      |cons - r| ≤ (1 / (1 - 2 ^ (-53 : ℤ)) ^ 34 - 1) * (1 + I) := by
  obtain ⟨r, I, g, h1, -, -, h2⟩ := C133_constraint (u := 2 ^ (-53 : ℤ)) (by positivity) (by norm_num) (T := 1)
    (demoSFit_data .sq) rfl ⟨[0, 1, 2], rfl, by norm_num⟩ rfl demo_W (.fixedCoeffs (fins [1])) [1] [1] [1]
    (.expons [1] [1] rfl rfl) (by simp) (by simp) (J := 12) demo_J
  refine ⟨r, I, h1, fun cons R => ?_⟩
  have := h2 cons R
  simpa [atomShape] using this

end
end BFit
