import Verif.Model.RoundStart
import Verif.Lemmas.RoundQuad
import Verif.Lemmas.RoundNear
import Verif.Props.GreedyStart
import Verif.Props.GreedyStartKL

/-!
C153: the one-function starts of the greedy search when every operation is rounded.
-/

namespace BFit

open Real Classical Finset

noncomputable section

section
variable {u : ℝ} (h0 : 0 ≤ u) (h1 : u < 1)
include h0 h1

theorem RSum.near_tab {n k : ℕ} {t z B : ℕ → ℝ} {s : ℝ} (h : RSum u ((List.range n).map t) s)
    (ht : ∀ i < n, NearBy u k (t i) (z i) (B i)) :
    NearBy u (n + k) s (∑ i ∈ range n, z i) (∑ i ∈ range n, B i) := by
  obtain ⟨b, hb, rfl⟩ := h.rel_tab h0 h1
  exact NearBy.sum h0 h1 fun i hi => ((ht i hi).rel_left h0 h1 (hb i hi)).mono h0 h1 (by omega) le_rfl

theorem NearBy.prod_sub {k : ℕ} {a b c d a' b' c' d' A B C D p q m : ℝ} (ha : NearBy u k a a' A) (hb : NearBy u k b b' B)
    (hc : NearBy u k c c' C) (hd : NearBy u k d d' D) (hp : Fl u p (a * b)) (hq : Fl u q (c * d)) (hm : Fl u m (p - q)) :
    NearBy u (2 * k + 2) m (a' * b' - c' * d') (A * B + C * D) := by
  have n1 := (ha.mul h0 h1 hb).fl h0 h1 hp
  have n2 := ((hc.mul h0 h1 hd).fl h0 h1 hq).neg
  have n3 := n1.add h0 h1 n2
  rw [← sub_eq_add_neg, ← sub_eq_add_neg] at n3
  exact (n3.fl h0 h1 hm).mono h0 h1 (by omega) le_rfl

/-- A quotient of numbers with absolute errors. -/
theorem quot_near {k : ℕ} {v m d num D P S : ℝ} (hm : NearBy u k m num P) (hd : NearBy u k d D S) (hv : Fl u v (m / d))
    (hD : (1 / (1 - u) ^ (k + 1) - 1) * S < |D|) :
    |v - num / D| ≤ (1 / (1 - u) ^ (k + 1) - 1) * P * (2 * S) / (|D| * (|D| - (1 / (1 - u) ^ (k + 1) - 1) * S)) := by
  obtain ⟨t, ht, ht', e⟩ := Rel.of_fl h0 h1 hv
  have hmt : NearBy u (k + 1) (m * t) num P := by
    have r : Rel u 1 (m * t) m := ⟨t, ht, ht', rfl⟩
    exact hm.rel_left h0 h1 r
  have hd' := hd.mono h0 h1 (l := k + 1) (by omega) le_rfl
  have hg : 0 ≤ 1 / (1 - u) ^ (k + 1) - 1 := by
    have : (1 - u) ^ (k + 1) ≤ 1 := pow_le_one₀ (by linarith) (by linarith)
    have h2 : 0 < (1 - u) ^ (k + 1) := pow_pos (by linarith) _
    rw [sub_nonneg, le_div_iff₀ h2]
    linarith
  obtain ⟨m1, m2⟩ := hmt
  obtain ⟨d1, d2⟩ := hd'
  generalize 1 / (1 - u) ^ (k + 1) - 1 = g at m1 d1 hD hg ⊢
  have hP : 0 ≤ P := (abs_nonneg _).trans m2
  have hS : 0 ≤ S := (abs_nonneg _).trans d2
  have hDp : 0 < |D| := lt_of_le_of_lt (mul_nonneg hg hS) hD
  have hdl : |D| - g * S ≤ |d| := by
    have := abs_add_le (D - d) d
    rw [sub_add_cancel, abs_sub_comm] at this
    linarith
  have hdp : 0 < |d| := by linarith
  have hD0 : D ≠ 0 := abs_pos.mp hDp
  have hd0 : d ≠ 0 := abs_pos.mp hdp
  have key : v - num / D = ((m * t - num) * D - num * (d - D)) / (D * d) := by
    rw [e]
    field_simp
    ring
  rw [key, abs_div, abs_mul]
  have num_le : |(m * t - num) * D - num * (d - D)| ≤ g * P * (2 * S) := by
    calc |(m * t - num) * D - num * (d - D)| ≤ |(m * t - num) * D| + |num * (d - D)| := abs_sub _ _
      _ = |m * t - num| * |D| + |num| * |d - D| := by rw [abs_mul, abs_mul]
      _ ≤ g * P * S + P * (g * S) := by gcongr
      _ = g * P * (2 * S) := by ring
  have hpos : 0 < |D| - g * S := by linarith
  gcongr

/-- The sums of the start by linear equations. -/
theorem RSolveOne.sums {n : ℕ} {w z t : ℕ → ℝ} {s : ℝ} (hw : ∀ i < n, 0 ≤ w i) (h : RSum u ((List.range n).map t) s)
    (ht : ∀ i < n, Rel u 4 (t i) (w i * z i)) :
    NearBy u (n + 4) (2 * s) (2 * ∑ i ∈ range n, w i * z i) (2 * ∑ i ∈ range n, w i * |z i|) := by
  have a := RSum.near_tab h0 h1 h fun i hi => NearBy.of_rel h0 h1 (ht i hi)
  have e : ∑ i ∈ range n, |w i * z i| = ∑ i ∈ range n, w i * |z i| :=
    sum_congr rfl fun i hi => by rw [abs_mul, abs_of_nonneg (hw i (mem_range.mp hi))]
  rw [e] at a
  obtain ⟨a1, a2⟩ := a
  refine ⟨?_, ?_⟩
  · rw [← mul_sub, abs_mul, abs_two]
    linarith
  · rw [abs_mul, abs_two]
    linarith

omit h0 h1 in
theorem four_frac {g P S D : ℝ} :
    g * (4 * P) * (2 * (4 * S)) / (4 * D * (4 * D - g * (4 * S))) = 2 * g * P * S / (D * (D - g * S)) := by
  rw [show g * (4 * P) * (2 * (4 * S)) = 16 * (2 * g * P * S) by ring,
    show 4 * D * (4 * D - g * (4 * S)) = 16 * (D * (D - g * S)) by ring]
  exact mul_div_mul_left _ _ (by norm_num)

/-- **C153 (least squares).** The start by linear equations: with enough determinant the computed exponent and the logarithm of the
computed coefficient are near the exact values. -/
theorem C153_ls {n : ℕ} {x y w : ℕ → ℝ} {W B C E F Ca Fa g P Q S D : ℝ} (hw : ∀ i < n, 0 ≤ w i) (hy : ∀ i < n, 0 < y i)
    (eW : W = ∑ i ∈ range n, w i) (eB : B = ∑ i ∈ range n, w i * x i ^ 2) (eC : C = ∑ i ∈ range n, w i * log (y i))
    (eE : E = ∑ i ∈ range n, w i * x i ^ 4) (eF : F = ∑ i ∈ range n, w i * (x i ^ 2 * log (y i)))
    (eCa : Ca = ∑ i ∈ range n, w i * |log (y i)|) (eFa : Fa = ∑ i ∈ range n, w i * (x i ^ 2 * |log (y i)|))
    (eg : g = 1 / (1 - u) ^ (2 * n + 11) - 1) (eP : P = W * Fa + Ca * B) (eQ : Q = B * Fa + Ca * E) (eS : S = W * E + B ^ 2)
    (eD : D = W * E - B ^ 2) (hD : g * S < D) :
    solveOneWeight (fins (tab n x)) (fins (tab n y)) (fins (tab n w)) =
        fins [exp ((C * E - B * F) / D), (C * B - W * F) / D] ∧
      ∀ cf α, RSolveOne u n x y w cf α →
        |α - (C * B - W * F) / D| ≤ 2 * g * P * S / (D * (D - g * S)) ∧
        ∃ A, Fl u cf (exp A) ∧ |A - (C * E - B * F) / D| ≤ 2 * g * Q * S / (D * (D - g * S)) := by
  have hg : 0 ≤ g := by
    have : (1 - u) ^ (2 * n + 11) ≤ 1 := pow_le_one₀ (by linarith) (by linarith)
    have h2 : 0 < (1 - u) ^ (2 * n + 11) := pow_pos (by linarith) _
    rw [eg, sub_nonneg, le_div_iff₀ h2]
    linarith
  have hE : 0 ≤ E := eE ▸ sum_nonneg fun i hi => mul_nonneg (hw i (mem_range.mp hi)) (by positivity)
  have hW : 0 ≤ W := eW ▸ sum_nonneg fun i hi => hw i (mem_range.mp hi)
  have hS : 0 ≤ S := by rw [eS]; positivity
  have hDp : 0 < D := lt_of_le_of_lt (mul_nonneg hg hS) hD
  refine ⟨?_, ?_⟩
  · rw [solveOneWeight_fins n x y w hy]
    have mW : mom n w (fun _ => 1) = W := by simp [mom, eW]
    have mB : mom n w (fun i => x i ^ 2) = B := by simp [mom, eB]
    have mC : mom n w (fun i => log (y i)) = C := by simp [mom, eC]
    have mE : mom n w (fun i => x i ^ 4) = E := by simp [mom, eE]
    have mF : mom n w (fun i => x i ^ 2 * log (y i)) = F := by simp [mom, eF]
    simp only [mW, mB, mC, mE, mF]
    have d1 : 2 * B * (2 * B) - 2 * W * (2 * E) ≠ 0 := by nlinarith
    have d2 : 2 * W * (2 * E) - 2 * B * (2 * B) ≠ 0 := by nlinarith
    rw [XR.div_fin_of_ne _ d1, XR.div_fin_of_ne _ d2]
    have q1 : (2 * B * (2 * F) - 2 * C * (2 * E)) / (2 * B * (2 * B) - 2 * W * (2 * E)) = (C * E - B * F) / D := by
      rw [div_eq_div_iff d1 hDp.ne', eD]; ring
    have q2 : -((2 * W * (2 * F) - 2 * C * (2 * B)) / (2 * W * (2 * E) - 2 * B * (2 * B))) = (C * B - W * F) / D := by
      rw [← neg_div, div_eq_div_iff d2 hDp.ne', eD]; ring
    rw [q1]
    simp [← q2]
  · rintro cf α ⟨q, r, l, tb, tc, te, s, tf, W', B', C', E', F', A, V, ht, sW, sB, sC, sE, sF, qA, qV, hc, rfl⟩
    have nW : NearBy u (n + 4) (2 * W') (2 * W) (2 * W) := by
      have := RSolveOne.sums h0 h1 (z := fun _ => 1) hw sW fun i _ => by
        simpa using (Rel.refl h0 h1 (w i)).mono h0 h1 (by omega)
      simpa [← eW] using this
    have nB : NearBy u (n + 4) (2 * B') (2 * B) (2 * B) := by
      have := RSolveOne.sums h0 h1 (z := fun i => x i ^ 2) hw sB fun i hi => by
        obtain ⟨hq, -, -, hb, -⟩ := ht i hi
        exact (((Rel.of_fl h0 h1 hb).trans h0 h1 ((Rel.refl h0 h1 (w i)).mul h0 h1 (Rel.of_fl h0 h1 hq)))).mono h0 h1 (by omega)
      simpa [← eB] using this
    have nC : NearBy u (n + 4) (2 * C') (2 * C) (2 * Ca) := by
      have := RSolveOne.sums h0 h1 (z := fun i => log (y i)) hw sC fun i hi => by
        obtain ⟨-, -, hl, -, hb, -⟩ := ht i hi
        exact (((Rel.of_fl h0 h1 hb).trans h0 h1 ((Rel.refl h0 h1 (w i)).mul h0 h1 (Rel.of_fl h0 h1 hl)))).mono h0 h1 (by omega)
      simpa [← eC, ← eCa] using this
    have nE : NearBy u (n + 4) (2 * E') (2 * E) (2 * E) := by
      have := RSolveOne.sums h0 h1 (z := fun i => x i ^ 4) hw sE fun i hi => by
        obtain ⟨-, hr, -, -, -, hb, -⟩ := ht i hi
        exact (((Rel.of_fl h0 h1 hb).trans h0 h1 ((Rel.refl h0 h1 (w i)).mul h0 h1 (Rel.of_fl h0 h1 hr)))).mono h0 h1 (by omega)
      have e4 : ∀ i, |x i ^ 4| = x i ^ 4 := fun i => abs_of_nonneg (by positivity)
      simpa [← eE, e4, -abs_pow] using this
    have nF : NearBy u (n + 4) (2 * F') (2 * F) (2 * Fa) := by
      have := RSolveOne.sums h0 h1 (z := fun i => x i ^ 2 * log (y i)) hw sF fun i hi => by
        obtain ⟨hq, -, hl, -, -, -, hs, hb⟩ := ht i hi
        have a := (Rel.of_fl h0 h1 hs).trans h0 h1 ((Rel.refl h0 h1 (w i)).mul h0 h1 (Rel.of_fl h0 h1 hq))
        have b := (Rel.of_fl h0 h1 hb).trans h0 h1 (a.mul h0 h1 (Rel.of_fl h0 h1 hl))
        rw [mul_assoc] at b
        exact b.mono h0 h1 (by omega)
      simpa [← eF, ← eFa, abs_mul] using this
    have kk : 2 * (n + 4) + 2 + 1 = 2 * n + 11 := by ring
    obtain ⟨p, q', m, r', s', k, a1, a2, a3, a4, a5, a6, a7⟩ := qV
    have m1 := NearBy.prod_sub h0 h1 nW nF nC nB a1 a2 a3
    have m2 := NearBy.prod_sub h0 h1 nW nE nB nB a4 a5 a6
    obtain ⟨p, q', m, r', s', k, b1, b2, b3, b4, b5, b6, b7⟩ := qA
    have m3 := NearBy.prod_sub h0 h1 nB nF nC nE b1 b2 b3
    have m4 := NearBy.prod_sub h0 h1 nB nB nW nE b4 b5 b6
    have f1 : 2 * W * (2 * E) + 2 * B * (2 * B) = 4 * S := by rw [eS]; ring
    have f2 : 2 * W * (2 * E) - 2 * B * (2 * B) = 4 * D := by rw [eD]; ring
    have f3 : 2 * B * (2 * B) + 2 * W * (2 * E) = 4 * S := by rw [eS]; ring
    have f4 : 2 * B * (2 * B) - 2 * W * (2 * E) = -(4 * D) := by rw [eD]; ring
    have f5 : 2 * W * (2 * Fa) + 2 * Ca * (2 * B) = 4 * P := by rw [eP]; ring
    have f6 : 2 * B * (2 * Fa) + 2 * Ca * (2 * E) = 4 * Q := by rw [eQ]; ring
    have ab : |4 * D| = 4 * D := abs_of_pos (by linarith)
    rw [f1, f2] at m2
    rw [f3, f4] at m4
    rw [f5] at m1
    rw [f6] at m3
    have r1 := quot_near h0 h1 m1 m2 a7 (by rw [kk, ← eg, ab]; linarith)
    have r2 := quot_near h0 h1 m3 m4 b7 (by rw [kk, ← eg, abs_neg, ab]; linarith)
    rw [kk, ← eg, ab, four_frac] at r1
    rw [kk, ← eg, abs_neg, ab, four_frac] at r2
    refine ⟨?_, A, hc, ?_⟩
    · convert r1 using 1
      rw [← abs_neg]
      congr 1
      rw [show 2 * W * (2 * F) - 2 * C * (2 * B) = 4 * -(C * B - W * F) by ring, mul_div_mul_left _ _ (by norm_num)]
      ring
    · convert r2 using 3
      rw [show 2 * B * (2 * F) - 2 * C * (2 * E) = -(4 * (C * E - B * F)) by ring, neg_div_neg_eq,
        mul_div_mul_left _ _ (by norm_num)]

/-- **C153 (KL).** The exponent of the start of `GreedyKLFPI`, and the same when the number of electrons is itself computed. -/
theorem C153_kl {x : List ℝ} {f : ℕ → ℝ} {M : ℝ} (hx : x.Pairwise (· ≤ ·)) (hf : ∀ i < x.length, 0 ≤ f i)
    (eM : M = ∑ i ∈ range x.length, vec (trapW x) i * (f i * vec x i ^ 4)) (hM : M ≠ 0) (T : ℝ) :
    klOneFun (.radial ⟨fins x⟩) (fins x) (fins (tab x.length f)) (XR.fin T) = .ok (fins [T, 3 * T / (8 * π * M)]) ∧
      (∀ α, RKlStart u x f T α → |α - 3 * T / (8 * π * M)| ≤ (1 / (1 - u) ^ (x.length + 16) - 1) * |3 * T / (8 * π * M)|) ∧
      ∀ T' α, T = ∑ i ∈ range x.length, vec (trapW x) i * (4 * π * vec x i ^ 2) * f i →
        RIntegrate u 0 (.radial ⟨fins x⟩) true f T' → RKlStart u x f T' α →
        |α - 3 * T / (8 * π * M)| ≤ (1 / (1 - u) ^ (2 * x.length + 23) - 1) * |3 * T / (8 * π * M)| := by
  have e : 2 * ∑ i ∈ range x.length, sphW x i * (f i * vec x i ^ 2) = 8 * π * M := by
    rw [eM, mul_sum, mul_sum]
    exact sum_congr rfl fun i _ => by unfold sphW; ring
  have hpos : (Grid.radial ⟨fins x⟩).Positive := ⟨x, rfl, hx⟩
  have gen : ∀ k T' α, Rel u k T' T → RKlStart u x f T' α → Rel u (x.length + 16 + k) α (3 * T / (8 * π * M)) := by
    rintro k T' α hT ⟨q, r, h, d, k', p, m, n, ht, hd, hk, hp, hm, hn, hα⟩
    have hI : RIntegrate u 0 (.radial ⟨fins x⟩) false h d := ⟨x, rfl, by simpa using hd⟩
    have hq := quad_plain (hasWeights_radial x)
    rw [trapW_length] at hq
    have rd := RIntegrate.rel h0 h1 hpos (by simp [Grid.len]) hq (z := fun i => f i * vec x i ^ 4) (j := 4) hI
      (fun i hi => by
        obtain ⟨a, b, c⟩ := ht i hi
        have ra := Rel.of_fl h0 h1 a
        have rb := (Rel.of_fl h0 h1 b).trans h0 h1 (by simpa [pow_two] using ra.mul h0 h1 ra)
        have rc := (Rel.of_fl h0 h1 c).trans h0 h1 ((Rel.refl h0 h1 (f i)).mul h0 h1 rb)
        have e4 : x.getD i 0 * x.getD i 0 * (x.getD i 0 * x.getD i 0) = vec x i ^ 4 := by unfold vec; ring
        rw [← e4]
        exact rc.mono h0 h1 (by omega))
      (fun i hi => mul_nonneg (hf i hi) (by positivity))
    rw [← eM] at rd
    have rk := (Rel.of_fl h0 h1 hk).trans h0 h1 ((Rel.refl h0 h1 3).mul h0 h1 hT)
    have rm := (Rel.of_fl h0 h1 hm).trans h0 h1 ((Rel.refl h0 h1 8).mul h0 h1 (Rel.of_fl h0 h1 hp))
    have rn := (Rel.of_fl h0 h1 hn).trans h0 h1 (rm.mul h0 h1 rd)
    have ra := (Rel.of_fl h0 h1 hα).trans h0 h1 (rk.div h0 h1 rn)
    exact ra.mono h0 h1 (by omega)
  refine ⟨?_, fun α h => ?_, fun T' α eT hI h => ?_⟩
  · rw [klOneFun_fins, e]
    intro h
    rw [h] at e
    have := pi_pos
    have : 8 * π * M ≠ 0 := by positivity
    exact this (by linarith)
  · exact (gen 0 T α (Rel.refl h0 h1 T) h).abs_sub h0 h1
  · have hT := RIntegrate.rel h0 h1 hpos (by simp [Grid.len]) (quad_spherical x) (j := 0) hI (fun i _ => Rel.refl h0 h1 (f i)) hf
    rw [← eT] at hT
    exact ((gen _ T' α hT h).mono h0 h1 (by omega)).abs_sub h0 h1

omit h1 in
/-- **C153 (exact).** The exact values are possible results. -/
theorem C153_exact (n : ℕ) (x y w : ℕ → ℝ) {W B C E F D : ℝ} (eW : W = ∑ i ∈ range n, w i)
    (eB : B = ∑ i ∈ range n, w i * x i ^ 2) (eC : C = ∑ i ∈ range n, w i * log (y i))
    (eE : E = ∑ i ∈ range n, w i * x i ^ 4) (eF : F = ∑ i ∈ range n, w i * (x i ^ 2 * log (y i))) (eD : D = W * E - B ^ 2)
    (p : List ℝ) (f : ℕ → ℝ) (T : ℝ) :
    RSolveOne u n x y w (exp ((C * E - B * F) / D)) ((C * B - W * F) / D) ∧
      RKlStart u p f T (3 * T / (8 * π * ∑ i ∈ range p.length, vec (trapW p) i * (f i * vec p i ^ 4))) := by
  have fr := Fl.refl h0
  have sm : ∀ t : ℕ → ℝ, RSum u ((List.range n).map t) (∑ i ∈ range n, t i) := fun t => RSum.exact h0 _
  refine ⟨⟨fun i => x i ^ 2, fun i => x i ^ 4, fun i => log (y i), fun i => w i * x i ^ 2, fun i => w i * log (y i),
    fun i => w i * x i ^ 4, fun i => w i * x i ^ 2, fun i => w i * x i ^ 2 * log (y i), W, B, C, E, F, (C * E - B * F) / D,
    -((C * B - W * F) / D), fun i _ => ⟨fr _, fr _, fr _, fr _, fr _, fr _, fr _, fr _⟩, eW ▸ sm _, eB ▸ sm _, eC ▸ sm _,
    eE ▸ sm _, ?_, ?_, ?_, fr _, by ring⟩, ?_⟩
  · rw [eF, show (fun i => w i * (x i ^ 2 * log (y i))) = fun i => w i * x i ^ 2 * log (y i) from funext fun i => by ring]
    exact sm _
  · refine ⟨_, _, _, _, _, _, fr _, fr _, fr _, fr _, fr _, fr _, ?_⟩
    convert fr _ using 1
    rw [show 2 * B * (2 * F) - 2 * C * (2 * E) = -4 * (C * E - B * F) by ring,
      show 2 * B * (2 * B) - 2 * W * (2 * E) = -4 * D by rw [eD]; ring, mul_div_mul_left _ _ (by norm_num)]
  · refine ⟨_, _, _, _, _, _, fr _, fr _, fr _, fr _, fr _, fr _, ?_⟩
    convert fr _ using 1
    rw [show 2 * W * (2 * F) - 2 * C * (2 * B) = 4 * -(C * B - W * F) by ring,
      show 2 * W * (2 * E) - 2 * B * (2 * B) = 4 * D by rw [eD]; ring, mul_div_mul_left _ _ (by norm_num), neg_div]
  · obtain ⟨I, hI, ⟨p', hp, h⟩, -⟩ := RIntegrate.exact (τ := 0) h0 (grid := .radial ⟨fins p⟩) ⟨p, rfl⟩ false (by simp)
      fun i => f i * (p.getD i 0 ^ 2) ^ 2
    have : p = p' := fins_injective hp
    subst this
    have hq := (quad_plain (hasWeights_radial p)).1 fun i => f i * (p.getD i 0 ^ 2) ^ 2
    rw [trapW_length] at hq
    have hl : (Grid.radial ⟨fins p⟩).len = p.length := by simp [Grid.len]
    rw [hl, hq] at hI
    injection hI with hI
    injection hI with hI
    refine ⟨_, _, _, I, _, _, _, _, fun i _ => ⟨fr _, fr _, fr _⟩, by simpa using h, fr _, fr _, fr _, fr _, ?_⟩
    convert fr _ using 4
    rw [← hI]
    exact sum_congr rfl fun i _ => by unfold vec; ring

end

/-- Two points of unit weight: the determinant is one and the start is determined up to a small error. -/
example (cf α : ℝ) (h : RSolveOne (1 / 10000) 2 (fun i => i) (fun _ => 1) (fun _ => 1) cf α) : α = 0 := by
  have := ((C153_ls (u := 1 / 10000) (by norm_num) (by norm_num) (n := 2) (x := fun i => i) (y := fun _ => 1) (w := fun _ => 1)
    (by intros; norm_num) (by intros; norm_num) rfl rfl rfl rfl rfl rfl rfl rfl rfl rfl rfl rfl
    (by norm_num [sum_range_succ])).2 cf α h).1
  simpa [sum_range_succ] using this

/-- A grid of three points and a constant density. -/
example (α : ℝ) (h : RKlStart (1 / 10000) [0, 1, 2] (fun _ => 1) 1 α) : |α - 1 / (24 * π)| ≤ 1 / 100 * (1 / (24 * π)) := by
  have e : (9 : ℝ) = ∑ i ∈ range [(0 : ℝ), 1, 2].length, vec (trapW [0, 1, 2]) i * ((fun _ => (1 : ℝ)) i * vec [0, 1, 2] i ^ 4) := by
    norm_num [sum_range_succ, trapW, trapWAux, vec]
  have := (C153_kl (u := 1 / 10000) (by norm_num) (by norm_num) (x := [0, 1, 2]) (f := fun _ => 1) (by simp) (by simp) e
    (by norm_num) 1).2.1 α h
  have e2 : 3 * 1 / (8 * π * 9) = 1 / (24 * π) := by
    have := pi_pos
    field_simp
    norm_num
  rw [e2, abs_of_pos (by have := pi_pos; positivity : 0 < 1 / (24 * π))] at this
  refine this.trans (mul_le_mul_of_nonneg_right (by norm_num) (by have := pi_pos; positivity))

end
end BFit
