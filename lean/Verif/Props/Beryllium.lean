import Verif.Props.Tables
import Mathlib.Analysis.Complex.ExponentialBounds

/-! The density of beryllium as bundled: positive everywhere and bounded. -/

namespace BFit

open Real

noncomputable section

deriving instance DecidableEq for Core
deriving instance DecidableEq for CfgItem
deriving instance DecidableEq for Dec
deriving instance DecidableEq for DRow
deriving instance DecidableEq for DBlock
deriving instance DecidableEq for DFile

/-- The contents of the file of beryllium. -/
def beFile : DFile where
  core := .all
  items := [.orb ⟨1, .S⟩ 2, .orb ⟨2, .S⟩ 2]
  energy := ⟨true, 14573023167, 9⟩
  kinetic := ⟨false, 14573023130, 9⟩
  potential := ⟨true, 29146046297, 9⟩
  blocks := [⟨.S, 2, [⟨true, 47326699, 7⟩, ⟨true, 3092695, 7⟩], [⟨false, 10001235, 7⟩, ⟨false, 9998774, 7⟩],
    [⟨1, ⟨false, 12683501, 6⟩, [⟨true, 24917, 7⟩, ⟨false, 4442, 7⟩]⟩,
     ⟨1, ⟨false, 8105927, 6⟩, [⟨false, 314015, 7⟩, ⟨true, 30990, 7⟩]⟩,
     ⟨1, ⟨false, 5152556, 6⟩, [⟨false, 849694, 7⟩, ⟨true, 367056, 7⟩]⟩,
     ⟨1, ⟨false, 3472467, 6⟩, [⟨false, 8685562, 7⟩, ⟨false, 138910, 7⟩]⟩,
     ⟨1, ⟨false, 2349757, 6⟩, [⟨false, 315855, 7⟩, ⟨true, 3598016, 7⟩]⟩,
     ⟨1, ⟨false, 1406429, 6⟩, [⟨true, 35284, 7⟩, ⟨true, 2563459, 7⟩]⟩,
     ⟨2, ⟨false, 821620, 6⟩, [⟨true, 4149, 7⟩, ⟨false, 2434108, 7⟩]⟩,
     ⟨1, ⟨false, 786473, 6⟩, [⟨false, 12299, 7⟩, ⟨false, 11150995, 7⟩]⟩]⟩]

theorem be_scan : scanFile false Data.neutral_be.lines = some beFile := by decide +kernel

theorem slaterR_one {z : ℝ} (_hz : 0 ≤ z) (r : ℝ) : slaterR z 1 r = 2 * z * sqrt z * exp (-z * r) := by
  have h : 2 * z / ((Nat.factorial (2 * 1) : ℕ) : ℝ) = z := by
    norm_num [Nat.factorial]
  simp only [slaterR, h]
  ring

/-- The two orbitals of beryllium. -/
def bePhi (k : ℕ) (r : ℝ) : ℝ := orbR (beFile.toS.basisOf .S) (beFile.toS.coeffOf ⟨k, .S⟩) r

theorem bePhi_one (r : ℝ) : bePhi 1 r = -0.0024917 * slaterR 12.683501 1 r + 0.0314015 * slaterR 8.105927 1 r +
    0.0849694 * slaterR 5.152556 1 r + 0.8685562 * slaterR 3.472467 1 r + 0.0315855 * slaterR 2.349757 1 r -
    0.0035284 * slaterR 1.406429 1 r - 0.0004149 * slaterR 0.821620 2 r + 0.0012299 * slaterR 0.786473 1 r := by
  simp only [bePhi, orbR, SFile.basisOf, SFile.coeffOf, DFile.toS, beFile, DBlock.toT, DRow.toT, Dec.fl, Dec.val, reOf,
    List.flatMap_cons, List.flatMap_nil, List.map_cons, List.map_nil, Sub.l, List.append_nil, if_true, wsum_cons,
    wsum_nil_left, List.getD_cons_zero, Bool.false_eq_true, if_false, Nat.sub_self, Nat.sub_zero]
  norm_num
  ring

theorem bePhi_two (r : ℝ) : bePhi 2 r = 0.0004442 * slaterR 12.683501 1 r - 0.0030990 * slaterR 8.105927 1 r -
    0.0367056 * slaterR 5.152556 1 r + 0.0138910 * slaterR 3.472467 1 r - 0.3598016 * slaterR 2.349757 1 r -
    0.2563459 * slaterR 1.406429 1 r + 0.2434108 * slaterR 0.821620 2 r + 1.1150995 * slaterR 0.786473 1 r := by
  simp only [bePhi, orbR, SFile.basisOf, SFile.coeffOf, DFile.toS, beFile, DBlock.toT, DRow.toT, Dec.fl, Dec.val, reOf,
    List.flatMap_cons, List.flatMap_nil, List.map_cons, List.map_nil, Sub.l, List.append_nil, if_true, wsum_cons,
    wsum_nil_left, Bool.false_eq_true, if_false, Nat.sub_zero]
  norm_num
  ring

theorem slaterR_nonneg' {z : ℝ} (hz : 0 ≤ z) (n : ℕ) {r : ℝ} (hr : 0 ≤ r) : 0 ≤ slaterR z n r := by
  unfold slaterR
  positivity

/-- Between the nucleus and distance one the outer functions are small against `exp (-z r)`. -/
theorem exp_near {z w r : ℝ} (h0 : 0 ≤ r) (h1 : r ≤ 1) (hw : w ≤ z + 3) : exp (-z * r) ≤ 21 * exp (-w * r) := by
  have h2 : exp (-z * r) ≤ exp 3 * exp (-w * r) := by
    rw [← exp_add]
    apply exp_le_exp.mpr
    nlinarith
  have h3 : exp 3 ≤ 21 := by
    have : exp 3 = exp 1 ^ 3 := by rw [← exp_nat_mul]; norm_num
    rw [this]
    have h4 := exp_one_lt_d9
    have h5 := exp_pos 1
    calc exp 1 ^ 3 ≤ 2.7182818286 ^ 3 := by gcongr
      _ ≤ 21 := by norm_num
  exact h2.trans (mul_le_mul_of_nonneg_right h3 (exp_pos _).le)

/-- Beyond distance one the inner functions are small against `exp (-w r)`. -/
theorem exp_far {z w r : ℝ} (h1 : 1 ≤ r) (hw : w ≤ z) {q : ℝ} (hq : 1 ≤ q * (1 + (z - w) + (z - w) ^ 2 / 2)) :
    exp (-z * r) ≤ q * exp (-w * r) := by
  have h2 : exp (-z * r) ≤ exp (-(z - w)) * exp (-w * r) := by
    rw [← exp_add]
    apply exp_le_exp.mpr
    nlinarith
  have h3 := quadratic_le_exp_of_nonneg (sub_nonneg.mpr hw)
  have hq0 : 0 ≤ q := by
    by_contra hc
    have : 0 ≤ z - w := sub_nonneg.mpr hw
    have : 0 < 1 + (z - w) + (z - w) ^ 2 / 2 := by positivity
    nlinarith
  have h4 : exp (-(z - w)) ≤ q := by
    rw [exp_neg, inv_le_iff_one_le_mul₀ (exp_pos _)]
    refine hq.trans ?_
    nlinarith
  exact h2.trans (mul_le_mul_of_nonneg_right h4 (exp_pos _).le)

theorem bePhi_one_pos {r : ℝ} (h0 : 0 ≤ r) (h1 : r ≤ 1) : 0 < bePhi 1 r := by
  rw [bePhi_one]
  have n1 : slaterR 12.683501 1 r ≤ 92 * exp (-3.472467 * r) := by
    rw [slaterR_one (by norm_num)]
    have h : sqrt 12.683501 ≤ 3.6 := sqrt_le_iff.mpr ⟨by norm_num, by norm_num⟩
    have h' : exp (-12.683501 * r) ≤ exp (-3.472467 * r) := exp_le_exp.mpr (by nlinarith)
    have e0 := exp_pos (-12.683501 * r)
    calc 2 * 12.683501 * sqrt 12.683501 * exp (-12.683501 * r) ≤ 2 * 12.683501 * 3.6 * exp (-3.472467 * r) := by
          gcongr
      _ ≤ _ := mul_le_mul_of_nonneg_right (by norm_num) (exp_pos _).le
  have n2 := slaterR_nonneg' (z := 8.105927) (by norm_num) 1 h0
  have n3 := slaterR_nonneg' (z := 5.152556) (by norm_num) 1 h0
  have n4 : 12.5 * exp (-3.472467 * r) ≤ slaterR 3.472467 1 r := by
    rw [slaterR_one (by norm_num)]
    have h : 1.8 ≤ sqrt 3.472467 := le_sqrt_of_sq_le (by norm_num)
    exact mul_le_mul_of_nonneg_right (by nlinarith) (exp_pos _).le
  have n5 := slaterR_nonneg' (z := 2.349757) (by norm_num) 1 h0
  have n6 : slaterR 1.406429 1 r ≤ 75 * exp (-3.472467 * r) := by
    rw [slaterR_one (by norm_num)]
    have h : sqrt 1.406429 ≤ 1.2 := sqrt_le_iff.mpr ⟨by norm_num, by norm_num⟩
    have h' := exp_near (z := 1.406429) (w := 3.472467) h0 h1 (by norm_num)
    calc 2 * 1.406429 * sqrt 1.406429 * exp (-1.406429 * r) ≤ 2 * 1.406429 * 1.2 * (21 * exp (-3.472467 * r)) := by
          gcongr
      _ ≤ _ := by rw [← mul_assoc]; exact mul_le_mul_of_nonneg_right (by norm_num) (exp_pos _).le
  have n7 : slaterR 0.821620 2 r ≤ 60 * exp (-3.472467 * r) := by
    have h : sqrt (2 * 0.821620 / ((Nat.factorial (2 * 2) : ℕ) : ℝ)) ≤ 1 := by
      refine sqrt_le_iff.mpr ⟨by norm_num, ?_⟩
      norm_num [Nat.factorial]
    have h' := exp_near (z := 0.821620) (w := 3.472467) h0 h1 (by norm_num)
    unfold slaterR
    calc (2 * 0.821620) ^ 2 * sqrt (2 * 0.821620 / ((Nat.factorial (2 * 2) : ℕ) : ℝ)) * r ^ (2 - 1) *
          exp (-0.821620 * r) ≤ (2 * 0.821620) ^ 2 * 1 * 1 * (21 * exp (-3.472467 * r)) := by
          gcongr
          simpa using h1
      _ ≤ _ := by rw [← mul_assoc]; exact mul_le_mul_of_nonneg_right (by norm_num) (exp_pos _).le
  have n8 := slaterR_nonneg' (z := 0.786473) (by norm_num) 1 h0
  have e0 := exp_pos (-3.472467 * r)
  linarith

theorem bePhi_two_pos {r : ℝ} (h1 : 1 ≤ r) : 0 < bePhi 2 r := by
  rw [bePhi_two]
  have h0 : 0 ≤ r := by linarith
  have key : ∀ z q s b : ℝ, 0.786473 ≤ z → 0 ≤ s → z ≤ s ^ 2 → 0 ≤ q →
      1 ≤ q * (1 + (z - 0.786473) + (z - 0.786473) ^ 2 / 2) → 2 * z * s * q ≤ b →
      slaterR z 1 r ≤ b * exp (-0.786473 * r) := by
    intro z q s b hz hs hzs hq0 hq hb
    have hz0 : 0 ≤ z := by linarith
    rw [slaterR_one hz0]
    have h : sqrt z ≤ s := sqrt_le_iff.mpr ⟨hs, hzs⟩
    have h' := exp_far h1 hz hq
    calc 2 * z * sqrt z * exp (-z * r) ≤ 2 * z * s * (q * exp (-0.786473 * r)) := by gcongr
      _ ≤ _ := by rw [← mul_assoc]; exact mul_le_mul_of_nonneg_right hb (exp_pos _).le
  have n1 := slaterR_nonneg' (z := 12.683501) (by norm_num) 1 h0
  have n2 := key 8.105927 0.03 2.85 1.4 (by norm_num) (by norm_num) (by norm_num) (by norm_num) (by norm_num)
    (by norm_num)
  have n3 := key 5.152556 0.07 2.27 1.7 (by norm_num) (by norm_num) (by norm_num) (by norm_num) (by norm_num)
    (by norm_num)
  have n4 := slaterR_nonneg' (z := 3.472467) (by norm_num) 1 h0
  have n5 := key 2.349757 0.27 1.54 1.96 (by norm_num) (by norm_num) (by norm_num) (by norm_num) (by norm_num)
    (by norm_num)
  have n6 := key 1.406429 0.56 1.19 1.9 (by norm_num) (by norm_num) (by norm_num) (by norm_num) (by norm_num)
    (by norm_num)
  have n7 := slaterR_nonneg' (z := 0.821620) (by norm_num) 2 h0
  have n8 : 1.38 * exp (-0.786473 * r) ≤ slaterR 0.786473 1 r := by
    rw [slaterR_one (by norm_num)]
    have h : 0.88 ≤ sqrt 0.786473 := le_sqrt_of_sq_le (by norm_num)
    exact mul_le_mul_of_nonneg_right (by nlinarith) (exp_pos _).le
  have e0 := exp_pos (-0.786473 * r)
  linarith

/-- Slater functions times the distance are bounded. -/
theorem slaterR_mul_le {z : ℝ} (h0 : 0 < z) (h1 : z ≤ 16) {n : ℕ} (hn : n = 1 ∨ n = 2) {r : ℝ} (hr : 0 ≤ r) :
    0 ≤ slaterR z n r * r ∧ slaterR z n r * r ≤ 10 := by
  refine ⟨mul_nonneg (slaterR_nonneg' h0.le n hr) hr, ?_⟩
  have hx : 0 ≤ z * r := by positivity
  have q := quadratic_le_exp_of_nonneg hx
  have hs : sqrt z ≤ 4 := sqrt_le_iff.mpr ⟨by norm_num, by linarith⟩
  have e0 := exp_pos (z * r)
  have e1 : exp (-z * r) * exp (z * r) = 1 := by rw [← exp_add]; simp
  rcases hn with rfl | rfl
  · rw [slaterR_one h0.le]
    have : z * r * exp (-z * r) ≤ 1 := by
      have h2 : z * r ≤ exp (z * r) := by nlinarith
      nlinarith [exp_pos (-z * r)]
    calc 2 * z * sqrt z * exp (-z * r) * r = 2 * sqrt z * (z * r * exp (-z * r)) := by ring
      _ ≤ 2 * 4 * 1 := by gcongr
      _ ≤ 10 := by norm_num
  · have h2 : (z * r) ^ 2 * exp (-z * r) ≤ 2 := by
      have h2 : (z * r) ^ 2 ≤ 2 * exp (z * r) := by nlinarith
      nlinarith [exp_pos (-z * r)]
    have h3 : sqrt (2 * z / ((Nat.factorial (2 * 2) : ℕ) : ℝ)) ≤ 1.2 := by
      refine sqrt_le_iff.mpr ⟨by norm_num, ?_⟩
      norm_num [Nat.factorial]
      linarith
    have h4 : 0 ≤ sqrt (2 * z / ((Nat.factorial (2 * 2) : ℕ) : ℝ)) := sqrt_nonneg _
    have e : slaterR z 2 r * r = 4 * sqrt (2 * z / ((Nat.factorial (2 * 2) : ℕ) : ℝ)) * ((z * r) ^ 2 * exp (-z * r)) := by
      unfold slaterR
      ring
    rw [e]
    have h5 : (0 : ℝ) ≤ (z * r) ^ 2 * exp (-z * r) := by positivity
    nlinarith

theorem bePhi_bound {r : ℝ} (hr : 0 ≤ r) : (bePhi 1 r * r) ^ 2 ≤ 900 ∧ (bePhi 2 r * r) ^ 2 ≤ 900 := by
  have b : ∀ z : ℝ, 0 < z → z ≤ 16 → ∀ n, n = 1 ∨ n = 2 → 0 ≤ slaterR z n r * r ∧ slaterR z n r * r ≤ 10 :=
    fun z h0 h1 n hn => slaterR_mul_le h0 h1 hn hr
  obtain ⟨a1, b1⟩ := b 12.683501 (by norm_num) (by norm_num) 1 (.inl rfl)
  obtain ⟨a2, b2⟩ := b 8.105927 (by norm_num) (by norm_num) 1 (.inl rfl)
  obtain ⟨a3, b3⟩ := b 5.152556 (by norm_num) (by norm_num) 1 (.inl rfl)
  obtain ⟨a4, b4⟩ := b 3.472467 (by norm_num) (by norm_num) 1 (.inl rfl)
  obtain ⟨a5, b5⟩ := b 2.349757 (by norm_num) (by norm_num) 1 (.inl rfl)
  obtain ⟨a6, b6⟩ := b 1.406429 (by norm_num) (by norm_num) 1 (.inl rfl)
  obtain ⟨a7, b7⟩ := b 0.821620 (by norm_num) (by norm_num) 2 (.inr rfl)
  obtain ⟨a8, b8⟩ := b 0.786473 (by norm_num) (by norm_num) 1 (.inl rfl)
  constructor
  · rw [bePhi_one]
    rw [show (900 : ℝ) = 30 ^ 2 by norm_num, sq_le_sq, abs_of_nonneg (by norm_num : (0 : ℝ) ≤ 30), abs_le]
    constructor <;> linarith
  · rw [bePhi_two]
    rw [show (900 : ℝ) = 30 ^ 2 by norm_num, sq_le_sq, abs_of_nonneg (by norm_num : (0 : ℝ) ≤ 30), abs_le]
    constructor <;> linarith

theorem be_orbs : beFile.toS.orbs = [⟨1, .S⟩, ⟨2, .S⟩] := by decide +kernel

theorem be_occ (k : ℕ) (hk : k = 1 ∨ k = 2) : occSpec beFile.toS.config ⟨k, .S⟩ = 2 := by
  have hc : beFile.toS.config = [.orb ⟨1, .S⟩ 2, .orb ⟨2, .S⟩ 2] := by decide +kernel
  rw [hc]
  have h : ∃ j, CfgItem.orb ⟨k, .S⟩ j ∈ [CfgItem.orb ⟨1, .S⟩ 2, .orb ⟨2, .S⟩ 2] := ⟨2, by rcases hk with rfl | rfl <;> simp⟩
  unfold occSpec
  rw [dif_pos h]
  have h1 := h.choose_spec
  generalize h.choose = j at h1
  simp only [List.mem_cons, CfgItem.orb.injEq, List.not_mem_nil, or_false] at h1
  rcases h1 with h1 | h1 <;> exact h1.2

/-- `SlaterAtoms("be")` reads the bundled file; the density is positive at every distance, and times `4 pi r**2` it is
at most 3600. -/
theorem be_density (isAlpha : Str → Bool) (low : Str → Str) (tf : Str → Py XR) (ht : ReadsDecimals tf)
    (fs : Str → Option (List Str)) (s : Str) (ha : isAlpha s = true) (hz : HasZ (low s) 4)
    (hfs : fs (Charge.path .neutral (low s)) = some Data.neutral_be.lines) :
    ∃ R, slaterInit isAlpha low tf fs (.str s) false false = some (.ok R) ∧ Stores R R.attrs ∧ ∃ t : ℝ → ℝ,
      (∀ x : List ℝ, R.attrs.atomicDensity (ND.vec (fins x)) "total" = .ok (fins (x.map t))) ∧ (∀ r, 0 ≤ t r) ∧
      ∀ r, 0 ≤ r → 0 < t r ∧ 4 * π * r ^ 2 * t r ≤ 3600 := by
  obtain ⟨R, f, hsc, hG, hg, -, hR, hi⟩ := ok_sound (d := Data.neutral_be) Data.neutral_be_ok (by simp [Data.neutral_be])
    (by simp [Data.neutral_be]) isAlpha low tf ht fs s ha hz hfs
  have hf : f = beFile := by
    have h1 : scanFile false Data.neutral_be.lines = some f := hsc
    rw [be_scan, Option.some.injEq] at h1
    exact h1.symm
  subst hf
  have hwf : ∀ b ∈ beFile.toS.blocks, b.wf := by
    intro b hb
    obtain ⟨b', hb', rfl⟩ := List.mem_map.mp hb
    exact (hg b' hb').wf
  have hfin : ∀ b ∈ beFile.toS.blocks, b.finite := by
    intro b hb
    obtain ⟨b', hb', rfl⟩ := List.mem_map.mp hb
    exact (hg b' hb').finite
  have hA := attrs_stores (stores_exists hwf hR)
  obtain ⟨ho, en, hS⟩ := loaded_isSlater hG.wf hwf hfin hR hA
  refine ⟨R, hi, hA, _, atomicDensity_total hS, fun r => densR_nonneg _ _ _ _ (by simp) r, fun r hr => ?_⟩
  have e : densR R.attrs.orbitals beFile.toS.basisOf beFile.toS.coeffOf
      (beFile.toS.orbs.map fun o => (occSpec beFile.toS.config o : ℝ)) r =
      (2 * bePhi 1 r ^ 2 + 2 * bePhi 2 r ^ 2) / (4 * π) := by
    rw [ho, be_orbs]
    simp only [densR, List.map_cons, List.map_nil, be_occ 1 (.inl rfl), be_occ 2 (.inr rfl), wsum_cons, wsum_nil_left]
    unfold bePhi
    push_cast
    ring
  rw [e]
  have hpi := pi_pos
  constructor
  · have : 0 < 2 * bePhi 1 r ^ 2 + 2 * bePhi 2 r ^ 2 := by
      rcases le_total r 1 with h1 | h1
      · have := bePhi_one_pos hr h1
        positivity
      · have := bePhi_two_pos h1
        positivity
    positivity
  · obtain ⟨b1, b2⟩ := bePhi_bound hr
    have : 4 * π * r ^ 2 * ((2 * bePhi 1 r ^ 2 + 2 * bePhi 2 r ^ 2) / (4 * π)) =
        2 * (bePhi 1 r * r) ^ 2 + 2 * (bePhi 2 r * r) ^ 2 := by
      field_simp
    rw [this]
    linarith

end
end BFit
