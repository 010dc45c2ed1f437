import Verif.Lemmas.FitsPeak
import Verif.Props.Npz
import Verif.Props.RoundGauss

/-! # C146: the bundled results of fits, evaluated in double precision -/

namespace BFit

open Real Classical Finset

noncomputable section

theorem rpow_three_half {x : ℝ} (hx : 0 < x) : x ^ (3 / 2 : ℝ) = x * √x := by
  rw [show (3 / 2 : ℝ) = 1 + 1 / 2 by norm_num, rpow_add hx, rpow_one, ← sqrt_eq_rpow]

theorem pi_three_half : 11 / 2 ≤ π ^ (3 / 2 : ℝ) := by
  rw [rpow_three_half pi_pos]
  have h1 := pi_gt_d2
  have h2 : 1.77 ≤ √π := le_sqrt_of_sq_le (by norm_num at h1 ⊢; linarith)
  have := mul_le_mul h1.le h2 (by norm_num) pi_pos.le
  norm_num at this ⊢
  linarith

/-- The peak of a normalised function. -/
theorem gaussPeak_eq (isS : Bool) {e : ℝ} (he : 0 < e) :
    gaussPeak isS true e = (if isS then 1 else 2 / 3) * e ^ (3 / 2 : ℝ) / π ^ (3 / 2 : ℝ) := by
  unfold gaussPeak gaussFactor
  have hπ : π ^ (3 / 2 : ℝ) ≠ 0 := (rpow_pos_of_pos pi_pos _).ne'
  cases isS with
  | true =>
    simp only [if_true, mul_one, one_mul]
    exact div_rpow he.le pi_pos.le _
  | false =>
    simp only [Bool.false_eq_true, if_false, if_true]
    have : e ^ (5 / 2 : ℝ) = e ^ (3 / 2 : ℝ) * e := by
      rw [show (5 / 2 : ℝ) = 3 / 2 + 1 by norm_num, rpow_add he, rpow_one]
    rw [this]
    field_simp

theorem sqrt_le_mean {e t : ℝ} (he : 0 ≤ e) (ht : 0 < t) : √e ≤ (e / t + t) / 2 := by
  have h := sq_sqrt he
  have : (e / t + t) / 2 - √e = (√e - t) ^ 2 / (2 * t) := by
    field_simp
    nlinarith
  have h2 : 0 ≤ (√e - t) ^ 2 / (2 * t) := by positivity
  linarith

/-- What the integers of the check bound. -/
theorem peakTerm_sound (isS : Bool) (p a : ℕ × ℕ) :
    (if isS then 1 else 2 / 3) * (pv p * (pv a * √(pv a))) ≤ (peakTerm isS p a : ℝ) / 10 ^ 6 := by
  unfold peakTerm
  set j : ℕ := Nat.sub (Nat.div (Nat.log2 (Nat.div (Nat.mul a.1 (Nat.pow 10 20)) (Nat.pow 10 a.2))) 2) 13
  have hp0 : 0 ≤ pv p := by unfold pv; positivity
  have ha0 : 0 ≤ pv a := by unfold pv; positivity
  have h1 := sqrt_le_mean ha0 (t := 2 ^ j / 2 ^ 20) (by positivity)
  have h2 := mul_le_mul_of_nonneg_left h1 (mul_nonneg hp0 ha0)
  have hdv : ∀ x y : ℕ, Nat.div x y = x / y := fun _ _ => rfl
  simp only [Nat.mul_eq, Nat.add_eq, Nat.pow_eq, hdv]
  set num : ℕ := p.1 * a.1 * (a.1 * 2 ^ 40 + 10 ^ a.2 * 2 ^ (2 * j)) with hnum
  set den : ℕ := 10 ^ p.2 * 10 ^ (2 * a.2) * 2 ^ (21 + j) with hden
  have hd : 0 < den := by rw [hden]; positivity
  have key : pv p * pv a * ((pv a / (2 ^ j / 2 ^ 20) + 2 ^ j / 2 ^ 20) / 2) = (num : ℝ) / den := by
    rw [hnum, hden]
    unfold pv
    push_cast
    rw [pow_mul' (10 : ℝ) 2 a.2, pow_mul' (2 : ℝ) 2 j, pow_add (2 : ℝ) 21 j]
    field_simp
    ring
  rw [key] at h2
  have flo : ∀ q : ℕ, ((num * q : ℕ) : ℝ) / ((den * 3 : ℕ) : ℝ) ≤ ((num * q / (den * 3) + 1 : ℕ) : ℝ) := by
    intro q
    have h := (Nat.lt_div_mul_add (a := num * q) (b := den * 3) (by positivity)).le
    rw [div_le_iff₀ (by exact_mod_cast (by positivity : 0 < den * 3))]
    exact_mod_cast (by linarith : num * q ≤ (num * q / (den * 3) + 1) * (den * 3))
  have hdr : (0 : ℝ) < den := by exact_mod_cast hd
  have h3 : pv p * (pv a * √(pv a)) ≤ (num : ℝ) / den := by rw [← mul_assoc]; exact h2
  rw [le_div_iff₀ (by positivity)]
  cases isS with
  | true =>
    simp only [if_true, one_mul]
    refine le_trans ?_ (flo 3000000)
    push_cast
    rw [show (num : ℝ) * 3000000 / (den * 3) = num / den * 10 ^ 6 by field_simp; norm_num; ring]
    exact mul_le_mul_of_nonneg_right h3 (by positivity)
  | false =>
    simp only [Bool.false_eq_true, if_false]
    refine le_trans ?_ (flo 2000000)
    push_cast
    rw [show (num : ℝ) * 2000000 / (den * 3) = 2 / 3 * (num / den) * 10 ^ 6 by field_simp; norm_num; ring]
    exact mul_le_mul_of_nonneg_right (mul_le_mul_of_nonneg_left h3 (by norm_num)) (by positivity)

theorem Close.le {x y : ℝ} (h : Close x y) : x ≤ 1001 / 1000 * y := by
  obtain ⟨h1, h2, h3⟩ := h
  have := (abs_le.mp h3).2
  have : x / 2 ^ 53 ≤ x / 10000 := div_le_div_of_nonneg_left h1.le (by norm_num) (by norm_num)
  linarith

theorem Close.ge {x y : ℝ} (h : Close x y) : 999 / 1000 * y ≤ x := by
  obtain ⟨h1, h2, h3⟩ := h
  have := (abs_le.mp h3).1
  have : x / 2 ^ 53 ≤ x / 10000 := div_le_div_of_nonneg_left h1.le (by norm_num) (by norm_num)
  linarith

/-- The same for the doubles closest to the decimals. -/
theorem peakTerm_close (isS : Bool) {p a : ℕ × ℕ} {c e : ℝ} (hc : Close c (pv p)) (he : Close e (pv a)) :
    |c| * gaussPeak isS true e ≤ (peakTerm isS p a : ℝ) / 10 ^ 6 / 5 := by
  have h := peakTerm_sound isS p a
  have hc1 := hc.le
  have he1 := he.le
  obtain ⟨c0, p0, -⟩ := hc
  obtain ⟨e0, a0, -⟩ := he
  have hπ := pi_three_half
  have hs : √e ≤ 1001 / 1000 * √(pv a) := by
    rw [show (1001 / 1000 : ℝ) * √(pv a) = √((1001 / 1000) ^ 2 * pv a) by
      rw [sqrt_mul (by norm_num), sqrt_sq (by norm_num)]]
    exact sqrt_le_sqrt (by nlinarith)
  have h1 : e * √e ≤ 1001 / 1000 * pv a * (1001 / 1000 * √(pv a)) :=
    mul_le_mul he1 hs (sqrt_nonneg _) (by positivity)
  have h2 : c * (e * √e) ≤ 1001 / 1000 * pv p * (1001 / 1000 * pv a * (1001 / 1000 * √(pv a))) :=
    mul_le_mul hc1 h1 (by positivity) (by positivity)
  have hw : (0 : ℝ) ≤ if isS then 1 else 2 / 3 := by split_ifs <;> norm_num
  rw [abs_of_pos c0, gaussPeak_eq isS e0, rpow_three_half e0]
  have hN : 0 ≤ (peakTerm isS p a : ℝ) / 10 ^ 6 := by positivity
  generalize (peakTerm isS p a : ℝ) / 10 ^ 6 = N at *
  generalize (if isS then (1 : ℝ) else 2 / 3) = w at *
  have h3 := mul_le_mul_of_nonneg_left h2 hw
  rw [show c * (w * (e * √e) / π ^ (3 / 2 : ℝ)) = w * (c * (e * √e)) / π ^ (3 / 2 : ℝ) by ring,
    div_le_iff₀ (by linarith)]
  have h4 : N / 5 * (11 / 2) ≤ N / 5 * π ^ (3 / 2 : ℝ) := mul_le_mul_of_nonneg_left hπ (by positivity)
  nlinarith

theorem peakSum_close {cs es : List (ℕ × ℕ)} {c e : List ℝ} (hc : List.Forall₂ Close c (cs.map pv))
    (he : List.Forall₂ Close e (es.map pv)) (hl : cs.length = es.length) (ns : ℕ) :
    ∑ k ∈ range c.length, |c.getD k 0| * gaussPeak (decide (k < ns)) true (e.getD k 0) ≤
      (peakSum ns cs es : ℝ) / 10 ^ 6 / 5 := by
  induction cs generalizing es c e ns with
  | nil =>
    rw [List.map_nil, List.forall₂_nil_right_iff] at hc
    subst hc
    simp
    positivity
  | cons p cs ih =>
    cases es with
    | nil => simp at hl
    | cons a es =>
      rw [List.map_cons, List.forall₂_cons_right_iff] at hc he
      obtain ⟨x, c', hx, hc', rfl⟩ := hc
      obtain ⟨y, e', hy, he', rfl⟩ := he
      have hl' : cs.length = es.length := by simpa using hl
      rw [List.length_cons, sum_range_succ']
      simp only [List.getD_cons_succ, List.getD_cons_zero]
      cases ns with
      | zero =>
        have h1 := ih hc' he' hl' 0
        have h2 := peakTerm_close false hx hy
        simp only [Nat.not_lt_zero, decide_false] at h1 ⊢
        unfold peakSum
        rw [Nat.add_eq]
        push_cast
        linarith
      | succ ns =>
        have h1 := ih hc' he' hl' ns
        have h2 := peakTerm_close true hx hy
        simp only [Nat.succ_pos, decide_true, Nat.succ_lt_succ_iff] at h1 ⊢
        unfold peakSum
        rw [Nat.add_eq]
        push_cast
        linarith

theorem basisFn_bf (ns : ℕ) (norm : Bool) (k : ℕ) (e r : ℝ) : basisFn ns norm k e r = bf (decide (k < ns)) norm e r := by
  unfold basisFn bf
  simp

/-- Evaluation of a bundled result in double precision: the exact density `F`, and the error of the computed one at
all distances up to `10⁶`. -/
def DoubleFit (v : FitEntry) (c e : List ℝ) (F : ℝ → ℝ) (ε : ℝ) : Prop :=
  (∀ rs : List ℝ, fitModel (fins rs) v = .ok (fins (rs.map F))) ∧ ∀ r : ℝ, |r| ≤ 10 ^ 6 → ∀ (φ : ℕ → XR) (m : XR),
    (∀ k < v.numS + v.numP, XBasis (1 / 2 ^ 53) (1 / 2 ^ 1022) (2 ^ 1023) (decide (k < v.numS)) true
      (.fin (e.getD k 0)) (.fin r) (φ k)) →
    XDens (1 / 2 ^ 53) (1 / 2 ^ 1022) (2 ^ 1023) (v.numS + v.numP) φ (fun k => .fin (c.getD k 0)) m →
    ∃ y, m = .fin y ∧ |y - F r| ≤ ε

theorem usable_model {v : FitEntry} {c e : List ℝ} (hu : Usable v c e) (hns : v.numS ≠ 0) (rs : List ℝ) :
    fitModel (fins rs) v = .ok (fins (rs.map (atomDensity v.numS v.numP true c e))) := by
  obtain ⟨ns, np, cs, es⟩ := v
  obtain ⟨k1, k2, hc, he, hc0, he0⟩ := hu
  simp only at k1 k2 hc he hns ⊢
  subst k1 k2
  obtain ⟨-, m, h1, h2, h3⟩ := C18_radii_1d rs 0 ns np (by omega) true
  have := evaluate_fins h2 _ _ hc he (fun _ a ha => (he0 a ha).le) false
  unfold fitModel
  simp only
  rw [h1]
  simp only
  rw [this, h3]
  simp only [List.map_map, Function.comp_def, atomDensity_abs]

theorem double_fit {z : ℕ} (hz : 1 ≤ z) {en : JEntry} {f : DFit} (hf : en.scan = some f) (hg : f.Good)
    (hr : rangeOk z en = true) {v : FitEntry} {c e : List ℝ} (hu : Usable v c e) (hS : v.numS = f.ns)
    (hP : v.numP = f.np) (hc : List.Forall₂ Close c (f.cs.map pv)) (he : List.Forall₂ Close e (f.es.map pv)) :
    DoubleFit v c e (atomDensity v.numS v.numP true c e) (1 / 2 ^ 44 * z ^ 3) := by
  have hns : v.numS ≠ 0 := by rw [hS]; exact hg.some
  refine ⟨usable_model hu hns, fun r hr6 φ m hφ hm => ?_⟩
  unfold rangeOk at hr
  rw [hf] at hr
  simp only [Bool.and_eq_true, Nat.ble_eq, List.all_eq_true, Nat.add_eq, Nat.mul_eq, Nat.pow_eq] at hr
  obtain ⟨⟨⟨r1, r2⟩, r3⟩, r4⟩ := hr
  have hn : v.numS + v.numP ≤ 100 := by rw [hS, hP]; exact r1
  have lc := hu.lenC
  have le := hu.lenE
  have hE : ∀ k < v.numS + v.numP, 1 / 10 ^ 13 ≤ e.getD k 0 ∧ e.getD k 0 ≤ 10 ^ 10 := by
    intro k hk
    have h1 : k < e.length := by omega
    have h2 : k < (f.es.map pv).length := by rw [← he.length_eq]; exact h1
    have h3 := he.get h1 h2
    simp only [List.get_eq_getElem, List.getElem_map] at h3
    rw [List.getD_eq_getElem _ _ h1]
    have h4 := r2 (f.es[k]'(by simpa using h2)) (List.getElem_mem _)
    generalize f.es[k]'(by simpa using h2) = a at h3 h4
    have h5 : (10 : ℝ) ^ a.2 ≤ a.1 * 1000000000000 := by exact_mod_cast h4.1
    have h6 : (a.1 : ℝ) ≤ 1000000000 * 10 ^ a.2 := by exact_mod_cast h4.2
    have ht : (0 : ℝ) < 10 ^ a.2 := by positivity
    have h7 : 1 / 10 ^ 12 ≤ pv a := by
      unfold pv
      rw [div_le_div_iff₀ (by norm_num) ht]
      norm_num at h5 ⊢
      linarith
    have h8 : pv a ≤ 10 ^ 9 := by
      unfold pv
      rw [div_le_iff₀ ht]
      norm_num at h6 ⊢
      linarith
    have h9 := h3.le
    have h10 := h3.ge
    norm_num at h7 h8 h9 h10 ⊢
    constructor <;> linarith
  have hC : ∀ k < v.numS + v.numP, |c.getD k 0| ≤ 101 := by
    intro k hk
    have h1 : k < c.length := by omega
    have h2 : k < (f.cs.map pv).length := by rw [← hc.length_eq]; exact h1
    have h3 := hc.get h1 h2
    simp only [List.get_eq_getElem, List.getElem_map] at h3
    rw [List.getD_eq_getElem _ _ h1]
    have h4 := r3 (f.cs[k]'(by simpa using h2)) (List.getElem_mem _)
    generalize f.cs[k]'(by simpa using h2) = a at h3 h4
    have h6 : (a.1 : ℝ) ≤ 100 * 10 ^ a.2 := by exact_mod_cast h4
    have ht : (0 : ℝ) < 10 ^ a.2 := by positivity
    have h8 : pv a ≤ 100 := by
      unfold pv
      rw [div_le_iff₀ ht]
      exact h6
    have h9 := h3.le
    rw [abs_of_pos h3.1]
    linarith
  obtain ⟨y, rfl, hy⟩ := C145_double (v.numS + v.numP) hn (fun k => decide (k < v.numS)) true (fun k => c.getD k 0)
    (fun k => e.getD k 0) (fun _ => r) φ m hE (fun _ _ => hr6) (fun k hk => (hC k hk).trans (by norm_num)) hφ hm
  refine ⟨y, rfl, ?_⟩
  have hF : atomDensity v.numS v.numP true c e r = ∑ k ∈ range (v.numS + v.numP),
      c.getD k 0 * bf (decide (k < v.numS)) true (e.getD k 0) r := by
    unfold atomDensity
    exact sum_congr rfl fun k _ => by rw [basisFn_bf]
  rw [hF]
  refine hy.trans ?_
  have hS1 := peakSum_close hc he (by rw [hg.lenC, hg.lenE]) f.ns
  rw [lc, ← hS] at hS1
  have hS2 : ∑ k ∈ range (v.numS + v.numP), (|c.getD k 0| + 1) ≤ 10200 := by
    calc ∑ k ∈ range (v.numS + v.numP), (|c.getD k 0| + 1) ≤ ∑ k ∈ range (v.numS + v.numP), (102 : ℝ) :=
          sum_le_sum fun k hk => by linarith [hC k (mem_range.mp hk)]
      _ = ((v.numS + v.numP : ℕ) : ℝ) * 102 := by rw [sum_const, card_range, nsmul_eq_mul]
      _ ≤ 100 * 102 := mul_le_mul_of_nonneg_right (by exact_mod_cast hn) (by norm_num)
      _ = 10200 := by norm_num
  have hS3 : (0 : ℝ) ≤ ∑ k ∈ range (v.numS + v.numP), (|c.getD k 0| + 1) := sum_nonneg fun k _ => by positivity
  have h900 : (1 : ℝ) / 2 ^ 900 ≤ 1 / 2 ^ 100 :=
    one_div_le_one_div_of_le (by positivity) (pow_le_pow_right₀ (by norm_num) (by norm_num))
  have h4 := mul_le_mul h900 hS2 hS3 (by positivity)
  rw [← hS] at r4
  have r5 : (peakSum v.numS f.cs f.es : ℝ) ≤ 19000000 * (z : ℝ) ^ 3 := by exact_mod_cast r4
  have hz3 : (1 : ℝ) ≤ (z : ℝ) ^ 3 := one_le_pow₀ (by exact_mod_cast hz)
  generalize (peakSum v.numS f.cs f.es : ℝ) = N at *
  generalize (z : ℝ) ^ 3 = Z at *
  have h5 : (1 : ℝ) / 2 ^ 46 * ∑ k ∈ range (v.numS + v.numP), |c.getD k 0| *
      gaussPeak (decide (k < v.numS)) true (e.getD k 0) ≤ 1 / 2 ^ 46 * (19 / 5 * Z) := by
    refine mul_le_mul_of_nonneg_left (hS1.trans ?_) (by positivity)
    norm_num
    linarith
  refine (add_le_add h5 h4).trans ?_
  norm_num
  linarith

/-- **C146.**  The parameters in `kl_fpi_results.npz`, read and evaluated as in README.md in double precision at any
distance up to `10⁶` bohr from the nucleus, with any rounding and order of summation, give a finite number, and the
error is at most `2⁻⁴⁴ z³`. -/
theorem C146_fpi (sym : Str) (z : ℕ) (hz : HasZ sym z) (h54 : z ≤ 54) :
    ∃ v s p c e F, readmeNpz Data.fpiNpz sym = .ok (v, s, p) ∧ Usable v c e ∧
      DoubleFit v c e F (1 / 2 ^ 44 * z ^ 3) := by
  obtain ⟨p, hp, hpz⟩ := fits_mem hz.1 h54
  obtain ⟨s1, -, s, u, f, g, -, -, h3, -, h5, -⟩ := fits_sound hp
  have hsym : p.2.1.sym = sym := hasZ_sym s1 (hpz ▸ hz)
  have hm : p.2.1 ∈ (Data.npz.map fun p => (p.1.1, p.2.1)).map Prod.fst := by
    rw [fpi_fst]
    exact List.mem_map.mpr ⟨p, hp, rfl⟩
  obtain ⟨q, hq, hqe⟩ := List.mem_map.mp hm
  obtain ⟨v', s, t, c', e', k1, k2, k3, k4⟩ := archive_same fpi_ok (by rw [fpi_fst]; exact fits_fpi_sym) hq
    (hqe ▸ h3) h5
  rw [hqe, hsym, ← fpiNpz_eq] at k1
  exact ⟨v', s, t, c', e', _, k1.read, k2,
    double_fit hz.1 h3 h5 (hpz ▸ (fits_range p hp).1) k2 k1.numS k1.numP k3 k4⟩

/-- **C146** (second archive).  The same for `kl_slsqp_results.npz`. -/
theorem C146_slsqp (sym : Str) (z : ℕ) (hz : HasZ sym z) (h54 : z ≤ 54) :
    ∃ v s p c e F, readmeNpz Data.slsqpNpz sym = .ok (v, s, p) ∧ Usable v c e ∧
      DoubleFit v c e F (1 / 2 ^ 44 * z ^ 3) := by
  obtain ⟨p, hp, hpz⟩ := fits_mem hz.1 h54
  obtain ⟨-, s2, s, u, f, g, -, -, -, h4, -, h6, -⟩ := fits_sound hp
  have hsym : p.2.2.sym = sym := hasZ_sym s2 (hpz ▸ hz)
  have hm : p.2.2 ∈ (Data.npz.map fun p => (p.1.2, p.2.2)).map Prod.fst := by
    rw [slsqp_fst]
    exact List.mem_map.mpr ⟨p, hp, rfl⟩
  obtain ⟨q, hq, hqe⟩ := List.mem_map.mp hm
  obtain ⟨v', s, t, c', e', k1, k2, k3, k4⟩ := archive_same slsqp_ok (by rw [slsqp_fst]; exact fits_slsqp_sym) hq
    (hqe ▸ h4) h6
  rw [hqe, hsym, ← slsqpNpz_eq] at k1
  exact ⟨v', s, t, c', e', _, k1.read, k2,
    double_fit hz.1 h4 h6 (hpz ▸ (fits_range p hp).2) k2 k1.numS k1.numP k3 k4⟩

/-- Neon: at distance 3 there is an execution, and its result is right up to `6e-11`. -/
example : ∃ (v : FitEntry) (s p : List XR) (c e : List ℝ) (F : ℝ → ℝ) (φ : ℕ → XR) (y : ℝ), readmeNpz Data.fpiNpz (chars! "ne") = .ok (v, s, p) ∧
    XDens (1 / 2 ^ 53) (1 / 2 ^ 1022) (2 ^ 1023) (v.numS + v.numP) φ (fun k => .fin (c.getD k 0)) (.fin y) ∧
    Usable v c e ∧ |y - F 3| ≤ 6e-11 ∧ fitModel (fins [3]) v = .ok (fins [F 3]) := by
  obtain ⟨v, s, p, c, e, F, h1, h2, h3, h4⟩ := C146_fpi (chars! "ne") 10 ⟨by norm_num, by decide +kernel⟩ (by norm_num)
  obtain ⟨φ, m, h5, h6⟩ := C145_total (τ := 1 / 2 ^ 1022) (Ω := 2 ^ 1023) (by positivity : (0 : ℝ) ≤ 1 / 2 ^ 53)
    (v.numS + v.numP) (fun k => decide (k < v.numS)) true (fun k => .fin (c.getD k 0)) (fun k => .fin (e.getD k 0))
    (fun _ => .fin 3)
  obtain ⟨y, rfl, hy⟩ := h4 3 (by norm_num) φ m h5 h6
  exact ⟨v, s, p, c, e, F, φ, y, h1, h6, h2, hy.trans (by norm_num), h3 [3]⟩

end
end BFit
