import Verif.Model.RoundGrid
import Verif.Lemmas.Round
import Verif.Props.RadialGrid
import Mathlib.Analysis.SpecialFunctions.Trigonometric.Bounds
import Mathlib.Analysis.Real.Pi.Bounds

/-!
C149: the points of the radial grids when every operation is rounded.
-/

namespace BFit

open Real Classical

noncomputable section

variable {u : ℝ}

theorem fl_refl' (h0 : 0 ≤ u) (x : ℝ) : Fl u x x := by
  unfold Fl
  simp only [sub_self, abs_zero]
  positivity

theorem clenshaw_three (h0 : 0 ≤ u) (hu : u ≤ 1 / 100) : 1 / (1 - u) ^ 3 - 1 ≤ 31 / 10 * u := by
  have h1 : u < 1 := by linarith
  have : 0 < (1 - u) ^ 3 := pow_pos (by linarith) 3
  rw [sub_le_iff_le_add, div_le_iff₀ this]
  have e : (31 / 10 * u + 1) * (1 - u) ^ 3 = 1 + u * (1 / 10 - 63 / 10 * u + 83 / 10 * u ^ 2 - 31 / 10 * u ^ 3) := by ring
  rw [e]
  have : 0 ≤ 1 / 10 - 63 / 10 * u + 83 / 10 * u ^ 2 - 31 / 10 * u ^ 3 := by
    have : u ^ 3 ≤ u ^ 2 := pow_le_pow_of_le_one h0 h1.le (by norm_num)
    nlinarith [sq_nonneg u]
  nlinarith

/-- The computed number `1 - cos` has a small absolute error. -/
theorem RClenshaw.near (h0 : 0 ≤ u) (hu : u ≤ 1 / 100) {n p : ℕ} {w : ℝ} (hn : 0 < n) (hp : p ≤ n)
    (h : RClenshaw u n p w) :
    |w - (1 - cos (π * p / (2 * n)))| ≤ 8 * u ∧ 0 ≤ w ∧ w ≤ 2 * (1 + u) ∧ (p = 0 → w = 0) := by
  have h1 : u < 1 := by linarith
  obtain ⟨q, a, t, c, hq, ha, ht, ⟨hc, hc1, hc0⟩, hw⟩ := h
  have hnR : (0 : ℝ) < n := by exact_mod_cast hn
  have hpn : (p : ℝ) ≤ n := by exact_mod_cast hp
  set θ := π * p / (2 * n) with hθ
  have hθ0 : 0 ≤ θ := by positivity
  have hθ1 : θ ≤ π / 2 := by
    rw [hθ, div_le_div_iff₀ (by positivity) (by norm_num)]
    nlinarith [pi_pos]
  have r1 := Rel.of_fl h0 h1 hq
  have r2 := (Rel.of_fl h0 h1 ha).trans h0 h1 (((Rel.refl h0 h1 (1 / 2 : ℝ)).mul h0 h1 r1).mul h0 h1 (Rel.refl h0 h1 (p : ℝ)))
  have r3 := (Rel.of_fl h0 h1 ht).trans h0 h1 (r2.div h0 h1 (Rel.refl h0 h1 (n : ℝ)))
  have e1 : 1 / 2 * π * p / n = θ := by rw [hθ]; field_simp
  rw [e1] at r3
  have k1 := (r3.mono h0 h1 (l := 3) (by omega)).abs_sub h0 h1
  have hg := clenshaw_three h0 hu
  have hpi := pi_lt_d2
  have k2 : |t - θ| ≤ 49 / 10 * u := by
    rw [abs_of_nonneg hθ0] at k1
    have h5 : (1 / (1 - u) ^ 3 - 1) * θ ≤ 31 / 10 * u * (3.15 / 2) :=
      mul_le_mul hg (by linarith) hθ0 (by linarith)
    linarith
  have k3 : |cos t - cos θ| ≤ 49 / 10 * u := (abs_cos_sub_cos_le t θ).trans k2
  have k4 : |c - cos t| ≤ u := by
    have h6 : |c - cos t| ≤ u * |cos t| := hc
    have := mul_le_mul_of_nonneg_left (abs_cos_le_one t) h0
    linarith
  have hw' : |w - (1 - c)| ≤ u * |1 - c| := hw
  rw [abs_le] at hc1
  rw [abs_of_nonneg (by linarith : 0 ≤ 1 - c)] at hw'
  have hw2 : u * (1 - c) ≤ u * 2 := mul_le_mul_of_nonneg_left (by linarith) h0
  have hw3 : 0 ≤ (1 - u) * (1 - c) := mul_nonneg (by linarith) (by linarith)
  rw [abs_le] at hw'
  refine ⟨?_, by nlinarith, by nlinarith, ?_⟩
  · rw [abs_le] at k2 k3 k4 ⊢
    constructor <;> linarith
  · rintro rfl
    have ht0 : t = 0 := by
      have hθz : θ = 0 := by rw [hθ]; simp
      rw [hθz] at k1
      simp only [abs_zero, mul_zero, sub_zero] at k1
      exact abs_nonpos_iff.mp k1
    have hc1 := hc0 ht0
    rw [hc1] at hw'
    simp at hw'
    linarith

/-- Neighbouring exact points. -/
theorem cos_gap {n p : ℕ} (hn : 0 < n) (hp : p + 1 ≤ n) :
    1 / (2 * (n : ℝ) ^ 2) ≤ cos (π * p / (2 * n)) - cos (π * (p + 1 : ℕ) / (2 * n)) := by
  have hnR : (0 : ℝ) < n := by exact_mod_cast hn
  have hpn : (p : ℝ) + 1 ≤ n := by exact_mod_cast hp
  rw [cos_sub_cos]
  have e1 : (π * p / (2 * n) + π * (p + 1 : ℕ) / (2 * n)) / 2 = π * (2 * p + 1) / (4 * n) := by
    push_cast; field_simp; ring
  have e2 : (π * p / (2 * n) - π * (p + 1 : ℕ) / (2 * n)) / 2 = -(π / (4 * n)) := by
    push_cast; field_simp; ring
  rw [e1, e2, sin_neg]
  have s1 : 1 / (2 * n) ≤ sin (π / (4 * n)) := by
    have := mul_le_sin (x := π / (4 * n)) (by positivity) (by
      rw [div_le_div_iff₀ (by positivity) (by norm_num)]
      nlinarith [pi_pos])
    refine le_trans (le_of_eq ?_) this
    field_simp
    norm_num
  have s2 : 1 / (2 * n) ≤ sin (π * (2 * p + 1) / (4 * n)) := by
    have := mul_le_sin (x := π * (2 * p + 1) / (4 * n)) (by positivity) (by
      rw [div_le_div_iff₀ (by positivity) (by norm_num)]
      nlinarith [pi_pos])
    refine le_trans ?_ this
    have e : 2 / π * (π * (2 * p + 1) / (4 * n)) = (2 * p + 1) / (2 * n) := by field_simp; norm_num
    rw [e]
    exact div_le_div_of_nonneg_right (by linarith [Nat.cast_nonneg (α := ℝ) p]) (by positivity)
  have hpos : (0 : ℝ) ≤ 1 / (2 * n) := by positivity
  have := mul_le_mul s2 s1 hpos (hpos.trans s2)
  calc 1 / (2 * (n : ℝ) ^ 2) = 2 * (1 / (2 * n) * (1 / (2 * n))) := by field_simp
    _ ≤ 2 * (sin (π * (2 * p + 1) / (4 * n)) * sin (π / (4 * n))) := by linarith
    _ = _ := by ring

/-- The computed points of a family, given the error of `1 - cos`. -/
theorem RClenshaw.scaled (h0 : 0 ≤ u) (hu : u ≤ 1 / 100) {n p : ℕ} {w s v : ℝ} (hn : 0 < n) (hp : p ≤ n) (hs : 0 < s)
    (h : RClenshaw u n p w) (hv : Fl u v (s * w)) :
    |v - s * (1 - cos (π * p / (2 * n)))| ≤ 11 * u * s ∧ 0 ≤ v ∧ (p = 0 → v = 0) := by
  obtain ⟨k1, k2, k3, k4⟩ := h.near h0 hu hn hp
  have hv' : |v - s * w| ≤ u * |s * w| := hv
  rw [abs_of_nonneg (by positivity : 0 ≤ s * w)] at hv'
  have e1 : |s * w - s * (1 - cos (π * p / (2 * n)))| ≤ s * (8 * u) := by
    rw [← mul_sub, abs_mul, abs_of_pos hs]
    exact mul_le_mul_of_nonneg_left k1 hs.le
  have e2 : u * (s * w) ≤ u * s * (202 / 100) := by
    have : u * s * w ≤ u * s * (202 / 100) := mul_le_mul_of_nonneg_left (by linarith) (by positivity)
    linarith
  have e3 := abs_sub_le v (s * w) (s * (1 - cos (π * p / (2 * n))))
  have hus : 0 ≤ u * s := by positivity
  refine ⟨by linarith, ?_, fun h => ?_⟩
  · rw [abs_le] at hv'
    have : 0 ≤ (1 - u) * (s * w) := mul_nonneg (by linarith) (by positivity)
    linarith
  · rw [k4 h] at hv'
    simp at hv'
    linarith

/-- Strict order of numbers near the exact points. -/
theorem clenshaw_strict {n j : ℕ} {s : ℝ} (hn : 0 < n) (hs : 0 < s) (hb : 44 * u * n ^ 2 < 1) {v : List ℝ}
    (hl : v.length + j ≤ n + 1)
    (hv : ∀ (k : ℕ) (hk : k < v.length), |v[k] - s * (1 - cos (π * (k + j : ℕ) / (2 * n)))| ≤ 11 * u * s) :
    v.Pairwise (· < ·) := by
  rw [← List.isChain_iff_pairwise, List.isChain_iff_getElem]
  intro k hk
  have a1 := hv k (by omega)
  have a2 := hv (k + 1) hk
  have a3 := cos_gap (p := k + j) hn (by omega)
  rw [show k + 1 + j = k + j + 1 by omega] at a2
  have hnR : (0 : ℝ) < (n : ℝ) ^ 2 := by positivity
  have a4 : 22 * u < 1 / (2 * (n : ℝ) ^ 2) := by
    rw [lt_div_iff₀ (by positivity)]
    linarith
  rw [abs_le] at a1 a2
  have a5 := mul_lt_mul_of_pos_left (a4.trans_le a3) hs
  nlinarith

/-- **C149** (core points).  The computed core points have an error of at most `11 u / (2 Z)`, are not negative, start with zero if
the origin is included, and are strictly ascending for up to `1 / √(44 u)` points. -/
theorem C149_core (h0 : 0 ≤ u) (hu : u ≤ 1 / 100) (z : ℤ) (hz : 0 < z) (n : ℕ) (o : Bool) (v : List ℝ) (h : RCore u z n o v) :
    ∃ pts : List ℝ, clenshawPoints z n .core o = fins pts ∧ pts.length = v.length ∧
      (∀ (k : ℕ) (h1 : k < v.length) (h2 : k < pts.length), |v[k] - pts[k]| ≤ 11 * u / (2 * z)) ∧ (∀ a ∈ v, 0 ≤ a) ∧
      (o = true → ∀ a, v[0]? = some a → a = 0) ∧ (44 * u * n ^ 2 < 1 → v.Pairwise (· < ·)) := by
  obtain ⟨hl, hv⟩ := h
  have hzR : (0 : ℝ) < 1 / (2 * z) := by have : (0 : ℝ) < z := by exact_mod_cast hz
                                         positivity
  have key : ∀ (k : ℕ) (hk : k < v.length),
      |v[k] - 1 / (2 * z) * (1 - cos (π * (k + if o then 0 else 1 : ℕ) / (2 * n)))| ≤ 11 * u * (1 / (2 * z)) ∧ 0 ≤ v[k] ∧
        (k + (if o then 0 else 1) = 0 → v[k] = 0) := by
    intro k hk
    obtain ⟨w, hw, hvw⟩ := hv k hk
    rw [div_eq_mul_one_div, mul_comm] at hvw
    exact hw.scaled h0 hu (by omega) (by cases o <;> simp <;> omega) hzR hvw
  refine ⟨coreSpec z n o, clenshaw_core z hz n o, by simp [coreSpec, hl], fun k h1 h2 => ?_, fun a ha => ?_, fun ho a ha => ?_,
    fun hb => ?_⟩
  · have := (key k h1).1
    simp only [coreSpec, List.getElem_map, List.getElem_range]
    rw [show (1 - cos (π * (k + if o then 0 else 1 : ℕ) / (2 * n))) / (2 * (z : ℝ)) =
      1 / (2 * z) * (1 - cos (π * (k + if o then 0 else 1 : ℕ) / (2 * n))) by ring]
    refine this.trans (le_of_eq (by ring))
  · obtain ⟨k, hk, rfl⟩ := List.getElem_of_mem ha
    exact (key k hk).2.1
  · subst ho
    obtain ⟨hk, rfl⟩ := List.getElem?_eq_some_iff.mp ha
    exact (key 0 hk).2.2 (by simp)
  · rcases Nat.eq_zero_or_pos n with rfl | hn
    · rw [List.length_eq_zero_iff.mp hl]; exact .nil
    · exact clenshaw_strict hn hzR hb (j := if o then 0 else 1) (by cases o <;> simp <;> omega) fun k hk => (key k hk).1

/-- **C149** (diffuse points). -/
theorem C149_diffuse (h0 : 0 ≤ u) (hu : u ≤ 1 / 100) (z : ℤ) (n : ℕ) (o : Bool) (v : List ℝ) (h : RDiffuse u n v) :
    ∃ pts : List ℝ, clenshawPoints z n .diffuse o = fins pts ∧ pts.length = v.length ∧
      (∀ (k : ℕ) (h1 : k < v.length) (h2 : k < pts.length), |v[k] - pts[k]| ≤ 275 * u) ∧ (∀ a ∈ v, 0 ≤ a) ∧
      (44 * u * n ^ 2 < 1 → v.Pairwise (· < ·)) := by
  obtain ⟨hl, hv⟩ := h
  have key : ∀ (k : ℕ) (hk : k < v.length),
      |v[k] - 25 * (1 - cos (π * (k + 1 : ℕ) / (2 * n)))| ≤ 11 * u * 25 ∧ 0 ≤ v[k] := by
    intro k hk
    obtain ⟨w, hw, hvw⟩ := hv k hk
    have := hw.scaled h0 hu (by omega) (by omega) (by norm_num : (0 : ℝ) < 25) hvw
    exact ⟨this.1, this.2.1⟩
  refine ⟨diffuseSpec n, clenshaw_diffuse z n o, by simp [diffuseSpec, hl], fun k h1 h2 => ?_, fun a ha => ?_, fun hb => ?_⟩
  · have := (key k h1).1
    simp only [diffuseSpec, List.getElem_map, List.getElem_range]
    linarith
  · obtain ⟨k, hk, rfl⟩ := List.getElem_of_mem ha
    exact (key k hk).2
  · rcases Nat.eq_zero_or_pos n with rfl | hn
    · rw [List.length_eq_zero_iff.mp hl]; exact .nil
    · exact clenshaw_strict hn (by norm_num : (0 : ℝ) < 25) hb (j := 1) (by omega) fun k hk => (key k hk).1

theorem countP_le_forall₂ {a b : List ℝ} {E : ℝ} (h : List.Forall₂ (fun x y => |x - y| ≤ E) a b) {p q : ℝ → Prop}
    (hpq : ∀ x y, |x - y| ≤ E → p y → q x) : b.countP (fun x => decide (p x)) ≤ a.countP (fun x => decide (q x)) := by
  induction h with
  | nil => simp
  | cons h _ ih =>
    rename_i x y l l' _
    rw [List.countP_cons, List.countP_cons]
    by_cases hp : p y
    · rw [if_pos (by simpa using hp), if_pos (by simpa using hpq x y h hp)]
      omega
    · rw [if_neg (by simpa using hp)]
      omega

/-- One half of: sorting lists that differ by at most `E` in every entry gives such lists. -/
theorem sorted_le {a b s t : List ℝ} {E : ℝ} (h : List.Forall₂ (fun x y => |x - y| ≤ E) a b) (hs : s.Perm a) (ht : t.Perm b)
    (hs' : s.Pairwise (· ≤ ·)) (ht' : t.Pairwise (· ≤ ·)) (k : ℕ) (h1 : k < s.length) (h2 : k < t.length) :
    s[k] ≤ t[k] + E := by
  by_contra hc
  rw [not_le] at hc
  have c1 : k + 1 ≤ t.countP (fun x => decide (x ≤ t[k])) := by
    have e : (t.take (k + 1)).countP (fun x => decide (x ≤ t[k])) = (t.take (k + 1)).length := by
      rw [List.countP_eq_length]
      intro x hx
      obtain ⟨j, hj, rfl⟩ := List.getElem_of_mem hx
      rw [List.length_take] at hj
      rw [List.getElem_take, decide_eq_true_eq]
      rcases Nat.lt_or_ge j k with hjk | hjk
      · exact List.pairwise_iff_getElem.mp ht' j k (by omega) h2 hjk
      · have : j = k := by omega
        subst this
        exact le_rfl
    have := (List.take_sublist (k + 1) t).countP_le (p := fun x => decide (x ≤ t[k]))
    rw [e, List.length_take] at this
    omega
  have c2 : s.countP (fun x => decide (x < s[k])) ≤ k := by
    have e2 : (s.drop k).countP (fun x => decide (x < s[k])) = 0 := by
      rw [List.countP_eq_zero]
      intro x hx
      obtain ⟨j, hj, rfl⟩ := List.getElem_of_mem hx
      rw [List.length_drop] at hj
      simp only [List.getElem_drop, decide_eq_true_eq, not_lt]
      rcases Nat.eq_zero_or_pos j with rfl | hj0
      · simp
      · exact List.pairwise_iff_getElem.mp hs' k (k + j) h1 (by omega) (by omega)
    generalize s[k] = y at e2
    have e3 : s.countP (fun x => decide (x < y)) =
        (s.take k).countP (fun x => decide (x < y)) + (s.drop k).countP (fun x => decide (x < y)) := by
      rw [← List.countP_append, List.take_append_drop]
    have e4 := (s.take k).countP_le_length (p := fun x => decide (x < y))
    rw [List.length_take] at e4
    omega
  have c3 := countP_le_forall₂ h (p := fun x => x ≤ t[k]) (q := fun x => x < s[k]) fun x y hxy hy => by
    rw [abs_le] at hxy
    linarith
  rw [← hs.countP_eq, ← ht.countP_eq] at c3
  omega

/-- **C149** (Clenshaw grid).  The computed grid has as many points as the exact one, in ascending order, and every point has an
error of at most `275 u`. -/
theorem C149_grid (h0 : 0 ≤ u) (hu : u ≤ 1 / 100) (z : ℤ) (hz : 0 < z) (m n : ℕ) (extra : PyObj) (l : List ℝ)
    (he : ExtraIs extra l) (o : Bool) (v : List ℝ) (h : RClenshawGrid u z m n l o v) :
    ∃ pts : List ℝ, clenshawRadialGrid (.int z) (.int m) (.int n) extra (.bool o) = .ok ⟨fins pts⟩ ∧
      pts.length = v.length ∧ v.Pairwise (· ≤ ·) ∧ ((∀ a ∈ l, 0 ≤ a) → ∀ a ∈ v, 0 ≤ a) ∧
      ∀ (k : ℕ) (h1 : k < v.length) (h2 : k < pts.length), |v[k] - pts[k]| ≤ 275 * u := by
  obtain ⟨c, d, hc, hd, hp, hs⟩ := h
  obtain ⟨pts, k1, -, k3, k4⟩ := C05_clenshaw_points z hz m n extra l he o
  obtain ⟨pc, c1, c2, c3, c4, -⟩ := C149_core h0 hu z hz m o c hc
  obtain ⟨pd, d1, d2, d3, d4, -⟩ := C149_diffuse h0 hu z n true d hd
  have := fins_injective ((clenshaw_core z hz m o).symm.trans c1)
  subst this
  have := fins_injective ((clenshaw_diffuse z n true).symm.trans d1)
  subst this
  have hzR : (1 : ℝ) ≤ z := by exact_mod_cast hz
  have hE : 11 * u / (2 * z) ≤ 275 * u := by
    rw [div_le_iff₀ (by linarith)]
    nlinarith
  have hF : List.Forall₂ (fun x y => |x - y| ≤ 275 * u) (c ++ d ++ l) (coreSpec z m o ++ diffuseSpec n ++ l) := by
    refine List.rel_append (List.rel_append ?_ ?_) ?_
    · exact List.forall₂_iff_get.mpr ⟨c2.symm, fun i h1 h2 => (c3 i h1 h2).trans hE⟩
    · exact List.forall₂_iff_get.mpr ⟨d2.symm, fun i h1 h2 => d3 i h1 h2⟩
    · exact List.forall₂_same.mpr fun x _ => by simp; positivity
  have hF' : List.Forall₂ (fun x y => |x - y| ≤ 275 * u) (coreSpec z m o ++ diffuseSpec n ++ l) (c ++ d ++ l) := by
    refine List.Forall₂.flip (hF.imp fun x y h => ?_)
    show |y - x| ≤ 275 * u
    rw [abs_sub_comm]
    exact h
  refine ⟨pts, k1, ?_, hs, fun hl a ha => ?_, fun k h1 h2 => ?_⟩
  · rw [hp.length_eq, k4.length_eq, hF.length_eq]
  · rw [hp.mem_iff, List.mem_append, List.mem_append] at ha
    rcases ha with (ha | ha) | ha
    · exact c4 a ha
    · exact d4 a ha
    · exact hl a ha
  · have t1 := sorted_le hF hp k4 hs k3 k h1 h2
    have t2 := sorted_le hF' k4 hp k3 hs k h2 h1
    rw [abs_le]
    constructor <;> linarith

/-- **C149** (uniform grid).  The computed points have an error of at most `5 u (|a| + |b|)`; the first and the last are exact; they
are strictly ascending unless the grid is finer than the rounding errors. -/
theorem C149_uniform (h0 : 0 ≤ u) (hu : u ≤ 1 / 100) (n : ℕ) (hn : 0 < n) (a b : ℝ) (hab : a < b) (v : List ℝ)
    (h : RUniform u a b n v) :
    ∃ pts : List ℝ, uniformRadialGrid (.int n) (.float (XR.fin a)) (.float (XR.fin b)) = .ok ⟨fins pts⟩ ∧
      pts.length = v.length ∧
      (∀ (k : ℕ) (h1 : k < v.length) (h2 : k < pts.length), |v[k] - pts[k]| ≤ 5 * u * (|a| + |b|)) ∧
      v[0]? = some a ∧ (2 ≤ n → v.getLast? = some b) ∧
      (10 * u * (|a| + |b|) * (n - 1) < b - a → v.Pairwise (· < ·)) := by
  have h1 : u < 1 := by linarith
  obtain ⟨hl, hv⟩ := h
  have hM : 0 ≤ |a| + |b| := by positivity
  have hda : b - a ≤ |a| + |b| := by linarith [le_abs_self b, neg_abs_le a]
  have hg : 1 / (1 - u) ^ 3 - 1 ≤ 31 / 10 * u := clenshaw_three h0 hu
  have key : ∀ (k : ℕ) (hk : k < v.length), |v[k] - (a + k * ((b - a) / ((n : ℝ) - 1)))| ≤ 5 * u * (|a| + |b|) := by
    intro k hk
    have hvk := hv k hk
    have hE : 0 ≤ 5 * u * (|a| + |b|) := by positivity
    by_cases hn1 : n = 1
    · rw [if_pos hn1] at hvk
      have : k = 0 := by omega
      subst this
      rw [hvk]
      simpa using hE
    · rw [if_neg hn1] at hvk
      have hnR : (0 : ℝ) < (n : ℝ) - 1 := by
        have : (2 : ℝ) ≤ n := by exact_mod_cast (by omega : 2 ≤ n)
        linarith
      by_cases hkl : k = n - 1
      · rw [if_pos hkl] at hvk
        rw [hvk, hkl]
        have : ((n - 1 : ℕ) : ℝ) = (n : ℝ) - 1 := by rw [Nat.cast_sub (by omega)]; simp
        rw [this, mul_div_cancel₀ _ hnR.ne']
        simpa using hE
      · rw [if_neg hkl] at hvk
        obtain ⟨δ, s, y, hδ, hs, hy, hvy⟩ := hvk
        have r1 := (Rel.of_fl h0 h1 hs).trans h0 h1 ((Rel.of_fl h0 h1 hδ).div h0 h1 (Rel.refl h0 h1 ((n : ℝ) - 1)))
        have r2 := (Rel.of_fl h0 h1 hy).trans h0 h1 ((Rel.refl h0 h1 (k : ℝ)).mul h0 h1 r1)
        have r3 := (r2.mono h0 h1 (l := 3) (by omega)).abs_sub h0 h1
        set Y := k * ((b - a) / ((n : ℝ) - 1)) with hY
        have hkn : (k : ℝ) ≤ (n : ℝ) - 1 := by
          have : (k : ℝ) + 1 ≤ n := by exact_mod_cast (by omega : k + 1 ≤ n)
          linarith
        have hY0 : 0 ≤ Y := by
          have : 0 ≤ (b - a) / ((n : ℝ) - 1) := div_nonneg (by linarith) hnR.le
          positivity
        have hY1 : Y ≤ b - a := by
          rw [hY, ← mul_div_assoc, div_le_iff₀ hnR, mul_comm]
          exact mul_le_mul_of_nonneg_left hkn (by linarith)
        have r4 : |y - Y| ≤ 31 / 10 * u * (|a| + |b|) := by
          rw [abs_of_nonneg hY0] at r3
          exact r3.trans (mul_le_mul hg (by linarith) hY0 (by positivity))
        have r5 : |Y + a| ≤ |a| + |b| := by
          rw [abs_le]
          constructor
          · linarith [neg_abs_le a, abs_nonneg b]
          · linarith [le_abs_self b, abs_nonneg a]
        have r6 : |v[k] - (y + a)| ≤ u * |y + a| := by
          by_cases hy0 : y = 0
          · rw [if_pos hy0] at hvy
            rw [hvy, hy0]
            simp
            positivity
          · rw [if_neg hy0] at hvy
            exact hvy
        have r7 : |y + a| ≤ 104 / 100 * (|a| + |b|) := by
          have e1 := abs_add_le (y - Y) (Y + a)
          rw [show y - Y + (Y + a) = y + a by ring] at e1
          have e2 : 31 / 10 * u * (|a| + |b|) ≤ 4 / 100 * (|a| + |b|) := mul_le_mul_of_nonneg_right (by linarith) hM
          linarith
        have r8 := mul_le_mul_of_nonneg_left r7 h0
        have e3 : v[k] - (a + Y) = (v[k] - (y + a)) + (y - Y) := by ring
        rw [e3]
        refine (abs_add_le _ _).trans ?_
        have : 0 ≤ u * (|a| + |b|) := by positivity
        linarith
  have hgrid : uniformRadialGrid (.int n) (.float (XR.fin a)) (.float (XR.fin b)) = .ok ⟨fins (linspaceR a b n)⟩ := by
    unfold uniformRadialGrid
    simp only [PyObj.asInt?, PyObj.asReal?]
    rw [if_neg (by omega)]
    simp only [XR.le_fin]
    rw [if_neg (by linarith), Int.toNat_natCast, npLinspace_fins a b n hn]
  refine ⟨linspaceR a b n, hgrid, by simp [linspaceR, hl], fun k h1 h2 => ?_, ?_, fun h2 => ?_, fun hb => ?_⟩
  · simp only [linspaceR, List.getElem_map, List.getElem_range]
    exact key k h1
  · have hk : 0 < v.length := by omega
    rw [List.getElem?_eq_getElem hk]
    have := hv 0 hk
    by_cases hn1 : n = 1
    · rw [if_pos hn1] at this
      rw [this]
    · rw [if_neg hn1, if_neg (by omega)] at this
      obtain ⟨δ, s, y, -, -, hy, hvy⟩ := this
      have hy0 : y = 0 := by
        have hy' : |y - ((0 : ℕ) : ℝ) * s| ≤ u * |((0 : ℕ) : ℝ) * s| := hy
        simpa using hy'
      rw [if_pos hy0] at hvy
      rw [hvy]
  · rw [List.getLast?_eq_getElem?]
    have hk : v.length - 1 < v.length := by omega
    rw [List.getElem?_eq_getElem hk]
    have := hv _ hk
    rw [if_neg (by omega), if_pos (by omega)] at this
    rw [this]
  · rw [← List.isChain_iff_pairwise, List.isChain_iff_getElem]
    intro k hk
    have a1 := key k (by omega)
    have a2 := key (k + 1) hk
    have hnR : (0 : ℝ) < (n : ℝ) - 1 := by
      have : (2 : ℝ) ≤ n := by exact_mod_cast (by omega : 2 ≤ n)
      linarith
    have a3 : 10 * u * (|a| + |b|) < (b - a) / ((n : ℝ) - 1) := by rwa [lt_div_iff₀ hnR]
    push_cast at a2
    rw [abs_le] at a1 a2
    linarith

/-- **C149** (exact arithmetic).  The points of the exact model are admissible for every accuracy. -/
theorem C149_exact (h0 : 0 ≤ u) (z : ℤ) (hz : 0 < z) (m n : ℕ) (extra : PyObj) (l : List ℝ) (he : ExtraIs extra l) (o : Bool) :
    ∃ pts : List ℝ, clenshawRadialGrid (.int z) (.int m) (.int n) extra (.bool o) = .ok ⟨fins pts⟩ ∧
      RClenshawGrid u z m n l o pts := by
  have F := fl_refl' h0
  have C : ∀ n p : ℕ, RClenshaw u n p (1 - cos (π * p / (2 * n))) := fun n p =>
    ⟨π, 1 / 2 * π * p, 1 / 2 * π * p / n, cos (1 / 2 * π * p / n), F _, F _, F _,
      ⟨F _, abs_cos_le_one _, fun h => by rw [h, cos_zero]⟩, by
        rw [show π * p / (2 * n) = 1 / 2 * π * p / n by rw [← div_div]; ring]
        exact F _⟩
  obtain ⟨pts, k1, -, k3, k4⟩ := C05_clenshaw_points z hz m n extra l he o
  refine ⟨pts, k1, _, _, ⟨by simp [coreSpec], fun k hk => ⟨_, C m _, ?_⟩⟩, ⟨by simp [diffuseSpec], fun k hk => ⟨_, C n _, ?_⟩⟩, k4, k3⟩
  · simp only [coreSpec, List.getElem_map, List.getElem_range]
    exact F _
  · simp only [diffuseSpec, List.getElem_map, List.getElem_range]
    exact F _

/-- **C149** (limit).  The number of points matters: for more than `√(2 / u)` core points the second may be computed as zero as well,
so that the grid has the origin twice. -/
theorem C149_collapse (h0 : 0 ≤ u) (z : ℤ) (n : ℕ) (hn : 2 ≤ n) (hu : 2 ≤ u * n ^ 2) :
    ∃ v, RCore u z n true v ∧ v[0]? = some 0 ∧ v[1]? = some 0 := by
  have F := fl_refl' h0
  have hnR : (2 : ℝ) ≤ n := by exact_mod_cast hn
  have ht : 1 / 2 * π * (1 : ℕ) / n ≤ π / 4 := by
    rw [div_le_div_iff₀ (by linarith) (by norm_num)]
    push_cast
    nlinarith [pi_pos]
  set t := 1 / 2 * π * (1 : ℕ) / n with ht'
  have ht0 : 0 < t := by rw [ht']; push_cast; positivity
  have hc : Fl u 1 (cos t) := by
    have a1 := one_sub_sq_div_two_le_cos (x := t)
    have hpi := pi_lt_d2
    have a2 : t ≤ 3.15 / 4 := by linarith
    have a3 : 68 / 100 ≤ cos t := by
      have := mul_le_mul a2 a2 ht0.le (by norm_num)
      norm_num at this
      nlinarith
    have a4 : t ^ 2 / 2 ≤ u * (1 / 2) * (3.15 ^ 2 / 8) := by
      have e : t ^ 2 = π ^ 2 / 4 / n ^ 2 := by rw [ht']; push_cast; field_simp; norm_num
      rw [e, div_div, div_le_iff₀ (by positivity)]
      nlinarith [pi_pos]
    unfold Fl
    rw [abs_of_nonneg (by linarith [cos_le_one t]), abs_of_nonneg (by linarith)]
    have a5 := mul_le_mul_of_nonneg_left a3 h0
    norm_num at a4
    linarith
  refine ⟨(List.range n).map fun (k : ℕ) => if k = 1 then (0 : ℝ) else (1 - cos (π * k / (2 * n))) / (2 * z), ⟨by simp, fun k hk => ?_⟩,
    ?_, ?_⟩
  · simp only [List.getElem_map, List.getElem_range, if_true, add_zero]
    by_cases hk1 : k = 1
    · subst hk1
      refine ⟨0, ⟨π, 1 / 2 * π * (1 : ℕ), t, 1, F _, F _, F _, ⟨hc, by simp, fun _ => rfl⟩, ?_⟩, ?_⟩
      · rw [sub_self]; exact F 0
      · rw [if_pos rfl, zero_div]; exact F 0
    · rw [if_neg hk1]
      refine ⟨_, ⟨π, 1 / 2 * π * k, 1 / 2 * π * k / n, cos (1 / 2 * π * k / n), F _, F _, F _,
        ⟨F _, abs_cos_le_one _, fun h => by rw [h, cos_zero]⟩, F _⟩, ?_⟩
      rw [show π * k / (2 * n) = 1 / 2 * π * k / n by rw [← div_div]; ring]
      exact F _
  · rw [List.getElem?_map, List.getElem?_range (by omega)]
    simp
  · rw [List.getElem?_map, List.getElem?_range (by omega)]
    simp

/-- The grid of the README of BFit (`ClenshawRadialGrid(4, 10000, 899, [50, 75, 100])`) in double precision: every computed point has
an error of at most `4e-14`. -/
example : ∃ pts v : List ℝ, clenshawRadialGrid (.int 4) (.int 10000) (.int 899) (.seq [XR.fin 50, XR.fin 75, XR.fin 100])
      (.bool true) = .ok ⟨fins pts⟩ ∧ RClenshawGrid (1 / 2 ^ 53) 4 10000 899 [50, 75, 100] true v ∧
    ∀ (k : ℕ) (h1 : k < v.length) (h2 : k < pts.length), |v[k] - pts[k]| ≤ 4 / 10 ^ 14 := by
  have he : ExtraIs (.seq [XR.fin 50, XR.fin 75, XR.fin 100]) [50, 75, 100] := .inr rfl
  obtain ⟨v, -, hv⟩ := C149_exact (u := 1 / 2 ^ 53) (by positivity) 4 (by norm_num) 10000 899 _ _ he true
  obtain ⟨pts, k1, -, -, -, k2⟩ := C149_grid (u := 1 / 2 ^ 53) (by positivity) (by norm_num) 4 (by norm_num) 10000 899 _ _ he true v hv
  exact ⟨pts, v, k1, hv, fun k h1 h2 => (k2 k h1 h2).trans (by norm_num)⟩

/-- In double precision core points are strictly ascending for up to ten million points. -/
example (z : ℤ) (hz : 0 < z) (v : List ℝ) (h : RCore (1 / 2 ^ 53) z (10 ^ 7) true v) : v.Pairwise (· < ·) := by
  obtain ⟨_, -, -, -, -, -, k⟩ := C149_core (by positivity) (by norm_num) z hz _ _ v h
  exact k (by norm_num)

end
end BFit
