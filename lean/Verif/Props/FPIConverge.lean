import Verif.Props.FPIHistory
import Mathlib.Analysis.Complex.ExponentialBounds
import Mathlib.Analysis.Real.Pi.Bounds

/-!
Convergence of `KLDivergenceFPI.run`: the divergence is bounded below, so a positive threshold on its
change is reached after a number of updates that can be computed beforehand.
-/

namespace BFit

open Real Classical Finset

noncomputable section

/-! ### bounds of the basis functions -/

theorem rpow_le_exp {x p : ℝ} (hx : 0 < x) (hp : 0 ≤ p) (hp' : p ≤ 5 / 2) : x ^ p ≤ exp x := by
  have h1 : log x ≤ x / exp 1 := by
    have h := add_one_le_exp (log (x / exp 1))
    rw [exp_log (by positivity), log_div hx.ne' (exp_pos 1).ne', log_exp] at h
    linarith
  have h2 : p ≤ exp 1 := hp'.trans (by have := exp_one_gt_d9; linarith)
  rw [rpow_def_of_pos hx]
  apply exp_le_exp.mpr
  calc log x * p ≤ x / exp 1 * p := mul_le_mul_of_nonneg_right h1 hp
    _ ≤ x / exp 1 * exp 1 := mul_le_mul_of_nonneg_left h2 (by positivity)
    _ = x := by field_simp

theorem sq_rpow {r : ℝ} (hr : 0 < r) : (r ^ 2) ^ (3 / 2 : ℝ) = r ^ 3 := by
  rw [← rpow_natCast, ← rpow_mul hr.le, ← rpow_natCast]
  norm_num

theorem one_le_pi_rpow : 1 ≤ π ^ (3 / 2 : ℝ) :=
  one_le_rpow (by have := pi_gt_three; linarith) (by norm_num)

/-- A normalised basis function at distance at least `ρ` is at most `1 / ρ³`, whatever its exponent. -/
theorem bf_le (s : Bool) {e r ρ : ℝ} (he : 0 < e) (hρ : 0 < ρ) (hr : ρ ≤ |r|) :
    bf s true e r ≤ 1 / ρ ^ 3 := by
  have hr0 : 0 < |r| := hρ.trans_le hr
  have hr2 : r ^ 2 = |r| ^ 2 := (sq_abs r).symm
  set x := e * |r| ^ 2 with hx
  have hxp : 0 < x := by positivity
  have he' : e = x / |r| ^ 2 := by rw [hx]; field_simp
  have hle : 1 / |r| ^ 3 ≤ 1 / ρ ^ 3 := one_div_le_one_div_of_le (by positivity) (by gcongr)
  refine le_trans ?_ hle
  have hpi := one_le_pi_rpow
  have hexp : exp (-e * r ^ 2) = (exp x)⁻¹ := by rw [← exp_neg, hr2, hx]; ring_nf
  cases s
  · simp only [bf, pBasis, if_true, Bool.false_eq_true, if_false]
    rw [hexp, hr2]
    have h1 : e ^ (5 / 2 : ℝ) * |r| ^ 2 = x ^ (5 / 2 : ℝ) / |r| ^ 3 := by
      have h : (|r| ^ 2) ^ (5 / 2 : ℝ) = |r| ^ 3 * |r| ^ 2 := by
        rw [← pow_add, ← rpow_natCast, ← rpow_natCast, ← rpow_mul hr0.le]; norm_num
      rw [he', div_rpow hxp.le (by positivity), h]
      field_simp
    have h2 : 2 * e ^ (5 / 2 : ℝ) / (3 * π ^ (3 / 2 : ℝ)) * (|r| ^ 2 * (exp x)⁻¹) =
        2 / (3 * π ^ (3 / 2 : ℝ)) * (x ^ (5 / 2 : ℝ) * (exp x)⁻¹) * (1 / |r| ^ 3) := by
      have : 2 * e ^ (5 / 2 : ℝ) / (3 * π ^ (3 / 2 : ℝ)) * (|r| ^ 2 * (exp x)⁻¹) =
        2 / (3 * π ^ (3 / 2 : ℝ)) * (e ^ (5 / 2 : ℝ) * |r| ^ 2) * (exp x)⁻¹ := by ring
      rw [this, h1]; ring
    rw [h2]
    have h3 : x ^ (5 / 2 : ℝ) * (exp x)⁻¹ ≤ 1 := by
      rw [mul_inv_le_iff₀ (exp_pos x), one_mul]
      exact rpow_le_exp hxp (by norm_num) le_rfl
    have h4 : 2 / (3 * π ^ (3 / 2 : ℝ)) ≤ 1 := by
      rw [div_le_one (by positivity)]; linarith
    calc _ ≤ 1 * 1 * (1 / |r| ^ 3) := by gcongr
      _ = _ := by ring
  · simp only [bf, sBasis, if_true]
    rw [hexp]
    have h1 : (e / π) ^ (3 / 2 : ℝ) = x ^ (3 / 2 : ℝ) / (|r| ^ 3 * π ^ (3 / 2 : ℝ)) := by
      rw [div_rpow he.le pi_pos.le]
      conv_lhs => rw [he']
      rw [div_rpow hxp.le (by positivity), sq_rpow hr0, div_div]
    have h3 : x ^ (3 / 2 : ℝ) * (exp x)⁻¹ ≤ 1 := by
      rw [mul_inv_le_iff₀ (exp_pos x), one_mul]
      exact rpow_le_exp hxp (by norm_num) (by norm_num)
    have h4 : 1 / π ^ (3 / 2 : ℝ) ≤ 1 := by
      rw [div_le_one (by positivity)]; exact hpi
    rw [h1]
    calc x ^ (3 / 2 : ℝ) / (|r| ^ 3 * π ^ (3 / 2 : ℝ)) * (exp x)⁻¹ =
        1 / π ^ (3 / 2 : ℝ) * (x ^ (3 / 2 : ℝ) * (exp x)⁻¹) * (1 / |r| ^ 3) := by ring
      _ ≤ 1 * 1 * (1 / |r| ^ 3) := by gcongr
      _ = _ := by ring

/-- The lower bound of the divergence: the integral of `f log (f ρ³ / B)`, for points with weight at
distance at least `ρ` from every centre and coefficients that sum to at most `B`. -/
def klFloor (N : ℕ) (W f : ℕ → ℝ) (ρ B : ℝ) : ℝ :=
  ∑ i ∈ range N, W i * (f i * log (f i * ρ ^ 3 / B))

theorem sum_vec {n : ℕ} {c : List ℝ} (hc : c.length = n) : c.sum = ∑ k ∈ range n, vec c k := by
  conv_lhs => rw [eq_range_map c _ hc]
  rw [sum_list_tab]

theorem klFloor_le {S : Shape} {N : ℕ} {W f : ℕ → ℝ} {μ ρ B : ℝ} (hW : ∀ i < N, 0 ≤ W i)
    (hf : ∀ i < N, 0 < f i) (hρ : 0 < ρ)
    (hr : ∀ k < S.nb, ∀ i < N, 0 < W i → ρ ≤ |S.rad k i|) (c e : List ℝ) (hg : S.Good c e)
    (hB : c.sum ≤ B) (hu : S.AllUnmasked true N μ f c e) :
    klFloor N W f ρ B ≤ klTotal S N W f μ c e := by
  apply Finset.sum_le_sum
  intro i hi
  have hi := mem_range.mp hi
  rw [klVal_unmasked (hu i hi)]
  rcases (hW i hi).eq_or_lt with h0 | h0
  · rw [← h0]; simp
  apply mul_le_mul_of_nonneg_left _ h0.le
  have hgp : 0 < S.dens true (vec c) (vec e) i := unmasked_pos (hf i hi).le (hu i hi)
  have hcv := vec_of_mem hg.clen hg.cnn
  have hev := vec_of_mem hg.elen hg.epos
  have hle : S.dens true (vec c) (vec e) i ≤ B / ρ ^ 3 := by
    calc S.dens true (vec c) (vec e) i ≤ ∑ k ∈ range S.nb, vec c k * (1 / ρ ^ 3) := by
          apply Finset.sum_le_sum
          intro k hk
          have hk := mem_range.mp hk
          exact mul_le_mul_of_nonneg_left (bf_le _ (hev k hk) hρ (hr k hk i hi h0)) (hcv k hk)
      _ = c.sum / ρ ^ 3 := by rw [← Finset.sum_mul, ← sum_vec hg.clen]; ring
      _ ≤ B / ρ ^ 3 := by gcongr
  have hBp : 0 < B / ρ ^ 3 := hgp.trans_le hle
  apply mul_le_mul_of_nonneg_left _ (hf i hi).le
  have hfi := hf i hi
  have e1 : f i * ρ ^ 3 / B = f i / (B / ρ ^ 3) := by
    have : B ≠ 0 := by rintro rfl; simp at hBp
    field_simp
  rw [e1]
  exact log_le_log (by positivity) (div_le_div_of_nonneg_left hfi.le hgp hle)

/-! ### the loop -/

/-- The infinite sequence of updates from the given parameters. -/
structure IsIter (F : FPI) (uc ue : Bool) (c e : List ℝ) (cs es : ℕ → List ℝ) : Prop where
  zero : cs 0 = c ∧ es 0 = e
  succ : ∀ j, F.updateParams (fins (cs j)) (fins (es j)) uc ue =
    .ok (fins (cs (j + 1)), fins (es (j + 1)))

theorem fins_inj {a b : List ℝ} (h : fins a = fins b) : a = b :=
  List.map_injective_iff.mpr (fun _ _ hab => XR.fin_inj.mp hab) h

/-- Such a sequence exists from good parameters and stays good. -/
theorem exists_iter {F : FPI} {S : Shape} {N : ℕ} {W f : ℕ → ℝ} {μ T : ℝ}
    (h : IsFPI F true S N W f μ T) (hW : ∀ i < N, 0 ≤ W i) (hT : 0 < T) (hs : S.Sees N W f)
    (uc ue : Bool) (huc : uc = true ∨ ue = true) (c e : List ℝ) (hg : S.Good c e) :
    ∃ cs es, IsIter F uc ue c e cs es := by
  have hnext : ∀ p : {p : List ℝ × List ℝ // S.Good p.1 p.2}, ∃ q : {p : List ℝ × List ℝ // S.Good p.1 p.2},
      F.updateParams (fins p.1.1) (fins p.1.2) uc ue = .ok (fins q.1.1, fins q.1.2) := by
    rintro ⟨⟨a, b⟩, g⟩
    obtain ⟨c', e', h1, h2, h3, h4, h5, -⟩ :=
      C36_positive h hW hT hs a b g.clen g.elen g.cnn g.epos uc ue huc
    exact ⟨⟨(c', e'), ⟨h2, h3, h4, h5⟩⟩, h1⟩
  choose nx hnx using hnext
  let sq : ℕ → {p : List ℝ × List ℝ // S.Good p.1 p.2} := fun j => Nat.rec ⟨(c, e), hg⟩ (fun _ p => nx p) j
  exact ⟨fun j => (sq j).1.1, fun j => (sq j).1.2, ⟨rfl, rfl⟩, fun j => hnx (sq j)⟩

theorem IsIter.good {F : FPI} {S : Shape} {N : ℕ} {W f : ℕ → ℝ} {μ T : ℝ} {uc ue : Bool}
    {c e : List ℝ} {cs es : ℕ → List ℝ} (hi : IsIter F uc ue c e cs es)
    (h : IsFPI F true S N W f μ T) (hW : ∀ i < N, 0 ≤ W i) (hT : 0 < T) (hs : S.Sees N W f)
    (huc : uc = true ∨ ue = true) (hg : S.Good c e) (j : ℕ) : S.Good (cs j) (es j) := by
  induction j with
  | zero => rw [hi.zero.1, hi.zero.2]; exact hg
  | succ j ih =>
    obtain ⟨c', e', h1, h2, h3, h4, h5, -⟩ :=
      C36_positive h hW hT hs _ _ ih.clen ih.elen ih.cnn ih.epos uc ue huc
    rw [hi.succ j] at h1
    injection h1 with h1
    rw [Prod.mk.injEq] at h1
    rw [fins_inj h1.1, fins_inj h1.2]
    exact ⟨h2, h3, h4, h5⟩

/-- The state of the loop after `j ≥ 1` updates. -/
structure AtIter (cs es : ℕ → List ℝ) (kl : ℕ → ℝ) (j : ℕ) (s : FPIState) : Prop where
  cs : s.cs = fins (cs j)
  es : s.es = fins (es j)
  len : s.performance.length = j
  last : ∀ p ∈ s.performance.getLast?, p.kl = XR.fin (kl j)

theorem step_at {F : FPI} {S : Shape} {N : ℕ} {W f : ℕ → ℝ} {μ T : ℝ}
    (h : IsFPI F true S N W f μ T) (hW : ∀ i < N, 0 ≤ W i) (hT : 0 < T) (hs : S.Sees N W f)
    (hf : ∀ i < N, 0 < f i) (o : FPIOpts)
    (huc : o.optCoeffs = true ∨ o.optExpons = true) {c e : List ℝ} (hg : S.Good c e)
    {cs es : ℕ → List ℝ} (hit : IsIter F o.optCoeffs o.optExpons c e cs es) (j : ℕ) (s s' : FPIState)
    (hat : AtIter cs es (fun j => klTotal S N W f μ (cs j) (es j)) j s) (hst : F.step o s = .ok s') :
    AtIter cs es (fun j => klTotal S N W f μ (cs j) (es j)) (j + 1) s' ∧
      (j = 0 → s'.diffDiv = s.diffDiv) ∧
      (0 < j → s'.diffDiv = XR.fin
        |klTotal S N W f μ (cs (j + 1)) (es (j + 1)) - klTotal S N W f μ (cs j) (es j)|) := by
  have g := hit.good h hW hT hs huc hg (j + 1)
  obtain ⟨p, hp, hpk⟩ := goodness_klTotal h.data (hs.pos h.data.model.nb_pos) h.mask hf _ _
    g.clen g.elen g.cnn g.epos
  unfold FPI.step at hst
  rw [if_neg (by rcases huc with h | h <;> simp [h]), hat.cs, hat.es, hit.succ j] at hst
  simp only at hst
  rcases hdc : maxChange (fins (cs (j + 1))) (fins (cs j)) with err | dc
  · rw [hdc] at hst; simp at hst
  rw [hdc] at hst
  simp only at hst
  rcases hde : maxChange (fins (es (j + 1))) (fins (es j)) with err | de
  · rw [hde] at hst; simp at hst
  rw [hde, hp] at hst
  simp only [Except.ok.injEq] at hst
  subst hst
  refine ⟨⟨rfl, rfl, by simp [hat.len], by simp [hpk]⟩, ?_, ?_⟩
  · rintro rfl
    have := List.length_eq_zero_iff.mp hat.len
    simp [this]
  · intro hj
    rcases hgl : s.performance.getLast? with _ | q
    · rw [List.getLast?_eq_none_iff] at hgl
      have := hat.len
      rw [hgl] at this
      simp at this
      omega
    · have := hat.last q hgl
      simp only
      rw [hpk, this]
      rfl

theorem fin_gt_iff {a b : ℝ} : XR.fin a > XR.fin b ↔ b < a := Iff.rfl

/-- How far the loop runs from a state after at least one update. -/
theorem loop_count {F : FPI} {S : Shape} {N : ℕ} {W f : ℕ → ℝ} {μ T : ℝ}
    (h : IsFPI F true S N W f μ T) (hW : ∀ i < N, 0 ≤ W i) (hT : 0 < T) (hs : S.Sees N W f)
    (hf : ∀ i < N, 0 < f i) (o : FPIOpts)
    (huc : o.optCoeffs = true ∨ o.optExpons = true) {c e : List ℝ} (hg : S.Good c e)
    {cs es : ℕ → List ℝ} (hit : IsIter F o.optCoeffs o.optExpons c e cs es)
    {dT : ℝ} (hdT : o.dThr = XR.fin dT) (kl : ℕ → ℝ)
    (hkl : kl = fun j => klTotal S N W f μ (cs j) (es j))
    (hmono : ∀ j, 0 < j → kl (j + 1) ≤ kl j) (n : ℕ) (j : ℕ) (hj : 0 < j) (s s' : FPIState)
    (hat : AtIter cs es kl j s) (hl : F.loop o n s = .ok s') :
    ∃ j', j ≤ j' ∧ j' ≤ j + n ∧ AtIter cs es kl j' s' ∧ (j' = j → s' = s) ∧
      (j < j' → s.diffDiv > o.dThr ∧ s'.diffDiv = XR.fin (kl (j' - 1) - kl j') ∧
        ((j' : ℝ) - 1 - j) * dT ≤ kl j - kl (j' - 1)) := by
  induction n generalizing j s with
  | zero =>
    simp only [FPI.loop, Except.ok.injEq] at hl
    subst hl
    exact ⟨j, le_rfl, by omega, hat, fun _ => rfl, by omega⟩
  | succ n ih =>
    rw [FPI.loop] at hl
    by_cases hc : s.notConverged o
    · rw [if_pos hc] at hl
      rcases hst : F.step o s with err | s₁
      · rw [hst] at hl; simp at hl
      rw [hst] at hl
      simp only at hl
      obtain ⟨h1, -, h2⟩ := step_at h hW hT hs hf o huc hg hit j s s₁ (hkl ▸ hat) hst
      rw [← hkl] at h1
      have h2 : s₁.diffDiv = XR.fin (kl j - kl (j + 1)) := by
        rw [h2 hj, hkl]
        simp only
        rw [abs_sub_comm, abs_of_nonneg]
        have := hmono j hj
        rw [hkl] at this
        simp only at this
        linarith
      obtain ⟨j', k1, k2, k3, k4, k5⟩ := ih (j + 1) (by omega) s₁ h1 hl
      refine ⟨j', by omega, by omega, k3, by omega, fun _ => ⟨hc.2, ?_⟩⟩
      rcases k1.eq_or_lt with h0 | h0
      · subst h0
        rw [k4 rfl]
        refine ⟨by simpa using h2, by simp⟩
      · obtain ⟨m1, m2, m3⟩ := k5 h0
        refine ⟨m2, ?_⟩
        rw [h2, hdT, fin_gt_iff] at m1
        push_cast at m3
        linarith
    · rw [if_neg hc] at hl
      simp only [Except.ok.injEq] at hl
      subst hl
      exact ⟨j, le_rfl, by omega, hat, fun _ => rfl, by omega⟩

/-- **C76**.  If every iterate keeps the model above the mask, no weighted grid point is within `ρ` of
a centre and `d_threshold` is positive, then a run with more than
`2 + (KL after the first update - floor) / d_threshold` allowed updates reports success, needs at most
that many, and returns coefficients that sum to `integral_dens` (if they are optimised).  The other
thresholds are arbitrary. -/
theorem C76_converges {F : FPI} {S : Shape} {N : ℕ} {W f : ℕ → ℝ} {μ T : ℝ}
    (h : IsFPI F true S N W f μ T) (hW : ∀ i < N, 0 ≤ W i) (hT : 0 < T) (hs : S.Sees N W f)
    (hf : ∀ i < N, 0 < f i ∧ μ ≤ f i) (ρ : ℝ) (hρ : 0 < ρ)
    (hr : ∀ k < S.nb, ∀ i < N, 0 < W i → ρ ≤ |S.rad k i|) (o : FPIOpts)
    (huc : o.optCoeffs = true ∨ o.optExpons = true) (dT : ℝ) (hdT : o.dThr = XR.fin dT) (hd0 : 0 < dT)
    (c e : List ℝ) (hg : S.Good c e) (cs es : ℕ → List ℝ)
    (hit : IsIter F o.optCoeffs o.optExpons c e cs es)
    (hu : ∀ j, 0 < j → S.AllUnmasked true N μ f (cs j) (es j))
    (hm : 2 + (klTotal S N W f μ (cs 1) (es 1) - klFloor N W f ρ (max T c.sum)) / dT < o.maxiter) :
    ∃ r n, F.run (.arr (ND.vec (fins c))) (.arr (ND.vec (fins e))) o = .ok r ∧ r.success = true ∧
      r.performance.length = n ∧ r.coeffs = fins (cs n) ∧ r.exps = fins (es n) ∧
      (n : ℝ) ≤ 2 + (klTotal S N W f μ (cs 1) (es 1) - klFloor N W f ρ (max T c.sum)) / dT ∧
      (o.optCoeffs = true → 1 < n → (cs n).sum = T) := by
  have hgood := hit.good h hW hT hs huc hg
  set kl : ℕ → ℝ := fun j => klTotal S N W f μ (cs j) (es j) with hkl
  have hL : 0 < (∑ i ∈ range N, W i * f i) / T :=
    lt_of_le_of_ne (div_nonneg (Finset.sum_nonneg fun i hi =>
      mul_nonneg (hW i (mem_range.mp hi)) (h.f_nonneg i (mem_range.mp hi))) hT.le) h.lm_ne.symm
  -- sums of the coefficients
  have hdesc : ∀ j, S.AllUnmasked true N μ f (cs j) (es j) →
      (o.optCoeffs = true → (cs (j + 1)).sum = T) ∧ (o.optCoeffs = false → cs (j + 1) = cs j) ∧
      kl (j + 1) + (∑ i ∈ range N, W i * f i) / T * (cs (j + 1)).sum ≤
        kl j + (∑ i ∈ range N, W i * f i) / T * (cs j).sum := by
    intro j huj
    have g := hgood j
    obtain ⟨c', e', k1, k2, k3, k4, k5, k6, k7, k8, -⟩ := fpi_descent h hW hT hs hf _ _
      g.clen g.elen g.cnn g.epos huj o.optCoeffs o.optExpons huc
    rw [hit.succ j] at k1
    injection k1 with k1
    rw [Prod.mk.injEq] at k1
    have e1 := fins_inj k1.1
    have e2 := fins_inj k1.2
    subst e1 e2
    exact ⟨k6, k7, k8⟩
  have hsum1 : o.optCoeffs = true → (cs 1).sum ≤ T := by
    intro ho
    obtain ⟨c₁, es₁, m1, -, m3⟩ := C35_bound h hW hT (fun i hi => (hf i hi).2) _ _ (hgood 0) o.optExpons
    have := hit.succ 0
    rw [ho, m1] at this
    injection this with this
    rw [Prod.mk.injEq] at this
    rw [← fins_inj this.1]
    exact m3
  have hfroz : o.optCoeffs = false → ∀ j, cs j = c := by
    intro ho j
    induction j with
    | zero => exact hit.zero.1
    | succ j ih => exact (fins_inj ((updateParams_frozen (hit.succ j)).1 ho)).trans ih
  have hsum : ∀ j, 0 < j → (cs j).sum ≤ max T c.sum ∧ (cs j).sum ≤ (cs (j + 1)).sum := by
    intro j hj
    cases ho : o.optCoeffs with
    | false => rw [hfroz ho, hfroz ho]; exact ⟨le_max_right _ _, le_rfl⟩
    | true =>
      have hle : (cs j).sum ≤ T := by
        obtain ⟨i, rfl⟩ : ∃ i, j = i + 1 := ⟨j - 1, by omega⟩
        rcases Nat.eq_zero_or_pos i with rfl | hi
        · exact hsum1 ho
        · rw [(hdesc i (hu i hi)).1 ho]
      exact ⟨hle.trans (le_max_left _ _), by rw [(hdesc j (hu j hj)).1 ho]; exact hle⟩
  have hmono : ∀ j, 0 < j → kl (j + 1) ≤ kl j := by
    intro j hj
    have h1 := (hdesc j (hu j hj)).2.2
    have h2 := mul_le_mul_of_nonneg_left (hsum j hj).2 hL.le
    linarith
  have hfloor : ∀ j, 0 < j → klFloor N W f ρ (max T c.sum) ≤ kl j := fun j hj =>
    klFloor_le hW (fun i hi => (hf i hi).1) hρ hr _ _ (hgood j) (hsum j hj).1 (hu j hj)
  have hnn : 0 ≤ (kl 1 - klFloor N W f ρ (max T c.sum)) / dT :=
    div_nonneg (sub_nonneg.mpr (hfloor 1 one_pos)) hd0.le
  have hm2 : 2 < o.maxiter := by
    have : (2 : ℝ) < o.maxiter := by linarith
    exact_mod_cast this
  -- the run
  have hnb : F.model.nbasis = (S.nb : ℤ) := h.data.model.nbasis
  have hs1 : (ND.vec (fins c)).shape.map Int.ofNat = [F.model.nbasis] := by
    simp [ND.vec, hnb, hg.clen]
  have hs2 : (ND.vec (fins e)).shape.map Int.ofNat = [F.model.nbasis] := by
    simp [ND.vec, hnb, hg.elen]
  set s₀ : FPIState := ⟨fins c, fins e, XR.pinf, XR.pinf, XR.pinf, []⟩ with hs0
  obtain ⟨s', hs'⟩ := loop_total h hW hT hs o huc o.maxiter.toNat s₀ c e hg rfl rfl
  have hrun : F.run (.arr (ND.vec (fins c))) (.arr (ND.vec (fins e))) o =
      .ok ⟨s'.cs, s'.es, s'.performance.map Perf.kl,
        decide ¬ ((o.maxiter = s'.performance.length ∧ s'.diffDiv > o.dThr) ∨ s'.diffDiv = XR.nan),
        s'.performance⟩ := by
    unfold FPI.run
    simp only
    rw [if_neg (by rw [hs1]; simp), if_neg (by rw [hs2]; simp)]
    have : (ND.vec (fins c)).data = fins c := rfl
    have h' : (ND.vec (fins e)).data = fins e := rfl
    rw [this, h', ← hs0, hs']
  have hat0 : AtIter cs es kl 0 s₀ := ⟨by rw [hit.zero.1], by rw [hit.zero.2], rfl, by simp [s₀]⟩
  have hend : ∃ n, AtIter cs es kl n s' ∧ s'.diffDiv ≠ XR.nan ∧
      (n : ℝ) ≤ 2 + (kl 1 - klFloor N W f ρ (max T c.sum)) / dT := by
    obtain ⟨M, hM⟩ : ∃ M, o.maxiter.toNat = M + 1 := ⟨o.maxiter.toNat - 1, by omega⟩
    rw [hM, FPI.loop] at hs'
    by_cases hc : s₀.notConverged o
    · rw [if_pos hc] at hs'
      rcases hst : F.step o s₀ with err | s₁
      · rw [hst] at hs'; simp at hs'
      rw [hst] at hs'
      simp only at hs'
      obtain ⟨h1, h2, -⟩ := step_at h hW hT hs (fun i hi => (hf i hi).1) o huc hg hit 0 s₀ s₁ hat0 hst
      obtain ⟨j', k1, -, k3, k4, k5⟩ := loop_count h hW hT hs (fun i hi => (hf i hi).1) o huc hg hit hdT
        kl hkl hmono M 1 one_pos s₁ s' h1 hs'
      refine ⟨j', k3, ?_⟩
      rcases k1.eq_or_lt with h0 | h0
      · subst h0
        rw [k4 rfl, h2 rfl]
        refine ⟨by simp [s₀], ?_⟩
        push_cast
        linarith
      · obtain ⟨-, m2, m3⟩ := k5 h0
        rw [m2]
        refine ⟨by simp, ?_⟩
        have hfl := hfloor (j' - 1) (by omega)
        have : ((j' : ℝ) - 2) ≤ (kl 1 - klFloor N W f ρ (max T c.sum)) / dT := by
          rw [le_div_iff₀ hd0]
          push_cast at m3
          linarith
        linarith
    · rw [if_neg hc] at hs'
      simp only [Except.ok.injEq] at hs'
      subst hs'
      exact ⟨0, hat0, by simp [s₀], by push_cast; linarith⟩
  obtain ⟨n, hat, hnan, hn⟩ := hend
  refine ⟨_, n, hrun, ?_, hat.len, hat.cs, hat.es, hn, ?_⟩
  · rw [decide_eq_true_iff]
    rintro (⟨h1, -⟩ | h1)
    · have : (o.maxiter : ℝ) = n := by rw [h1, hat.len]; push_cast; rfl
      simp only [hkl] at hn
      linarith
    · exact hnan h1
  · intro ho hn1
    obtain ⟨i, rfl⟩ : ∃ i, n = i + 1 := ⟨n - 1, by omega⟩
    exact (hdesc i (hu i (by omega))).1 ho

/-! ### conditions on the input only -/

/-- A lower bound of every normalised basis function with exponent in `[e₀, e₁]` at distances in
`[ρ, R]`. -/
def bfFloor (e₀ e₁ ρ R : ℝ) : ℝ :=
  min ((e₀ / π) ^ (3 / 2 : ℝ)) (2 * e₀ ^ (5 / 2 : ℝ) / (3 * π ^ (3 / 2 : ℝ)) * ρ ^ 2) * exp (-e₁ * R ^ 2)

theorem bfFloor_pos {e₀ e₁ ρ R : ℝ} (h0 : 0 < e₀) (hρ : 0 < ρ) : 0 < bfFloor e₀ e₁ ρ R := by
  unfold bfFloor
  have := pi_pos
  exact mul_pos (lt_min (by positivity) (by positivity)) (exp_pos _)

theorem bfFloor_le (s : Bool) {e e₀ e₁ ρ R r : ℝ} (h0 : 0 < e₀) (h1 : e₀ ≤ e) (h2 : e ≤ e₁)
    (hρ : 0 < ρ) (hr : ρ ≤ |r|) (hR : |r| ≤ R) : bfFloor e₀ e₁ ρ R ≤ bf s true e r := by
  have hpi := pi_pos
  have he : 0 < e := h0.trans_le h1
  have hexp : exp (-e₁ * R ^ 2) ≤ exp (-e * r ^ 2) := by
    apply exp_le_exp.mpr
    have h3 : r ^ 2 ≤ R ^ 2 := by rw [← sq_abs r]; gcongr
    have h4 : e * r ^ 2 ≤ e₁ * R ^ 2 := mul_le_mul h2 h3 (sq_nonneg r) (by linarith)
    linarith
  have hr2 : ρ ^ 2 ≤ r ^ 2 := by rw [← sq_abs r]; gcongr
  unfold bfFloor
  cases s
  · simp only [bf, pBasis, if_true, Bool.false_eq_true, if_false]
    rw [← mul_assoc]
    refine mul_le_mul ((min_le_right _ _).trans ?_) hexp (exp_pos _).le (by positivity)
    gcongr
  · simp only [bf, sBasis, if_true]
    refine mul_le_mul ((min_le_left _ _).trans ?_) hexp (exp_pos _).le (by positivity)
    gcongr

/-- Every update of the exponents lands in `[3 / (2 R²), 5 / (2 ρ²)]`. -/
theorem update_box {F : FPI} {S : Shape} {N : ℕ} {W f : ℕ → ℝ} {μ T : ℝ}
    (h : IsFPI F true S N W f μ T) (hW : ∀ i < N, 0 ≤ W i) (hs : S.Sees N W f)
    (ρ R : ℝ) (hρ : 0 < ρ) (hr : ∀ k < S.nb, ∀ i < N, ρ ≤ |S.rad k i| ∧ |S.rad k i| ≤ R)
    (c e : List ℝ) (hg : S.Good c e) (uc : Bool) (c' e' : List ℝ)
    (hup : F.updateParams (fins c) (fins e) uc true = .ok (fins c', fins e')) :
    ∀ k < S.nb, 3 / (2 * R ^ 2) ≤ vec e' k ∧ vec e' k ≤ 5 / (2 * ρ ^ 2) := by
  have hcv := vec_of_mem hg.clen hg.cnn
  have hev := vec_of_mem hg.elen hg.epos
  have hA : ∀ k < S.nb, 0 < fpiA S true N W (S.ratio true μ f (vec c) (vec e)) (vec e) k ∧
      0 < fpiA2 S true N W (S.ratio true μ f (vec c) (vec e)) (vec e) k := fun k hk =>
    fpiA_pos hs hW (fun i hi => ratio_nonneg (h.f_nonneg i hi)) (fun i _ => ratio_pos) hk (hev k hk)
  have hform := updateParams_fins h.data h.mask h.lm h.lm_ne h.f_nonneg c e hg.clen hg.elen
    (fun _ a ha => (hg.epos a ha).le) (fun i _ => dens_nonneg hcv (fun k hk => (hev k hk).le) i) uc true
    (Or.inr rfl) (fun _ k hk => (hA k hk).2.ne')
  rw [hup] at hform
  injection hform with hform
  rw [Prod.mk.injEq] at hform
  have hfe := fins_inj hform.2
  intro k hk
  rw [hfe, vec_tab hk, if_pos rfl]
  set A := fpiA S true N W (S.ratio true μ f (vec c) (vec e)) (vec e) k with hAd
  set A2 := fpiA2 S true N W (S.ratio true μ f (vec c) (vec e)) (vec e) k with hA2d
  obtain ⟨hA0, hA20⟩ := hA k hk
  have hterm : ∀ i < N, 0 ≤ W i * (S.ratio true μ f (vec c) (vec e) i *
      bf (S.isS k) true (vec e k) (S.rad k i)) := fun i hi =>
    mul_nonneg (hW i hi) (mul_nonneg (ratio_nonneg (h.f_nonneg i hi)) (bf_nonneg _ _ (hev k hk).le))
  have hlo : ρ ^ 2 * A ≤ A2 := by
    rw [hAd, hA2d, fpiA, fpiA2, Finset.mul_sum]
    apply Finset.sum_le_sum
    intro i hi
    have hi := mem_range.mp hi
    have h1 : ρ ^ 2 ≤ S.rad k i ^ 2 := by
      have := (hr k hk i hi).1
      rw [← sq_abs (S.rad k i)]; gcongr
    have := mul_le_mul_of_nonneg_right h1 (hterm i hi)
    linarith
  have hhi : A2 ≤ R ^ 2 * A := by
    rw [hAd, hA2d, fpiA, fpiA2, Finset.mul_sum]
    apply Finset.sum_le_sum
    intro i hi
    have hi := mem_range.mp hi
    have h1 : S.rad k i ^ 2 ≤ R ^ 2 := by
      have := (hr k hk i hi).2
      rw [← sq_abs (S.rad k i)]; gcongr
    have := mul_le_mul_of_nonneg_right h1 (hterm i hi)
    linarith
  have hR : 0 < R ^ 2 := by
    have := hA20.trans_le hhi
    exact pos_of_mul_pos_left this hA0.le
  have hp1 : 3 / 2 ≤ S.pref k := by unfold Shape.pref; split <;> norm_num
  have hp2 : S.pref k ≤ 5 / 2 := by unfold Shape.pref; split <;> norm_num
  constructor
  · rw [div_le_div_iff₀ (by positivity) hA20]
    nlinarith [mul_le_mul_of_nonneg_right hp1 hA0.le]
  · rw [div_le_div_iff₀ hA20 (by positivity)]
    nlinarith [mul_le_mul_of_nonneg_right hp2 hA0.le]

/-- All iterates are above the mask if the start is in a box of parameters whose smallest density
exceeds it. -/
theorem iter_unmasked {F : FPI} {S : Shape} {N : ℕ} {W f : ℕ → ℝ} {μ T : ℝ}
    (h : IsFPI F true S N W f μ T) (hW : ∀ i < N, 0 ≤ W i) (hT : 0 < T) (hs : S.Sees N W f)
    (ρ R e₀ e₁ : ℝ) (hρ : 0 < ρ) (hr : ∀ k < S.nb, ∀ i < N, ρ ≤ |S.rad k i| ∧ |S.rad k i| ≤ R)
    (he0 : 0 < e₀) (he0' : e₀ ≤ 3 / (2 * R ^ 2)) (he1 : 5 / (2 * ρ ^ 2) ≤ e₁) (uc ue : Bool)
    (huc : uc = true ∨ ue = true) (c e : List ℝ) (hg : S.Good c e)
    (hbox : ∀ k < S.nb, e₀ ≤ vec e k ∧ vec e k ≤ e₁)
    (hm : ∀ i < N, μ < min T c.sum * bfFloor e₀ e₁ ρ R ∧ f i * tiny < min T c.sum * bfFloor e₀ e₁ ρ R)
    (cs es : ℕ → List ℝ) (hit : IsIter F uc ue c e cs es) (j : ℕ) :
    (∀ k < S.nb, e₀ ≤ vec (es j) k ∧ vec (es j) k ≤ e₁) ∧ min T c.sum ≤ (cs j).sum ∧
      S.AllUnmasked true N μ f (cs j) (es j) := by
  have key : ∀ j, (∀ k < S.nb, e₀ ≤ vec (es j) k ∧ vec (es j) k ≤ e₁) → min T c.sum ≤ (cs j).sum →
      S.AllUnmasked true N μ f (cs j) (es j) := by
    intro j hb hsum i hi
    have g := hit.good h hW hT hs huc hg j
    have hcv := vec_of_mem g.clen g.cnn
    have hle : min T c.sum * bfFloor e₀ e₁ ρ R ≤ S.dens true (vec (cs j)) (vec (es j)) i := by
      calc min T c.sum * bfFloor e₀ e₁ ρ R ≤ (cs j).sum * bfFloor e₀ e₁ ρ R :=
            mul_le_mul_of_nonneg_right hsum (bfFloor_pos he0 hρ).le
        _ = ∑ k ∈ range S.nb, vec (cs j) k * bfFloor e₀ e₁ ρ R := by
            rw [sum_vec g.clen, Finset.sum_mul]
        _ ≤ _ := by
            apply Finset.sum_le_sum
            intro k hk
            have hk := mem_range.mp hk
            exact mul_le_mul_of_nonneg_left (bfFloor_le _ he0 (hb k hk).1 (hb k hk).2 hρ
              (hr k hk i hi).1 (hr k hk i hi).2) (hcv k hk)
    exact ⟨(hm i hi).1.trans_le hle, (hm i hi).2.trans_le hle⟩
  induction j with
  | zero =>
    have h1 : ∀ k < S.nb, e₀ ≤ vec (es 0) k ∧ vec (es 0) k ≤ e₁ := by rw [hit.zero.2]; exact hbox
    have h2 : min T c.sum ≤ (cs 0).sum := by rw [hit.zero.1]; exact min_le_right _ _
    exact ⟨h1, h2, key 0 h1 h2⟩
  | succ j ih =>
    have g := hit.good h hW hT hs huc hg j
    have h1 : ∀ k < S.nb, e₀ ≤ vec (es (j + 1)) k ∧ vec (es (j + 1)) k ≤ e₁ := by
      cases hue : ue with
      | false =>
        rw [fins_inj ((updateParams_frozen (hit.succ j)).2 hue)]
        exact ih.1
      | true =>
        intro k hk
        have := hit.succ j
        rw [hue] at this
        obtain ⟨a, b⟩ := update_box h hW hs ρ R hρ hr _ _ g _ _ _ this k hk
        exact ⟨he0'.trans a, b.trans he1⟩
    have h2 : min T c.sum ≤ (cs (j + 1)).sum := by
      cases huc' : uc with
      | false =>
        rw [fins_inj ((updateParams_frozen (hit.succ j)).1 huc')]
        exact ih.2.1
      | true =>
        obtain ⟨c₂, es₂, k1, -, k3, -⟩ := C35_conservation h _ _ g.clen g.elen
          (fun _ a ha => (g.epos a ha).le) ih.2.2 ue
        have := hit.succ j
        rw [huc', k1] at this
        injection this with this
        rw [Prod.mk.injEq] at this
        rw [← fins_inj this.1, k3]
        exact min_le_left _ _
    exact ⟨h1, h2, key _ h1 h2⟩

/-- **C76** (conditions on the input only).  Let every grid point be at a distance between `ρ > 0` and
`R` from every centre, and let `[e₀, e₁]` contain the initial exponents, `3 / (2 R²)` and
`5 / (2 ρ²)`.  If the mask is below the smallest density that such exponents can give, a run with a
positive `d_threshold` and enough allowed updates succeeds, its returned exponents lie in `[e₀, e₁]`
and its divergences never increase.  "Enough" is computed from the initial parameters. -/
theorem C76_a_priori {F : FPI} {S : Shape} {N : ℕ} {W f : ℕ → ℝ} {μ T : ℝ}
    (h : IsFPI F true S N W f μ T) (hW : ∀ i < N, 0 ≤ W i) (hT : 0 < T) (hs : S.Sees N W f)
    (hf : ∀ i < N, 0 < f i ∧ μ ≤ f i)
    (ρ R e₀ e₁ : ℝ) (hρ : 0 < ρ) (hr : ∀ k < S.nb, ∀ i < N, ρ ≤ |S.rad k i| ∧ |S.rad k i| ≤ R)
    (he0 : 0 < e₀) (he0' : e₀ ≤ 3 / (2 * R ^ 2)) (he1 : 5 / (2 * ρ ^ 2) ≤ e₁) (o : FPIOpts)
    (huc : o.optCoeffs = true ∨ o.optExpons = true) (dT : ℝ) (hdT : o.dThr = XR.fin dT) (hd0 : 0 < dT)
    (c e : List ℝ) (hg : S.Good c e) (hbox : ∀ k < S.nb, e₀ ≤ vec e k ∧ vec e k ≤ e₁)
    (hm : ∀ i < N, μ < min T c.sum * bfFloor e₀ e₁ ρ R ∧ f i * tiny < min T c.sum * bfFloor e₀ e₁ ρ R)
    (hmax : 2 + (klTotal S N W f μ c e + (∑ i ∈ range N, W i * f i) / T * |c.sum - T| -
      klFloor N W f ρ (max T c.sum)) / dT < o.maxiter) :
    ∃ (r : FPIResult) (c' e' : List ℝ), F.run (.arr (ND.vec (fins c))) (.arr (ND.vec (fins e))) o = .ok r ∧
      r.success = true ∧ r.coeffs = fins c' ∧ r.exps = fins e' ∧
      (∀ k < S.nb, e₀ ≤ vec e' k ∧ vec e' k ≤ e₁) ∧
      (o.optCoeffs = true → r.performance ≠ [] → c'.sum = T) ∧
      ∃ hist : List ℝ, r.fun_ = fins hist ∧ hist.Pairwise (· ≥ ·) := by
  obtain ⟨cs, es, hit⟩ := exists_iter h hW hT hs o.optCoeffs o.optExpons huc c e hg
  have hall := iter_unmasked h hW hT hs ρ R e₀ e₁ hρ hr he0 he0' he1 o.optCoeffs o.optExpons huc c e hg
    hbox hm cs es hit
  have hL : 0 < (∑ i ∈ range N, W i * f i) / T :=
    lt_of_le_of_ne (div_nonneg (Finset.sum_nonneg fun i hi =>
      mul_nonneg (hW i (mem_range.mp hi)) (h.f_nonneg i (mem_range.mp hi))) hT.le) h.lm_ne.symm
  have hdesc : ∀ j, (o.optCoeffs = true → (cs (j + 1)).sum = T) ∧
      (o.optCoeffs = false → cs (j + 1) = cs j) ∧
      klTotal S N W f μ (cs (j + 1)) (es (j + 1)) + (∑ i ∈ range N, W i * f i) / T * (cs (j + 1)).sum ≤
        klTotal S N W f μ (cs j) (es j) + (∑ i ∈ range N, W i * f i) / T * (cs j).sum := by
    intro j
    have g := hit.good h hW hT hs huc hg j
    obtain ⟨c', e', k1, k2, k3, k4, k5, k6, k7, k8, -⟩ := fpi_descent h hW hT hs hf _ _
      g.clen g.elen g.cnn g.epos (hall j).2.2 o.optCoeffs o.optExpons huc
    rw [hit.succ j] at k1
    injection k1 with k1
    rw [Prod.mk.injEq] at k1
    have e1 := fins_inj k1.1
    have e2 := fins_inj k1.2
    subst e1 e2
    exact ⟨k6, k7, k8⟩
  have hfirst : klTotal S N W f μ (cs 1) (es 1) ≤
      klTotal S N W f μ c e + (∑ i ∈ range N, W i * f i) / T * |c.sum - T| := by
    obtain ⟨h1, h2, h3⟩ := hdesc 0
    rw [hit.zero.1, hit.zero.2] at h3
    rw [hit.zero.1] at h2
    have h4 : c.sum - (cs 1).sum ≤ |c.sum - T| := by
      cases ho : o.optCoeffs with
      | true => rw [h1 ho]; exact le_abs_self _
      | false => rw [h2 ho, sub_self]; exact abs_nonneg _
    have := mul_le_mul_of_nonneg_left h4 hL.le
    simp only [zero_add] at h3
    linarith
  obtain ⟨r, n, k1, k2, k3, k4, k5, k6, -⟩ := C76_converges h hW hT hs hf ρ hρ
    (fun k hk i hi _ => (hr k hk i hi).1) o huc dT hdT hd0 c e hg cs es hit (fun j _ => (hall j).2.2)
    (lt_of_le_of_lt (by gcongr) hmax)
  refine ⟨r, cs n, es n, k1, k2, k4, k5, (hall n).1, ?_, ?_⟩
  · intro ho hne
    have hn : 0 < n := by rw [← k3]; exact List.length_pos_iff.mpr hne
    obtain ⟨i, rfl⟩ : ∃ i, n = i + 1 := ⟨n - 1, by omega⟩
    exact (hdesc i).1 ho
  · obtain ⟨r', m, cs', es', hist, m1, m2, m3, m4, m5, m6, m7⟩ := C37_history h hW hT hs hf o huc c e hg
    rw [k1] at m1
    injection m1 with m1
    subst m1
    have hsame : ∀ j ≤ m, cs' j = cs j ∧ es' j = es j := by
      intro j hj
      induction j with
      | zero =>
        have := m2.start
        rw [Prod.mk.injEq] at this
        exact ⟨(fins_inj this.1).trans hit.zero.1.symm, (fins_inj this.2).trans hit.zero.2.symm⟩
      | succ j ih =>
        obtain ⟨i1, i2⟩ := ih (by omega)
        have h1 := m2.step j (by omega)
        simp only at h1
        rw [i1, i2, hit.succ j] at h1
        injection h1 with h1
        rw [Prod.mk.injEq] at h1
        exact ⟨(fins_inj h1.1).symm, (fins_inj h1.2).symm⟩
    refine ⟨hist, m3, m7 fun j _ hj => ?_⟩
    rw [(hsame j hj.le).1, (hsame j hj.le).2]
    exact (hall j).2.2

/-! ### a concrete run -/

/-- One s-type and one p-type function on the grid `1, 2`. -/
def convAtom : Atomic :=
  { points := .one (fins [1, 2]), coord := fins [0], radii := fins [1, 2], ns := 1, np := 1,
    normalized := true }

theorem conv_quad : Quad (.radial ⟨fins [1, 2]⟩) false 2 (vec [1 / 2, 1 / 2]) := by
  have h := quad_plain (hasWeights_radial [1, 2])
  have e : trapW [1, 2] = [1 / 2, 1 / 2] := by norm_num [trapW, trapWAux]
  rw [e] at h
  exact h

theorem conv_isFPI : ∃ F, FPI.init (.radial ⟨fins [1, 2]⟩) (fins [1, 1]) (.atom convAtom) (XR.fin 0)
    (some (XR.fin 3)) false = .ok F ∧
    IsFPI F true (atomShape [1, 2] 1 1) 2 (vec [1 / 2, 1 / 2]) (fun _ => 1) 0 3 := by
  obtain ⟨F, h1, h2, -⟩ := (C34_finite (f := fun _ => 1) 0 (some 3)
    (atom_isModel (m := convAtom) (rs := [1, 2]) ⟨rfl, rfl, rfl⟩ (by simp)) conv_quad (by simp)
    (fun i _ => zero_le_one)).1 (by norm_num [Finset.sum_range_succ, vec]) (by norm_num)
  exact ⟨F, h1, h2⟩

theorem conv_floor : tiny < 2 * bfFloor (3 / 8) (5 / 2) 1 2 := by
  have hpi := pi_pos
  have hpi4 := pi_le_four
  have h1 : (3 / 32 : ℝ) ^ 2 ≤ (3 / 8 / π) ^ (3 / 2 : ℝ) := by
    calc (3 / 32 : ℝ) ^ 2 ≤ (3 / 32 : ℝ) ^ (3 / 2 : ℝ) := by
          rw [← rpow_natCast]
          exact rpow_le_rpow_of_exponent_ge (by norm_num) (by norm_num) (by norm_num)
      _ ≤ _ := by
          apply rpow_le_rpow (by norm_num) _ (by norm_num)
          rw [div_div, div_le_div_iff₀ (by norm_num) (by positivity)]
          linarith
  have h2 : (2 : ℝ) * (3 / 8) ^ 3 / (3 * 16) ≤
      2 * (3 / 8) ^ (5 / 2 : ℝ) / (3 * π ^ (3 / 2 : ℝ)) * 1 ^ 2 := by
    have a : (3 / 8 : ℝ) ^ 3 ≤ (3 / 8 : ℝ) ^ (5 / 2 : ℝ) := by
      rw [← rpow_natCast]
      exact rpow_le_rpow_of_exponent_ge (by norm_num) (by norm_num) (by norm_num)
    have b : π ^ (3 / 2 : ℝ) ≤ 16 := by
      calc π ^ (3 / 2 : ℝ) ≤ 4 ^ (3 / 2 : ℝ) := rpow_le_rpow hpi.le hpi4 (by norm_num)
        _ ≤ 4 ^ (2 : ℝ) := rpow_le_rpow_of_exponent_le (by norm_num) (by norm_num)
        _ = 16 := by norm_num
    rw [one_pow, mul_one]
    gcongr
  have h3 : (1 / 3 : ℝ) ^ 10 ≤ exp (-(5 / 2) * 2 ^ 2) := by
    have a : exp (-(5 / 2) * 2 ^ 2) = (exp 1)⁻¹ ^ 10 := by
      rw [← exp_neg, ← exp_nat_mul]; norm_num
    rw [a]
    have : exp 1 ≤ 3 := by have := exp_one_lt_d9; linarith
    gcongr
    rw [one_div]
    gcongr
  have h4 : (2 : ℝ) ^ (-30 : ℤ) ≤ bfFloor (3 / 8) (5 / 2) 1 2 := by
    unfold bfFloor
    calc (2 : ℝ) ^ (-30 : ℤ) ≤ (2 * (3 / 8) ^ 3 / (3 * 16)) * (1 / 3 : ℝ) ^ 10 := by norm_num
      _ ≤ _ := by
        apply mul_le_mul _ h3 (by positivity) (le_min (by positivity) (by positivity))
        exact le_min (le_trans (by norm_num) h1) h2
  have h5 : tiny < (2 : ℝ) ^ (-30 : ℤ) := by
    unfold tiny
    exact zpow_lt_zpow_right₀ (by norm_num) (by norm_num)
  have h6 : (0 : ℝ) < 2 ^ (-30 : ℤ) := by positivity
  generalize (2 : ℝ) ^ (-30 : ℤ) = x at h4 h5 h6
  generalize bfFloor (3 / 8) (5 / 2) 1 2 = y at h4
  linarith

/-- C76 on this object: with any positive threshold on the divergence and `maxiter` large enough, the
run from coefficients `1, 1` and exponents `1, 2` converges to coefficients that sum to 3. -/
example (dT : ℝ) (hd : 0 < dT) : ∃ F, FPI.init (.radial ⟨fins [1, 2]⟩) (fins [1, 1]) (.atom convAtom)
      (XR.fin 0) (some (XR.fin 3)) false = .ok F ∧
    ∃ n₀ : ℝ, ∀ maxiter : ℤ, n₀ < maxiter → ∃ r c', F.run (.arr (ND.vec (fins [1, 1])))
      (.arr (ND.vec (fins [1, 2]))) ⟨true, true, maxiter, XR.fin 0, XR.fin 0, XR.fin dT⟩ = .ok r ∧
      r.success = true ∧ r.coeffs = fins c' ∧ (r.performance ≠ [] → c'.sum = 3) := by
  obtain ⟨F, h1, h2⟩ := conv_isFPI
  have hrad : ∀ k < 2, ∀ i < 2, (1 : ℝ) ≤ |(atomShape [1, 2] 1 1).rad k i| ∧
      |(atomShape [1, 2] 1 1).rad k i| ≤ 2 := by
    intro k _ i hi
    interval_cases i <;> norm_num [atomShape, vec]
  have hW : ∀ i < 2, 0 ≤ vec [1 / 2, 1 / 2] i := by
    intro i hi; interval_cases i <;> norm_num [vec]
  have hmin : min 3 ([1, 1] : List ℝ).sum = 2 := by norm_num
  refine ⟨F, h1, 2 + (klTotal (atomShape [1, 2] 1 1) 2 (vec [1 / 2, 1 / 2]) (fun _ => 1) 0 [1, 1] [1, 2] +
    (∑ i ∈ range 2, vec [1 / 2, 1 / 2] i * 1) / 3 * |([1, 1] : List ℝ).sum - 3| -
      klFloor 2 (vec [1 / 2, 1 / 2]) (fun _ => 1) 1 (max 3 ([1, 1] : List ℝ).sum)) / dT, fun maxiter hm => ?_⟩
  obtain ⟨r, c', e', k1, k2, k3, -, -, k6, -⟩ := C76_a_priori h2 hW (by norm_num)
    (fun k _ => ⟨0, by norm_num, by norm_num [vec], by norm_num, by norm_num [atomShape, vec]⟩)
    (fun i _ => ⟨one_pos, zero_le_one⟩) 1 2 (3 / 8) (5 / 2) one_pos hrad (by norm_num) (by norm_num)
    (by norm_num) ⟨true, true, maxiter, XR.fin 0, XR.fin 0, XR.fin dT⟩ (Or.inl rfl) dT rfl hd [1, 1] [1, 2]
    ⟨rfl, rfl, by simp, by simp⟩
    (by intro k hk; have hk : k < 2 := hk; interval_cases k <;> norm_num [vec])
    (by
      intro i _
      rw [hmin]
      exact ⟨mul_pos two_pos (bfFloor_pos (by norm_num) one_pos), by rw [one_mul]; exact conv_floor⟩) hm
  exact ⟨r, c', k1, k2, k3, k6 rfl⟩

end
end BFit
