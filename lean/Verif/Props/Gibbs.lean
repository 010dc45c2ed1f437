import Verif.Props.Measure
import Verif.Lemmas.Weights
import Mathlib.Analysis.Convex.SpecificFunctions.Basic

/-! Properties C26 and C30: integrated divergences. -/

namespace BFit

open Real Classical

noncomputable section

/-- Pointwise Gibbs inequality. -/
theorem sub_le_klInt {f g : ℝ} (hf : 0 < f) (hg : 0 < g) : f - g ≤ klInt f g := by
  unfold klInt
  have h := one_sub_inv_le_log_of_pos (div_pos hf hg)
  have h2 := mul_le_mul_of_nonneg_left h hf.le
  have e : f * (1 - (f / g)⁻¹) = f - g := by field_simp
  linarith

/-- Equality in the pointwise Gibbs inequality. -/
theorem klInt_eq_sub {f g : ℝ} (hf : 0 < f) (hg : 0 < g) (h : klInt f g = f - g) : f = g := by
  by_contra hne
  have hq : 0 < g / f := div_pos hg hf
  have h1 : g / f ≠ 1 := by
    intro h1
    rw [div_eq_one_iff_eq hf.ne'] at h1
    exact hne h1.symm
  have h2 := log_lt_sub_one_of_pos hq h1
  unfold klInt at h
  have e : log (f / g) = - log (g / f) := by rw [← log_inv, inv_div]
  rw [e] at h
  have h3 := mul_lt_mul_of_pos_left h2 hf
  have e2 : f * (g / f - 1) = g - f := by field_simp
  linarith

/-- Pointwise Tsallis version of the Gibbs inequality (Bernoulli). -/
theorem sub_le_tsInt {α f g : ℝ} (h0 : 0 ≤ α) (h1 : α ≠ 1) (hf : 0 < f) (hg : 0 < g) :
    f - g ≤ tsInt α f g := by
  unfold tsInt
  have hq : 0 < f / g := div_pos hf hg
  have hs : α - 1 ≠ 0 := sub_ne_zero.mpr h1
  have e0 : (f / g) ^ (α - 1) = (f / g) ^ α / (f / g) := by rw [rpow_sub hq, rpow_one]
  have e1 : f * ((f / g) ^ (α - 1) - 1) / (α - 1) - (f - g) =
      g * (((f / g) ^ α - (1 + α * (f / g - 1))) / (α - 1)) := by
    rw [e0]; field_simp; ring
  have h2 : 0 ≤ ((f / g) ^ α - (1 + α * (f / g - 1))) / (α - 1) := by
    have hb : (-1 : ℝ) ≤ f / g - 1 := by linarith
    have e2 : (f / g) ^ α = (1 + (f / g - 1)) ^ α := by congr 1; ring
    rcases lt_or_gt_of_ne h1 with h | h
    · apply div_nonneg_of_nonpos
      · have := rpow_one_add_le_one_add_mul_self hb h0 h.le
        rw [e2]; linarith
      · linarith
    · apply div_nonneg
      · have := one_add_mul_self_le_rpow_one_add hb h.le
        rw [e2]; linarith
      · linarith
  have h3 := mul_nonneg hg.le h2
  linarith

/-- Density and model lists that are positive and unmasked everywhere. -/
def AllUnmasked (μ : ℝ) (f g : List ℝ) : Prop :=
  List.Forall₂ (fun x y => 0 < x ∧ Unmasked μ x y) f g

theorem AllUnmasked.klVal {μ : ℝ} {f g : List ℝ} (h : AllUnmasked μ f g) :
    List.zipWith (klVal μ) f g = List.zipWith klInt f g := by
  induction h with
  | nil => rfl
  | cons h _ ih => simp only [List.zipWith_cons_cons, klVal_unmasked h.2, ih]

theorem AllUnmasked.pos_left {μ : ℝ} {f g : List ℝ} (h : AllUnmasked μ f g) : ∀ x ∈ f, 0 < x := by
  induction h with
  | nil => simp
  | cons h _ ih =>
    intro z hz
    rcases List.mem_cons.mp hz with rfl | hz
    · exact h.1
    · exact ih z hz

theorem AllUnmasked.pos_right {μ : ℝ} {f g : List ℝ} (h : AllUnmasked μ f g) : ∀ x ∈ g, 0 < x := by
  induction h with
  | nil => simp
  | cons h _ ih =>
    intro z hz
    rcases List.mem_cons.mp hz with rfl | hz
    · exact unmasked_pos h.1.le h.2
    · exact ih z hz

theorem AllUnmasked.length_eq {μ : ℝ} {f g : List ℝ} (h : AllUnmasked μ f g) : g.length = f.length :=
  (List.Forall₂.length_eq h).symm

theorem AllUnmasked.kl_evaluate {μ : ℝ} {nv : XR} {f g : List ℝ} (h : AllUnmasked μ f g) :
    (KL.mk (XR.fin μ) nv).evaluate (.arr (ND.vec (fins f))) (.arr (ND.vec (fins g))) (.bool false) =
      .ok (fins (List.zipWith klInt f g), none) := by
  rw [kl_evaluate_vec _ _ _ (by simp [h.length_eq])]
  have h1 := kl_core_fins μ nv f g h.pos_left (fun x hx => (h.pos_right x hx).le) false
  rw [h.klVal] at h1
  congr 1
  refine Prod.ext h1 ?_
  unfold KL.core
  split <;> rfl

theorem wsum_sub (w f g : List ℝ) (hf : f.length = w.length) (hg : g.length = w.length) :
    wsum w (List.zipWith (fun x y => x - y) f g) = wsum w f - wsum w g := by
  have := wsum_linear w f g 1 (-1) hf hg
  simp only [one_mul, neg_one_mul, ← sub_eq_add_neg] at this
  exact this

theorem forall₂_zipWith_le {P : ℝ → ℝ → Prop} {u v : ℝ → ℝ → ℝ} {f g : List ℝ}
    (hP : ∀ x y, P x y → u x y ≤ v x y) (h : List.Forall₂ P f g) :
    List.Forall₂ (· ≤ ·) (List.zipWith u f g) (List.zipWith v f g) := by
  induction h with
  | nil => simp
  | cons h _ ih => exact List.Forall₂.cons (hP _ _ h) ih

/-- **C26**.  On a grid with non-negative weights, for a positive density and a model that is unmasked
everywhere: the integral of the KL integrand is finite and at least
`integrate(density) - integrate(model)`, hence non-negative if the model does not integrate to more
than the density. -/
theorem C26_gibbs (gr : Grid) (w : List ℝ) (hgr : HasWeights gr w) (hw : ∀ c ∈ w, 0 ≤ c)
    (μ : ℝ) (nv : XR) (f g : List ℝ) (hl : f.length = w.length) (hfg : AllUnmasked μ f g) :
    ∃ (v : List XR) (K F G : ℝ),
      (KL.mk (XR.fin μ) nv).evaluate (.arr (ND.vec (fins f))) (.arr (ND.vec (fins g))) (.bool false) =
        .ok (v, none) ∧
      gr.integrate (ND.vec v) = .ok (XR.fin K) ∧
      gr.integrate (ND.vec (fins f)) = .ok (XR.fin F) ∧
      gr.integrate (ND.vec (fins g)) = .ok (XR.fin G) ∧
      F - G ≤ K ∧ (G ≤ F → 0 ≤ K) := by
  have hlg : g.length = w.length := by rw [hfg.length_eq, hl]
  have hineq : wsum w f - wsum w g ≤ wsum w (List.zipWith klInt f g) := by
    rw [← wsum_sub w f g hl hlg]
    exact wsum_mono _ _ _ hw (forall₂_zipWith_le
      (fun x y h => sub_le_klInt h.1 (unmasked_pos h.1.le h.2)) hfg)
  exact ⟨_, _, _, _, hfg.kl_evaluate, hgr.2 _ (by simp [hl, hlg]), hgr.2 _ hl, hgr.2 _ hlg, hineq,
    fun h => by linarith⟩

/-- **C26** (zero).  When the weights are positive and the two integrals agree, the integrated
divergence is zero exactly when the model equals the density at every grid point. -/
theorem C26_zero_iff (gr : Grid) (w : List ℝ) (hgr : HasWeights gr w) (hw : ∀ c ∈ w, 0 < c)
    (μ : ℝ) (nv : XR) (f g : List ℝ) (hl : f.length = w.length) (hfg : AllUnmasked μ f g)
    (I : XR) (hF : gr.integrate (ND.vec (fins f)) = .ok I)
    (hG : gr.integrate (ND.vec (fins g)) = .ok I) :
    ∃ v, (KL.mk (XR.fin μ) nv).evaluate (.arr (ND.vec (fins f))) (.arr (ND.vec (fins g)))
        (.bool false) = .ok (v, none) ∧
      (gr.integrate (ND.vec v) = .ok (XR.fin 0) ↔ g = f) := by
  have hlg : g.length = w.length := by rw [hfg.length_eq, hl]
  refine ⟨_, hfg.kl_evaluate, ?_⟩
  rw [hgr.2 _ (by simp [hl, hlg])]
  rw [hgr.2 _ hl] at hF
  rw [hgr.2 _ hlg] at hG
  have hE : wsum w f = wsum w g := by
    injection hF with hF; injection hG with hG
    exact XR.fin_inj.mp (hF.trans hG.symm)
  constructor
  · intro h
    injection h with h
    have h0 : wsum w (List.zipWith klInt f g) = 0 := XR.fin_inj.mp h
    set δ := List.zipWith (fun x y => klInt x y - (x - y)) f g with hδ
    have h1 : wsum w δ = 0 := by
      have e : δ = List.zipWith (fun x y => x - y) (List.zipWith klInt f g)
          (List.zipWith (fun x y => x - y) f g) := by
        rw [hδ]
        clear_value δ
        clear hδ h0 h hE hF hG hlg hfg hl
        induction f generalizing g with
        | nil => simp
        | cons x f ih => cases g with
          | nil => simp
          | cons y g => simp [ih g]
      rw [e, wsum_sub _ _ _ (by simp [hl, hlg]) (by simp [hl, hlg]), h0, wsum_sub _ _ _ hl hlg, hE]
      ring
    have hnn : ∀ c ∈ δ, 0 ≤ c := by
      rw [hδ]
      clear_value δ
      clear h1 hδ h0 h hE hF hG hlg hl
      induction hfg with
      | nil => simp
      | cons hab _ ih =>
        intro c hc
        rcases List.mem_cons.mp hc with rfl | hc
        · have := sub_le_klInt hab.1 (unmasked_pos hab.1.le hab.2)
          linarith
        · exact ih c hc
    have hz := wsum_eq_zero hw hnn (by simp [hδ, hl, hlg]) h1
    rw [hδ] at hz
    clear_value δ
    clear hnn h1 hδ h0 h hE hF hG hlg hl
    induction hfg with
    | nil => rfl
    | cons hab _ ih =>
      have h2 := hz _ (List.mem_cons_self ..)
      rw [klInt_eq_sub hab.1 (unmasked_pos hab.1.le hab.2) (by linarith)]
      rw [ih (fun c hc => hz c (List.mem_cons_of_mem _ hc))]
  · rintro rfl
    congr 2
    have : List.zipWith klInt g g = List.replicate g.length 0 := by
      rw [List.zipWith_self]
      refine List.eq_replicate_iff.mpr ⟨by simp, ?_⟩
      intro b hb
      obtain ⟨x, hx, rfl⟩ := List.mem_map.mp hb
      unfold klInt
      rw [div_self (hfg.pos_left x hx).ne', log_one, mul_zero]
    rw [this]
    rw [hl]
    clear this hfg hF hG hlg hE hl hgr hw
    induction w with
    | nil => simp
    | cons c w ih => simp [List.replicate_succ, ih]

/-- Two densities of equal integral on a three-point radial grid meet the hypotheses of C26. -/
example : HasWeights (.radial ⟨fins [0, 1, 2]⟩) (trapW [0, 1, 2]) ∧
    (∀ c ∈ trapW [0, 1, 2], (0 : ℝ) < c) ∧ AllUnmasked 0 [1, 2, 3] [3, 2, 1] ∧
    wsum (trapW [0, 1, 2]) [1, 2, 3] = wsum (trapW [0, 1, 2]) [3, 2, 1] := by
  have ht : tiny ≤ 1 / 4 := by
    unfold tiny
    calc (2 : ℝ) ^ (-1022 : ℤ) ≤ 2 ^ (-2 : ℤ) := zpow_le_zpow_right₀ (by norm_num) (by norm_num)
      _ = 1 / 4 := by norm_num
  refine ⟨hasWeights_radial _, ?_, ?_, ?_⟩
  · simp [trapW, trapWAux]; norm_num
  · refine .cons ⟨by norm_num, by norm_num, ?_⟩ (.cons ⟨by norm_num, by norm_num, ?_⟩
      (.cons ⟨by norm_num, by norm_num, ?_⟩ .nil)) <;> linarith
  · simp [trapW, trapWAux]; norm_num

/-- **C30**.  For every alpha accepted by the constructor, on a grid with non-negative weights, for a
positive density and a model that is unmasked everywhere: the integrated Tsallis divergence is finite
and at least `integrate(density) - integrate(model)`, hence non-negative for equal integrals. -/
theorem C30_tsallis_nonneg (gr : Grid) (w : List ℝ) (hgr : HasWeights gr w) (hw : ∀ c ∈ w, 0 ≤ c)
    (α μ : ℝ) (t : Tsallis) (ht : Tsallis.init α (XR.fin μ) = .ok t) (f g : List ℝ)
    (hl : f.length = w.length) (hfg : AllUnmasked μ f g) :
    ∃ (v : List XR) (T F G : ℝ),
      t.evaluate (.arr (ND.vec (fins f))) (.arr (ND.vec (fins g))) (.bool false) = .ok (v, none) ∧
      gr.integrate (ND.vec v) = .ok (XR.fin T) ∧
      gr.integrate (ND.vec (fins f)) = .ok (XR.fin F) ∧
      gr.integrate (ND.vec (fins g)) = .ok (XR.fin G) ∧
      F - G ≤ T ∧ (G = F → 0 ≤ T) := by
  have hlg : g.length = w.length := by rw [hfg.length_eq, hl]
  have hα : 0 ≤ α ∧ 1e-10 ≤ |α - 1| := by
    by_contra h
    rw [(C27_construction α (XR.fin μ)).2 h] at ht
    simp at ht
  have hα1 : α ≠ 1 := by
    rintro rfl
    norm_num at hα
  have htt : t = ⟨α, XR.fin μ⟩ := by
    rw [(C27_construction α (XR.fin μ)).1 hα] at ht
    injection ht with ht
    exact ht.symm
  subst htt
  have hcore : (Tsallis.core ⟨α, XR.fin μ⟩ (fins f) (fins g) false) =
      (fins (List.zipWith (tsInt α) f g), none) := by
    unfold Tsallis.core
    refine Prod.ext ?_ rfl
    simp only
    clear hlg hl hgr ht
    induction hfg with
    | nil => rfl
    | cons hab _ ih =>
      simp only [List.zipWith_cons_cons, List.map_cons]
      rw [ts_entry hab.1 hab.2 hα1, ih]
  have hineq : wsum w f - wsum w g ≤ wsum w (List.zipWith (tsInt α) f g) := by
    rw [← wsum_sub w f g hl hlg]
    exact wsum_mono _ _ _ hw (forall₂_zipWith_le
      (fun x y h => sub_le_tsInt hα.1 hα1 h.1 (unmasked_pos h.1.le h.2)) hfg)
  refine ⟨fins (List.zipWith (tsInt α) f g), _, _, _, ?_, hgr.2 _ (by simp [hl, hlg]), hgr.2 _ hl,
    hgr.2 _ hlg, hineq, fun h => by linarith⟩
  rw [ts_evaluate_vec _ _ _ (by simp [hl, hlg]), hcore]

end
end BFit
