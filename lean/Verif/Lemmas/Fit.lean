import Verif.Lemmas.GModel
import Verif.Lemmas.Measure
import Verif.Lemmas.Weights

/-! Fit objects on finite data: integrals are weighted sums over the grid points. -/

namespace BFit

open Real Classical

noncomputable section

/-- The list of the first `n` values of a function. -/
abbrev tab (n : ℕ) (f : ℕ → ℝ) : List ℝ := (List.range n).map f

theorem tab_length (n : ℕ) (f : ℕ → ℝ) : (tab n f).length = n := by simp

theorem tab_getD (n : ℕ) (f : ℕ → ℝ) (k : ℕ) (hk : k < n) : (tab n f).getD k 0 = f k := by
  simp [tab, List.getD_eq_getElem?_getD, hk]

theorem vec_tab {n : ℕ} {f : ℕ → ℝ} {k : ℕ} (hk : k < n) : vec (tab n f) k = f k := tab_getD n f k hk

theorem zipWith_tab {op : XR → XR → XR} {g : ℝ → ℝ → ℝ}
    (h : ∀ a b, op (XR.fin a) (XR.fin b) = XR.fin (g a b)) (n : ℕ) (u v : ℕ → ℝ) :
    List.zipWith op (fins (tab n u)) (fins (tab n v)) = fins (tab n fun i => g (u i) (v i)) := by
  rw [zipWith_fins h]
  congr 1
  rw [List.zipWith_map, List.zipWith_self]

theorem map_tab {op : XR → XR} {g : ℝ → ℝ} (h : ∀ a, op (XR.fin a) = XR.fin (g a)) (n : ℕ)
    (u : ℕ → ℝ) : (fins (tab n u)).map op = fins (tab n fun i => g (u i)) := by
  simp only [fins, tab, List.map_map]
  apply List.map_congr_left
  intro i _
  simp [h]

/-- `self.integrate` of a fit is the weighted sum with weights `W` over `N` points. -/
structure Quad (grid : Grid) (spherical : Bool) (N : ℕ) (W : ℕ → ℝ) : Prop where
  fin : ∀ f : ℕ → ℝ, integrateOn grid spherical (fins (tab N f)) =
    .ok (XR.fin (∑ i ∈ Finset.range N, W i * f i))
  ok : ∀ l : List XR, l.length = N → ∃ v, integrateOn grid spherical l = .ok v

/-- One weight per point: all radial grids, and the cubic grids with a non-negative shape (`C07_weights`;
for the others see `C07_negative_shape`). -/
def Grid.Full : Grid → Prop
  | .radial _ => True
  | .cubic g => g.weights.length = g.points.length

/-- Whether `integrate` raises depends on the length of the array only. -/
theorem grid_integrate_of {g : Grid} {l l' : List XR} {v : XR} (h : g.integrate (ND.vec l) = .ok v)
    (hl : l.length = l'.length) : ∃ v', g.integrate (ND.vec l') = .ok v' := by
  cases g with
  | radial g =>
    simp only [Grid.integrate, RadialGrid.integrate, ND.vec, hl, raise] at h ⊢
    split_ifs at h with a
    exact ⟨_, if_neg a⟩
  | cubic g =>
    simp only [Grid.integrate, CubicGrid.integrate, ND.vec, hl, raise] at h ⊢
    split_ifs at h with a b c d
    · exact ⟨_, (if_neg a).trans (if_pos b)⟩
    · exact ⟨_, (if_neg a).trans ((if_neg b).trans (if_pos c))⟩
    · exact ⟨_, (if_neg a).trans ((if_neg b).trans ((if_neg c).trans (if_pos d)))⟩

theorem grid_integrate_ok (g : Grid) (hg : g.Full) (l : List XR) (h : l.length = g.len) :
    ∃ v, g.integrate (ND.vec l) = .ok v := by
  cases g with
  | radial g =>
    simp only [Grid.len] at h
    have hs : (ND.vec l).shape = [g.points.length] := by simp [ND.vec, h]
    simp only [Grid.integrate, RadialGrid.integrate]
    rw [if_neg (by simp [hs])]
    exact ⟨_, rfl⟩
  | cubic g =>
    simp only [Grid.len] at h
    simp only [Grid.Full] at hg
    simp only [Grid.integrate, CubicGrid.integrate]
    rw [if_neg (by simp [ND.vec, h]), if_pos hg]
    exact ⟨_, rfl⟩

theorem wsum_tab (w : List ℝ) (f : ℕ → ℝ) :
    wsum w (tab w.length f) = ∑ i ∈ Finset.range w.length, vec w i * f i := by
  rw [wsum_eq_range_sum _ _ (by simp)]
  apply Finset.sum_congr rfl
  intro i hi
  rw [tab_getD _ _ _ (Finset.mem_range.mp hi)]
  rfl

/-- Plain integration. -/
theorem quad_plain {g : Grid} {w : List ℝ} (h : HasWeights g w) : Quad g false w.length (vec w) := by
  constructor
  · intro f
    unfold integrateOn
    rw [if_neg (by simp), h.2 _ (by simp), wsum_tab]
  · intro l hl
    unfold integrateOn
    rw [if_neg (by simp)]
    exact grid_integrate_of (h.2 (List.replicate w.length 0) (by simp)) (by simp [hl])

/-- Spherical integration on a radial grid. -/
theorem quad_spherical (x : List ℝ) :
    Quad (.radial ⟨fins x⟩) true x.length (fun i => vec (trapW x) i * (4 * π * vec x i ^ 2)) := by
  have hb : ∀ l : List XR, l.length = x.length →
      bcast (· * ·) (l.map (fun y => y * XR.fin 4 * XR.fin π)) ((fins x).map (fun p => XR.pow p 2)) =
        .ok (List.zipWith (· * ·) (l.map (fun y => y * XR.fin 4 * XR.fin π))
          ((fins x).map (fun p => XR.pow p 2))) := by
    intro l hl
    unfold bcast
    rw [if_pos (by simp [hl])]
  constructor
  · intro f
    unfold integrateOn
    rw [if_pos rfl]
    simp only
    rw [hb _ (by simp)]
    simp only
    have e1 : (fins x).map (fun p => XR.pow p 2) = fins (tab x.length fun i => vec x i ^ 2) := by
      conv_lhs => rw [eq_range_map x x.length rfl]
      rw [map_tab (g := fun a => a ^ 2) (by intro a; simp)]
    rw [e1, map_tab (g := fun a => a * 4 * π) (by intro a; simp),
      zipWith_tab (g := fun a b => a * b) (by simp)]
    have hw := (hasWeights_radial x).2 (tab x.length fun i => f i * 4 * π * vec x i ^ 2)
      (by simp [trapW_length])
    rw [hw]
    congr 2
    have := wsum_tab (trapW x) (fun i => f i * 4 * π * vec x i ^ 2)
    rw [trapW_length] at this
    rw [this]
    apply Finset.sum_congr rfl
    intro i _
    ring
  · intro l hl
    unfold integrateOn
    rw [if_pos rfl]
    simp only
    rw [hb _ hl]
    exact grid_integrate_ok (.radial _) trivial _ (by simp [Grid.len, hl])

theorem vec_nonneg {w : List ℝ} (hw : ∀ c ∈ w, 0 ≤ c) (i : ℕ) : 0 ≤ vec w i := getD_nonneg hw i

theorem spherical_weights_nonneg {x : List ℝ} (hx : x.Pairwise (· ≤ ·)) (i : ℕ) :
    0 ≤ vec (trapW x) i * (4 * π * vec x i ^ 2) :=
  mul_nonneg (vec_nonneg (trapW_nonneg x hx) i) (by positivity)

/-- A fit object on finite data: model with flat description `S`, density values `f`, quadrature
weights `W`, `N` grid points. -/
structure FitData (F : Fit) (norm : Bool) (S : Shape) (N : ℕ) (W f : ℕ → ℝ) : Prop where
  model : IsModel F.model norm S N
  dens : F.density = fins (tab N f)
  quad : Quad F.grid F.spherical N W

/-- The measures on tables. -/
theorem kl_core_tab (μ : ℝ) (nv : XR) (N : ℕ) (f g : ℕ → ℝ) (hf : ∀ i < N, 0 < f i)
    (hg : ∀ i < N, 0 ≤ g i) (b : Bool) :
    ((KL.mk (XR.fin μ) nv).core (fins (tab N f)) (fins (tab N g)) b).1 =
      fins (tab N fun i => klVal μ (f i) (g i)) := by
  rw [kl_core_fins]
  · congr 1
    rw [List.zipWith_map, List.zipWith_self]
  · intro x hx
    obtain ⟨i, hi, rfl⟩ := List.mem_map.mp hx
    exact hf i (List.mem_range.mp hi)
  · intro x hx
    obtain ⟨i, hi, rfl⟩ := List.mem_map.mp hx
    exact hg i (List.mem_range.mp hi)

theorem kl_core_tab_deriv (μ : ℝ) (nv : XR) (N : ℕ) (f g : ℕ → ℝ) (hf : ∀ i < N, 0 ≤ f i)
    (hg : ∀ i < N, 0 ≤ g i) :
    ((KL.mk (XR.fin μ) nv).core (fins (tab N f)) (fins (tab N g)) true).2 =
      some (fins (tab N fun i => -klRatio μ (f i) (g i))) := by
  have hg' : ∀ x ∈ tab N g, 0 ≤ x := by
    intro x hx
    obtain ⟨i, hi, rfl⟩ := List.mem_map.mp hx
    exact hg i (List.mem_range.mp hi)
  have hf' : ∀ x ∈ tab N f, 0 ≤ x := by
    intro x hx
    obtain ⟨i, hi, rfl⟩ := List.mem_map.mp hx
    exact hf i (List.mem_range.mp hi)
  unfold KL.core
  rw [if_neg (no_neg_fins hg')]
  simp only [if_true, Option.some.injEq]
  rw [kl_ratio_fins μ nv _ _ hf' hg', List.zipWith_map, List.zipWith_self,
    map_tab (g := fun a => -a) (by simp)]

theorem sq_core_tab (N : ℕ) (f g : ℕ → ℝ) (b : Bool) :
    sqCore (fins (tab N f)) (fins (tab N g)) b =
      (fins (tab N fun i => (f i - g i) ^ 2),
        if b then some (fins (tab N fun i => -2 * (f i - g i))) else none) := by
  unfold sqCore
  rw [zipWith_tab (g := fun a b => a - b) (by simp)]
  simp only
  rw [map_tab (g := fun a => a ^ 2) (by intro a; simp), map_tab (g := fun a => -2 * a) (by simp)]

/-- The list of absolute differences and its maximum. -/
theorem npMax_tab {N : ℕ} (hN : 0 < N) (f : ℕ → ℝ) :
    ∃ M, npMax (fins (tab N f)) = .ok (XR.fin M) ∧ (∃ i < N, f i = M) ∧ ∀ i < N, f i ≤ M := by
  have hne : tab N f ≠ [] := by
    intro h
    have := congrArg List.length h
    simp at this
    omega
  obtain ⟨M, hM, h1, h2⟩ := npMax_fins hne
  obtain ⟨i, hi, rfl⟩ := List.mem_map.mp hM
  refine ⟨f i, h1, ⟨i, List.mem_range.mp hi, rfl⟩, ?_⟩
  intro j hj
  exact h2 _ (List.mem_map.mpr ⟨j, List.mem_range.mpr hj, rfl⟩)

/-- `goodness_of_fit` on finite data. -/
theorem goodness_fins {F : Fit} {norm : Bool} {S : Shape} {N : ℕ} {W f : ℕ → ℝ}
    (h : FitData F norm S N W f) (hN : 0 < N) (c e : List ℝ) (hc : c.length = S.nb)
    (he : e.length = S.nb) (hpos : norm = true → ∀ a ∈ e, 0 ≤ a) :
    ∃ (M : ℝ) (kl : XR),
      F.goodness (fins c) (fins e) = .ok
        ⟨XR.fin (∑ i ∈ Finset.range N, W i * S.dens norm (vec c) (vec e) i),
         XR.fin (∑ i ∈ Finset.range N, W i * |f i - S.dens norm (vec c) (vec e) i|), XR.fin M,
         XR.fin (∑ i ∈ Finset.range N, W i * (f i - S.dens norm (vec c) (vec e) i) ^ 2), kl⟩ ∧
      (∃ i < N, |f i - S.dens norm (vec c) (vec e) i| = M) ∧
      (∀ i < N, |f i - S.dens norm (vec c) (vec e) i| ≤ M) ∧
      (∀ μ, F.maskValue = XR.fin μ → (∀ i < N, 0 < f i) →
        (∀ i < N, 0 ≤ S.dens norm (vec c) (vec e) i) →
        kl = XR.fin (∑ i ∈ Finset.range N, W i * klVal μ (f i) (S.dens norm (vec c) (vec e) i))) := by
  set g := S.dens norm (vec c) (vec e) with hg
  obtain ⟨M, hM, h1, h2⟩ := npMax_tab hN (fun i => |f i - g i|)
  have hlen : (F.klError.core (fins (tab N f)) (fins (tab N g)) false).1.length = N := by
    unfold KL.core
    split <;> simp [KL.ratio]
  obtain ⟨kl, hkl⟩ := h.quad.ok _ hlen
  refine ⟨M, kl, ?_, h1, h2, ?_⟩
  · unfold Fit.goodness
    rw [h.model.eval c e false hc he hpos]
    simp only
    rw [h.dens]
    have hb : bcast (· - ·) (fins (tab N f)) (fins (tab N g)) =
        .ok (fins (tab N fun i => f i - g i)) := by
      unfold bcast
      rw [if_pos (by simp), zipWith_tab (g := fun a b => a - b) (by simp)]
    rw [hb]
    simp only
    rw [map_tab (g := fun a => |a|) (by simp)]
    simp only [Fit.integrate]
    rw [h.quad.fin, h.quad.fin]
    simp only
    rw [hM, sq_evaluate_vec _ _ (by simp), sq_core_tab]
    simp only
    rw [h.quad.fin, kl_evaluate_vec _ _ _ (by simp)]
    simp only
    rw [hkl]
  · intro μ hμ hf hgn
    have hk : F.klError = ⟨XR.fin μ, XR.fin 100000⟩ := by simp [Fit.klError, hμ]
    rw [hk, kl_core_tab μ _ N f g hf hgn, h.quad.fin] at hkl
    injection hkl with hkl
    exact hkl.symm

end
end BFit
