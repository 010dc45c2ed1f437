import Verif.Props.FPI

/-! Derivatives of the model density in one coefficient or exponent. -/

namespace BFit

open Real Classical Finset Topology

noncomputable section

theorem vec_set (l : List ℝ) (k j : ℕ) (t : ℝ) (hk : k < l.length) :
    vec (l.set k t) j = if j = k then t else vec l j := getD_set l k j t hk

theorem dens_set_c (S : Shape) (norm : Bool) (c e : List ℝ) (hc : c.length = S.nb) (k i : ℕ)
    (hk : k < S.nb) (t : ℝ) :
    S.dens norm (vec (c.set k t)) (vec e) i =
      S.dens norm (vec c) (vec e) i + (t - vec c k) * bf (S.isS k) norm (vec e k) (S.rad k i) := by
  unfold Shape.dens
  rw [← Finset.add_sum_erase _ _ (mem_range.mpr hk), ← Finset.add_sum_erase _ _ (mem_range.mpr hk)]
  rw [vec_set c k k t (hc ▸ hk), if_pos rfl]
  have : ∑ j ∈ (range S.nb).erase k, vec (c.set k t) j * bf (S.isS j) norm (vec e j) (S.rad j i) =
      ∑ j ∈ (range S.nb).erase k, vec c j * bf (S.isS j) norm (vec e j) (S.rad j i) :=
    Finset.sum_congr rfl fun j hj => by
      rw [vec_set c k j t (hc ▸ hk), if_neg (Finset.ne_of_mem_erase hj)]
  rw [this]
  ring

theorem dens_set_e (S : Shape) (norm : Bool) (c e : List ℝ) (he : e.length = S.nb) (k i : ℕ)
    (hk : k < S.nb) (t : ℝ) :
    S.dens norm (vec c) (vec (e.set k t)) i =
      S.dens norm (vec c) (vec e) i +
        vec c k * (bf (S.isS k) norm t (S.rad k i) - bf (S.isS k) norm (vec e k) (S.rad k i)) := by
  unfold Shape.dens
  rw [← Finset.add_sum_erase _ _ (mem_range.mpr hk), ← Finset.add_sum_erase _ _ (mem_range.mpr hk)]
  rw [vec_set e k k t (he ▸ hk), if_pos rfl]
  have : ∑ j ∈ (range S.nb).erase k, vec c j * bf (S.isS j) norm (vec (e.set k t) j) (S.rad j i) =
      ∑ j ∈ (range S.nb).erase k, vec c j * bf (S.isS j) norm (vec e j) (S.rad j i) :=
    Finset.sum_congr rfl fun j hj => by
      rw [vec_set e k j t (he ▸ hk), if_neg (Finset.ne_of_mem_erase hj)]
  rw [this]
  ring

theorem hasDerivAt_dens_c (S : Shape) (norm : Bool) (c e : List ℝ) (hc : c.length = S.nb) (k i : ℕ)
    (hk : k < S.nb) :
    HasDerivAt (fun t => S.dens norm (vec (c.set k t)) (vec e) i)
      (bf (S.isS k) norm (vec e k) (S.rad k i)) (vec c k) := by
  have h1 : (fun t => S.dens norm (vec (c.set k t)) (vec e) i) = fun t =>
      S.dens norm (vec c) (vec e) i + (t - vec c k) * bf (S.isS k) norm (vec e k) (S.rad k i) := by
    funext t; exact dens_set_c S norm c e hc k i hk t
  rw [h1]
  have := (((hasDerivAt_id (vec c k)).sub_const (vec c k)).mul_const
    (bf (S.isS k) norm (vec e k) (S.rad k i))).const_add (S.dens norm (vec c) (vec e) i)
  refine HasDerivAt.congr_deriv this ?_
  simp

theorem hasDerivAt_dens_e (S : Shape) (norm : Bool) (c e : List ℝ) (he : e.length = S.nb) (k i : ℕ)
    (hk : k < S.nb) (hpos : norm = true → 0 < vec e k) :
    HasDerivAt (fun t => S.dens norm (vec c) (vec (e.set k t)) i)
      (vec c k * dbf (S.isS k) norm (vec e k) (S.rad k i)) (vec e k) := by
  have h1 : (fun t => S.dens norm (vec c) (vec (e.set k t)) i) = fun t =>
      S.dens norm (vec c) (vec e) i +
        vec c k * (bf (S.isS k) norm t (S.rad k i) - bf (S.isS k) norm (vec e k) (S.rad k i)) := by
    funext t; exact dens_set_e S norm c e he k i hk t
  rw [h1]
  exact (((hasDerivAt_bf (S.isS k) norm (vec e k) (S.rad k i) hpos).sub_const _).const_mul _).const_add _

/-- The exponent derivative of a normalised basis function. -/
theorem dbf_eq (S : Shape) (k : ℕ) {e : ℝ} (r : ℝ) (he : 0 < e) :
    dbf (S.isS k) true e r = bf (S.isS k) true e r * (S.pref k / e - r ^ 2) := by
  unfold Shape.pref
  cases S.isS k
  · simp only [dbf, dpBasis, bf, pBasis, if_true, Bool.false_eq_true, if_false]
    have h5 : e ^ (5 / 2 : ℝ) = e ^ (3 / 2 : ℝ) * e := by
      rw [← rpow_add_one he.ne']; norm_num
    rw [h5]
    have : π ^ (3 / 2 : ℝ) ≠ 0 := (rpow_pos_of_pos pi_pos _).ne'
    field_simp
    ring
  · simp only [dbf, dsBasis, bf, sBasis, if_true]
    have h3 : e ^ (3 / 2 : ℝ) = e ^ (1 / 2 : ℝ) * e := by
      rw [← rpow_add_one he.ne']; norm_num
    rw [div_rpow he.le pi_pos.le, h3]
    have : π ^ (3 / 2 : ℝ) ≠ 0 := (rpow_pos_of_pos pi_pos _).ne'
    field_simp
    ring

/-- An unmasked point stays unmasked nearby. -/
theorem eventually_unmasked {μ f t₀ : ℝ} {g : ℝ → ℝ} (hg : ContinuousAt g t₀) (h : Unmasked μ f (g t₀)) :
    ∀ᶠ t in 𝓝 t₀, Unmasked μ f (g t) :=
  (hg.eventually (lt_mem_nhds h.1)).and (hg.eventually (lt_mem_nhds h.2))

theorem set_vec_self (l : List ℝ) (k : ℕ) (hk : k < l.length) : l.set k (vec l k) = l := by
  have : vec l k = l[k] := by simp [vec, List.getD_eq_getElem?_getD, hk]
  rw [this]
  exact List.set_getElem_self hk

theorem eventually_all {N : ℕ} {P : ℕ → ℝ → Prop} {t₀ : ℝ} (h : ∀ i < N, ∀ᶠ t in 𝓝 t₀, P i t) :
    ∀ᶠ t in 𝓝 t₀, ∀ i < N, P i t := by
  have : ∀ᶠ t in 𝓝 t₀, ∀ i ∈ range N, P i t :=
    (Filter.eventually_all_finset _).mpr fun i hi => h i (mem_range.mp hi)
  exact this.mono fun t ht i hi => ht i (mem_range.mpr hi)

end
end BFit
