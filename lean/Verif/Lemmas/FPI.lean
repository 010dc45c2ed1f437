import Verif.Lemmas.Fit

/-! One update of the fixed-point iteration on finite data. -/

namespace BFit

open Real Classical

noncomputable section

theorem mapPy_ok {α β : Type} {f : α → Py β} {g : α → β} {l : List α}
    (h : ∀ x ∈ l, f x = .ok (g x)) : mapPy f l = .ok (l.map g) := by
  induction l with
  | nil => rfl
  | cons x l ih =>
    unfold mapPy
    rw [h x (by simp)]
    simp only
    rw [ih (fun y hy => h y (by simp [hy]))]
    rfl

/-- Lower average of basis function `k`: the density/model ratio integrated against it. -/
def fpiA (S : Shape) (norm : Bool) (N : ℕ) (W : ℕ → ℝ) (ratio : ℕ → ℝ) (e : ℕ → ℝ) (k : ℕ) : ℝ :=
  ∑ i ∈ Finset.range N, W i * (ratio i * bf (S.isS k) norm (e k) (S.rad k i))

/-- The same with the squared distance. -/
def fpiA2 (S : Shape) (norm : Bool) (N : ℕ) (W : ℕ → ℝ) (ratio : ℕ → ℝ) (e : ℕ → ℝ) (k : ℕ) : ℝ :=
  ∑ i ∈ Finset.range N, W i * (ratio i * bf (S.isS k) norm (e k) (S.rad k i) * S.rad k i ^ 2)

/-- Prefactor of the exponent update. -/
def Shape.pref (S : Shape) (k : ℕ) : ℝ := if S.isS k then 3 / 2 else 5 / 2

theorem Shape.pref_pos (S : Shape) (k : ℕ) : 0 < S.pref k := by
  unfold Shape.pref; split <;> norm_num

/-- Density/model ratio used by the update. -/
def Shape.ratio (S : Shape) (norm : Bool) (μ : ℝ) (f c e : ℕ → ℝ) (i : ℕ) : ℝ :=
  klRatio μ (f i) (S.dens norm c e i)

/-- The averages of one basis function. -/
theorem averages_fins {F : FPI} {norm : Bool} {S : Shape} {N : ℕ} {W f : ℕ → ℝ}
    (h : FitData F.toFit norm S N W f) (q c e : ℕ → ℝ) (ue : Bool) (k : ℕ) (hk : k < S.nb) :
    F.averages (fins (tab N fun i => -q i))
      ((List.range N).map fun i =>
          fins ((List.range S.nb).map (fun k => bf (S.isS k) norm (e k) (S.rad k i)) ++
            (List.range S.nb).map (fun k => c k * dbf (S.isS k) norm (e k) (S.rad k i)))) ue k =
      .ok (XR.fin (fpiA S norm N W q e k),
        if ue then XR.fin (fpiA2 S norm N W q e k) else XR.fin 0) := by
  unfold FPI.averages
  have hcol : ((List.range N).map fun i =>
      fins ((List.range S.nb).map (fun k => bf (S.isS k) norm (e k) (S.rad k i)) ++
        (List.range S.nb).map (fun k => c k * dbf (S.isS k) norm (e k) (S.rad k i)))).map
      (fun row => row.getD k 0) = fins (tab N fun i => bf (S.isS k) norm (e k) (S.rad k i)) := by
    rw [List.map_map]
    simp only [fins, tab, List.map_map]
    apply List.map_congr_left
    intro i _
    simp [List.getD_eq_getElem?_getD, List.getElem?_append_left, hk]
  rw [hcol, map_tab (g := fun a => -a) (by simp), zipWith_tab (g := fun a b => a * b) (by simp)]
  simp only [neg_neg, Fit.integrate]
  rw [h.quad.fin]
  simp only
  cases ue with
  | false => rfl
  | true =>
    simp only [if_true]
    rw [h.model.radii k hk]
    simp only
    rw [map_tab (g := fun a => a ^ 2) (by intro a; simp)]
    have hb : ∀ u v : ℕ → ℝ, bcast (· * ·) (fins (tab N u)) (fins (tab N v)) =
        .ok (fins (tab N fun i => u i * v i)) := by
      intro u v
      unfold bcast
      rw [if_pos (by simp), zipWith_tab (g := fun a b => a * b) (by simp)]
    rw [hb]
    simp only
    rw [h.quad.fin]
    rfl

/-- One call of `_update_params` on finite data with a non-negative model density. -/
theorem updateParams_gen {F : FPI} {norm : Bool} {S : Shape} {N : ℕ} {W f : ℕ → ℝ} {μ L : ℝ}
    (h : FitData F.toFit norm S N W f) (hμ : F.maskValue = XR.fin μ) (hL : F.lm = XR.fin L)
    (hL0 : L ≠ 0) (hf : ∀ i < N, 0 ≤ f i) (c e : List ℝ) (hc : c.length = S.nb)
    (he : e.length = S.nb) (hpos : norm = true → ∀ a ∈ e, 0 ≤ a)
    (hg : ∀ i < N, 0 ≤ S.dens norm (vec c) (vec e) i) (uc ue : Bool) (hu : uc = true ∨ ue = true) :
    F.updateParams (fins c) (fins e) uc ue = .ok
      (fins (tab S.nb fun k => if uc then
          vec c k * fpiA S norm N W (S.ratio norm μ f (vec c) (vec e)) (vec e) k / L else vec c k),
       (List.range S.nb).map fun k => if ue then
          XR.fin (S.pref k * fpiA S norm N W (S.ratio norm μ f (vec c) (vec e)) (vec e) k) /
            XR.fin (fpiA2 S norm N W (S.ratio norm μ f (vec c) (vec e)) (vec e) k)
          else XR.fin (vec e k)) := by
  unfold FPI.updateParams
  rw [if_neg (by rintro ⟨rfl, rfl⟩; simp at hu), h.model.eval c e true hc he hpos]
  simp only [if_true]
  have hk : F.klError = ⟨XR.fin μ, XR.fin 100000⟩ := by simp [Fit.klError, hμ]
  rw [h.dens, kl_evaluate_vec _ _ _ (by simp), hk]
  simp only
  rw [kl_core_tab_deriv μ _ N f _ hf hg]
  simp only [Option.getD_some]
  rw [h.model.nbasis, Int.toNat_natCast]
  rw [mapPy_ok (g := fun k => (XR.fin (fpiA S norm N W (S.ratio norm μ f (vec c) (vec e)) (vec e) k),
        if ue then XR.fin (fpiA2 S norm N W (S.ratio norm μ f (vec c) (vec e)) (vec e) k)
          else XR.fin 0))]
  swap
  · intro k hk
    exact averages_fins h _ _ _ ue k (List.mem_range.mp hk)
  simp only [List.map_map, Function.comp_def]
  have e1 : (List.range S.nb).map (fun k =>
      XR.fin (fpiA S norm N W (S.ratio norm μ f (vec c) (vec e)) (vec e) k)) =
      fins (tab S.nb (fpiA S norm N W (S.ratio norm μ f (vec c) (vec e)) (vec e))) := by
    simp [fins, tab, List.map_map, Function.comp_def]
  rw [e1]
  have hcl : fins c = fins (tab S.nb (vec c)) := by rw [tab, ← eq_range_map c _ hc]
  have hel : fins e = fins (tab S.nb (vec e)) := by rw [tab, ← eq_range_map e _ he]
  rw [hcl, hel]
  generalize fpiA S norm N W (S.ratio norm μ f (vec c) (vec e)) (vec e) = A at *
  generalize fpiA2 S norm N W (S.ratio norm μ f (vec c) (vec e)) (vec e) = A2 at *
  congr 2
  · cases uc with
    | false => simp
    | true =>
      simp only [if_true]
      rw [zipWith_tab (g := fun a b => a * b) (by simp), hL,
        map_tab (g := fun a => a / L) (by intro a; exact XR.div_fin_of_ne a hL0)]
      simp
  · cases ue with
    | false => simp
    | true =>
      simp only [if_true]
      rw [h.model.pref, zipWith_tab (g := fun a b => a * b) (by simp)]
      simp only [fins, tab, List.map_map, List.zipWith_map, List.zipWith_self, Function.comp_def]
      apply List.map_congr_left
      intro k hk
      simp [Shape.pref]

/-- The same with finite new exponents. -/
theorem updateParams_fins {F : FPI} {norm : Bool} {S : Shape} {N : ℕ} {W f : ℕ → ℝ} {μ L : ℝ}
    (h : FitData F.toFit norm S N W f) (hμ : F.maskValue = XR.fin μ) (hL : F.lm = XR.fin L)
    (hL0 : L ≠ 0) (hf : ∀ i < N, 0 ≤ f i) (c e : List ℝ) (hc : c.length = S.nb)
    (he : e.length = S.nb) (hpos : norm = true → ∀ a ∈ e, 0 ≤ a)
    (hg : ∀ i < N, 0 ≤ S.dens norm (vec c) (vec e) i) (uc ue : Bool) (hu : uc = true ∨ ue = true)
    (hA2 : ue = true → ∀ k < S.nb,
      fpiA2 S norm N W (S.ratio norm μ f (vec c) (vec e)) (vec e) k ≠ 0) :
    F.updateParams (fins c) (fins e) uc ue = .ok
      (fins (tab S.nb fun k => if uc then
          vec c k * fpiA S norm N W (S.ratio norm μ f (vec c) (vec e)) (vec e) k / L else vec c k),
       fins (tab S.nb fun k => if ue then
          S.pref k * fpiA S norm N W (S.ratio norm μ f (vec c) (vec e)) (vec e) k /
            fpiA2 S norm N W (S.ratio norm μ f (vec c) (vec e)) (vec e) k else vec e k)) := by
  rw [updateParams_gen h hμ hL hL0 hf c e hc he hpos hg uc ue hu]
  congr 2
  simp only [fins, tab, List.map_map, Function.comp_def]
  apply List.map_congr_left
  intro k hk
  cases ue with
  | false => simp
  | true => simp only [if_true]; rw [XR.div_fin_of_ne _ (hA2 rfl k (List.mem_range.mp hk))]

end
end BFit
