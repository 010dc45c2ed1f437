import Verif.Props.Fit

/-!
Properties of one step of the self-consistent fixed-point iteration.  `IsFPI` describes the objects
made by the constructor on finite data (`C34_finite`); `S` describes the model (`atom_isModel`,
`mol_isModel`), `W` the quadrature weights (`quad_plain`, `quad_spherical`).
-/

namespace BFit

open Real Classical Finset Topology

noncomputable section

/-- The model exceeds the mask at all grid points. -/
def Shape.AllUnmasked (S : Shape) (norm : Bool) (N : ℕ) (μ : ℝ) (f : ℕ → ℝ) (c e : List ℝ) : Prop :=
  ∀ i < N, Unmasked μ (f i) (S.dens norm (vec c) (vec e) i)

/-- Every basis function sees density away from its centre. -/
def Shape.Sees (S : Shape) (N : ℕ) (W f : ℕ → ℝ) : Prop :=
  ∀ k < S.nb, ∃ i < N, 0 < W i ∧ 0 < f i ∧ S.rad k i ≠ 0

theorem fpiA_congr {S : Shape} {norm : Bool} {N : ℕ} {W e q q' : ℕ → ℝ} (h : ∀ i < N, q i = q' i) :
    fpiA S norm N W q e = fpiA S norm N W q' e ∧ fpiA2 S norm N W q e = fpiA2 S norm N W q' e := by
  constructor
  · funext k
    exact Finset.sum_congr rfl fun i hi => by rw [h i (mem_range.mp hi)]
  · funext k
    exact Finset.sum_congr rfl fun i hi => by rw [h i (mem_range.mp hi)]

theorem ratio_unmasked {S : Shape} {norm : Bool} {N : ℕ} {μ : ℝ} {f : ℕ → ℝ} {c e : List ℝ}
    (h : S.AllUnmasked norm N μ f c e) : ∀ i < N,
    S.ratio norm μ f (vec c) (vec e) i = f i / S.dens norm (vec c) (vec e) i := by
  intro i hi
  simp [Shape.ratio, klRatio, h i hi]

theorem sum_list_tab (n : ℕ) (f : ℕ → ℝ) : ((List.range n).map f).sum = ∑ k ∈ range n, f k := by
  induction n with
  | zero => simp
  | succ n ih => rw [List.range_succ, List.map_append, List.sum_append, ih, Finset.sum_range_succ]; simp

theorem tiny_lt_one : tiny < 1 := by
  unfold tiny
  rw [zpow_neg]
  apply inv_lt_one_of_one_lt₀
  exact one_lt_zpow₀ (by norm_num) (by norm_num)

/-! ### C35 -/

/-- **C35**.  After a coefficient update (with or without exponent update) the coefficients sum to
`integral_dens`, whatever the parameters before. -/
theorem C35_conservation {F : FPI} {norm : Bool} {S : Shape} {N : ℕ} {W f : ℕ → ℝ} {μ T : ℝ}
    (h : IsFPI F norm S N W f μ T) (c e : List ℝ) (hc : c.length = S.nb) (he : e.length = S.nb)
    (hpos : norm = true → ∀ a ∈ e, 0 ≤ a) (hu : S.AllUnmasked norm N μ f c e) (ue : Bool) :
    ∃ c' es', F.updateParams (fins c) (fins e) true ue = .ok (fins c', es') ∧ c'.length = S.nb ∧
      c'.sum = T ∧ F.integralDens = XR.fin T := by
  have hg : ∀ i < N, 0 < S.dens norm (vec c) (vec e) i := fun i hi => unmasked_pos (h.f_nonneg i hi) (hu i hi)
  refine ⟨_, _, updateParams_gen h.data h.mask h.lm h.lm_ne h.f_nonneg c e hc he hpos
    (fun i hi => (hg i hi).le) true ue (Or.inl rfl), by simp, ?_, h.target⟩
  rw [(fpiA_congr (ratio_unmasked hu)).1]
  simp only [if_true]
  have hs : (tab S.nb fun k => vec c k * fpiA S norm N W
      (fun i => f i / S.dens norm (vec c) (vec e) i) (vec e) k / ((∑ i ∈ range N, W i * f i) / T)).sum =
      (∑ k ∈ range S.nb, vec c k * fpiA S norm N W
        (fun i => f i / S.dens norm (vec c) (vec e) i) (vec e) k) / ((∑ i ∈ range N, W i * f i) / T) := by
    rw [tab, sum_list_tab]
    exact (Finset.sum_div _ _ _).symm
  rw [hs, sum_c_fpiA _ _ _ _ _ _ _ fun i hi => (hg i hi).ne']
  have h1 : ∑ i ∈ range N, W i * f i ≠ 0 := fun h0 => h.lm_ne (by rw [h0, zero_div])
  have h2 : T ≠ 0 := fun h0 => h.lm_ne (by rw [h0, div_zero])
  field_simp

/-! ### C36 -/

theorem ratio_nonneg {S : Shape} {norm : Bool} {μ : ℝ} {f c e : ℕ → ℝ} {i : ℕ} (hf : 0 ≤ f i) :
    0 ≤ S.ratio norm μ f c e i := by
  unfold Shape.ratio klRatio
  split
  · rename_i hu
    exact div_nonneg hf (unmasked_pos hf hu).le
  · norm_num

theorem ratio_pos {S : Shape} {norm : Bool} {μ : ℝ} {f c e : ℕ → ℝ} {i : ℕ} (hf : 0 < f i) :
    0 < S.ratio norm μ f c e i := by
  unfold Shape.ratio klRatio
  split
  · rename_i hu
    exact div_pos hf (unmasked_pos hf.le hu)
  · norm_num

theorem dens_nonneg {S : Shape} {c e : ℕ → ℝ} (hc : ∀ k < S.nb, 0 ≤ c k) (he : ∀ k < S.nb, 0 ≤ e k)
    (i : ℕ) : 0 ≤ S.dens true c e i :=
  Finset.sum_nonneg fun k hk =>
    mul_nonneg (hc k (mem_range.mp hk)) (bf_nonneg _ _ (he k (mem_range.mp hk)))

theorem fpiA_nonneg {S : Shape} {N : ℕ} {W q e : ℕ → ℝ} {k : ℕ} (hW : ∀ i < N, 0 ≤ W i)
    (hq : ∀ i < N, 0 ≤ q i) (he : 0 ≤ e k) : 0 ≤ fpiA S true N W q e k :=
  Finset.sum_nonneg fun i hi =>
    mul_nonneg (hW i (mem_range.mp hi)) (mul_nonneg (hq i (mem_range.mp hi)) (bf_nonneg _ _ he))

theorem fpiA_pos {S : Shape} {N : ℕ} {W f q e : ℕ → ℝ} (hs : S.Sees N W f) (hW : ∀ i < N, 0 ≤ W i)
    (hq : ∀ i < N, 0 ≤ q i) (hq' : ∀ i < N, 0 < f i → 0 < q i) {k : ℕ} (hk : k < S.nb) (he : 0 < e k) :
    0 < fpiA S true N W q e k ∧ 0 < fpiA2 S true N W q e k := by
  obtain ⟨i, hi, h1, h2, h3⟩ := hs k hk
  have hb := bf_pos (S.isS k) he (Or.inr h3)
  have hqi := hq' i hi h2
  constructor
  · exact Finset.sum_pos' (fun j hj => mul_nonneg (hW j (mem_range.mp hj))
      (mul_nonneg (hq j (mem_range.mp hj)) (bf_nonneg _ _ he.le)))
      ⟨i, mem_range.mpr hi, by positivity⟩
  · exact Finset.sum_pos' (fun j hj => mul_nonneg (hW j (mem_range.mp hj))
      (mul_nonneg (mul_nonneg (hq j (mem_range.mp hj)) (bf_nonneg _ _ he.le)) (sq_nonneg _)))
      ⟨i, mem_range.mpr hi, by positivity⟩

theorem vec_of_mem {P : ℝ → Prop} {l : List ℝ} {n : ℕ} (hn : l.length = n) (h : ∀ a ∈ l, P a) :
    ∀ k < n, P (vec l k) := by
  intro k hk
  have : vec l k = l[k]'(hn ▸ hk) := by simp [vec, List.getD_eq_getElem?_getD, hn ▸ hk]
  rw [this]
  exact h _ (List.getElem_mem _)

theorem mem_of_vec {P : ℝ → Prop} {l : List ℝ} {n : ℕ} (hn : l.length = n)
    (h : ∀ k < n, P (vec l k)) : ∀ a ∈ l, P a := by
  intro a ha
  obtain ⟨k, hk, rfl⟩ := List.getElem_of_mem ha
  have : vec l k = l[k] := by simp [vec, List.getD_eq_getElem?_getD, hk]
  rw [← this]
  exact h k (hn ▸ hk)

theorem mem_tab {P : ℝ → Prop} {n : ℕ} {f : ℕ → ℝ} (h : ∀ k < n, P (f k)) : ∀ a ∈ tab n f, P a := by
  intro a ha
  obtain ⟨k, hk, rfl⟩ := List.mem_map.mp ha
  exact h k (List.mem_range.mp hk)

/-- **C36** (coefficients only).  Non-negative coefficients stay non-negative. -/
theorem C36_coeffs {F : FPI} {S : Shape} {N : ℕ} {W f : ℕ → ℝ} {μ T : ℝ}
    (h : IsFPI F true S N W f μ T) (hW : ∀ i < N, 0 ≤ W i) (hT : 0 < T) (c e : List ℝ)
    (hc : c.length = S.nb) (he : e.length = S.nb) (hcn : ∀ a ∈ c, 0 ≤ a) (hen : ∀ a ∈ e, 0 ≤ a)
    (ue : Bool) :
    ∃ c' es', F.updateParams (fins c) (fins e) true ue = .ok (fins c', es') ∧ c'.length = S.nb ∧
      ∀ a ∈ c', 0 ≤ a := by
  have hcv := vec_of_mem hc hcn
  have hev := vec_of_mem he hen
  refine ⟨_, _, updateParams_gen h.data h.mask h.lm h.lm_ne h.f_nonneg c e hc he (fun _ => hen)
    (fun i _ => dens_nonneg hcv hev i) true ue (Or.inl rfl), by simp, ?_⟩
  apply mem_tab
  intro k hk
  simp only [if_true]
  have hL : 0 ≤ (∑ i ∈ range N, W i * f i) / T := div_nonneg (Finset.sum_nonneg fun i hi =>
    mul_nonneg (hW i (mem_range.mp hi)) (h.f_nonneg i (mem_range.mp hi))) hT.le
  exact div_nonneg (mul_nonneg (hcv k hk) (fpiA_nonneg hW
    (fun i hi => ratio_nonneg (h.f_nonneg i hi)) (hev k hk))) hL

/-- **C36** (any update).  When every basis function sees some density away from its centre, the new
parameters are finite, the exponents are positive, and positive coefficients stay positive. -/
theorem C36_positive {F : FPI} {S : Shape} {N : ℕ} {W f : ℕ → ℝ} {μ T : ℝ}
    (h : IsFPI F true S N W f μ T) (hW : ∀ i < N, 0 ≤ W i) (hT : 0 < T) (hs : S.Sees N W f)
    (c e : List ℝ) (hc : c.length = S.nb) (he : e.length = S.nb) (hcn : ∀ a ∈ c, 0 ≤ a)
    (hep : ∀ a ∈ e, 0 < a) (uc ue : Bool) (hu : uc = true ∨ ue = true) :
    ∃ c' e', F.updateParams (fins c) (fins e) uc ue = .ok (fins c', fins e') ∧ c'.length = S.nb ∧
      e'.length = S.nb ∧ (∀ a ∈ c', 0 ≤ a) ∧ (∀ a ∈ e', 0 < a) ∧
      (∀ k < S.nb, 0 < vec c k → 0 < vec c' k) := by
  have hcv := vec_of_mem hc hcn
  have hev := vec_of_mem he hep
  have hA : ∀ k < S.nb, 0 < fpiA S true N W (S.ratio true μ f (vec c) (vec e)) (vec e) k ∧
      0 < fpiA2 S true N W (S.ratio true μ f (vec c) (vec e)) (vec e) k := fun k hk =>
    fpiA_pos hs hW (fun i hi => ratio_nonneg (h.f_nonneg i hi)) (fun i _ => ratio_pos) hk (hev k hk)
  have hL : 0 < (∑ i ∈ range N, W i * f i) / T :=
    lt_of_le_of_ne (div_nonneg (Finset.sum_nonneg fun i hi =>
      mul_nonneg (hW i (mem_range.mp hi)) (h.f_nonneg i (mem_range.mp hi))) hT.le) h.lm_ne.symm
  refine ⟨_, _, updateParams_fins h.data h.mask h.lm h.lm_ne h.f_nonneg c e hc he
    (fun _ a ha => (hep a ha).le) (fun i _ => dens_nonneg hcv (fun k hk => (hev k hk).le) i) uc ue hu
    (fun _ k hk => (hA k hk).2.ne'), by simp, by simp, ?_, ?_, ?_⟩
  · apply mem_tab
    intro k hk
    split
    · exact div_nonneg (mul_nonneg (hcv k hk) (hA k hk).1.le) hL.le
    · exact hcv k hk
  · apply mem_tab
    intro k hk
    split
    · exact div_pos (mul_pos (S.pref_pos k) (hA k hk).1) (hA k hk).2
    · exact hev k hk
  · intro k hk hck
    rw [vec_tab hk]
    split
    · exact div_pos (mul_pos hck (hA k hk).1) hL
    · exact hck

/-- **C36** (the degenerate case).  The condition on the basis function is needed: one that sees
density at its centre only gets an infinite or NaN exponent. -/
theorem C36_degenerate {F : FPI} {S : Shape} {N : ℕ} {W f : ℕ → ℝ} {μ T : ℝ}
    (h : IsFPI F true S N W f μ T) (c e : List ℝ)
    (hc : c.length = S.nb) (he : e.length = S.nb) (hcn : ∀ a ∈ c, 0 ≤ a) (hen : ∀ a ∈ e, 0 ≤ a)
    (hu : S.AllUnmasked true N μ f c e) (uc : Bool) (k : ℕ) (hk : k < S.nb)
    (hk0 : ∀ i < N, W i = 0 ∨ f i = 0 ∨ S.rad k i = 0) :
    ∃ c' es', F.updateParams (fins c) (fins e) uc true = .ok (fins c', es') ∧
      ∃ hl : k < es'.length, es'[k] = XR.pinf ∨ es'[k] = XR.ninf ∨ es'[k] = XR.nan := by
  have hcv := vec_of_mem hc hcn
  have hev := vec_of_mem he hen
  refine ⟨_, _, updateParams_gen h.data h.mask h.lm h.lm_ne h.f_nonneg c e hc he (fun _ => hen)
    (fun i _ => dens_nonneg hcv hev i) uc true (Or.inr rfl), by simpa using hk, ?_⟩
  have h0 : fpiA2 S true N W (S.ratio true μ f (vec c) (vec e)) (vec e) k = 0 := by
    apply Finset.sum_eq_zero
    intro i hi
    have hi := mem_range.mp hi
    rw [ratio_unmasked hu i hi]
    rcases hk0 i hi with h | h | h <;> simp [h]
  simp only [List.getElem_map, List.getElem_range, if_true, h0]
  rw [XR.div_fin, if_pos rfl]
  unfold XR.sgnInf
  split
  · simp
  · split <;> simp

/-! ### C37 -/

/-- The Kullback-Leibler integral of the model density. -/
def klTotal (S : Shape) (N : ℕ) (W f : ℕ → ℝ) (μ : ℝ) (c e : List ℝ) : ℝ :=
  ∑ i ∈ range N, W i * klVal μ (f i) (S.dens true (vec c) (vec e) i)

/-- The core of C37: values of the KL integral before and after an update. -/
theorem fpi_descent {F : FPI} {S : Shape} {N : ℕ} {W f : ℕ → ℝ} {μ T : ℝ}
    (h : IsFPI F true S N W f μ T) (hW : ∀ i < N, 0 ≤ W i) (hT : 0 < T) (hs : S.Sees N W f)
    (hf : ∀ i < N, 0 < f i ∧ μ ≤ f i) (c e : List ℝ) (hc : c.length = S.nb) (he : e.length = S.nb)
    (hcn : ∀ a ∈ c, 0 ≤ a) (hep : ∀ a ∈ e, 0 < a) (hu : S.AllUnmasked true N μ f c e) (uc ue : Bool)
    (huc : uc = true ∨ ue = true) :
    ∃ c' e', F.updateParams (fins c) (fins e) uc ue = .ok (fins c', fins e') ∧ c'.length = S.nb ∧
      e'.length = S.nb ∧ (∀ a ∈ c', 0 ≤ a) ∧ (∀ a ∈ e', 0 < a) ∧ (uc = true → c'.sum = T) ∧
      (uc = false → c' = c) ∧
      klTotal S N W f μ c' e' + (∑ i ∈ range N, W i * f i) / T * c'.sum ≤
        klTotal S N W f μ c e + (∑ i ∈ range N, W i * f i) / T * c.sum ∧
      (klTotal S N W f μ c' e' + (∑ i ∈ range N, W i * f i) / T * c'.sum =
          klTotal S N W f μ c e + (∑ i ∈ range N, W i * f i) / T * c.sum →
        ∀ k < S.nb, 0 < vec c k → vec c' k = vec c k ∧ vec e' k = vec e k) := by
  have hcv := vec_of_mem hc hcn
  have hev := vec_of_mem he hep
  have hg : ∀ i < N, 0 < S.dens true (vec c) (vec e) i := fun i hi => unmasked_pos (hf i hi).1.le (hu i hi)
  have hcg := fpiA_congr (S := S) (norm := true) (W := W) (e := vec e) (ratio_unmasked hu)
  obtain ⟨c₁, e₁, hup, hc1, he1, hcn1, hep1, -⟩ :=
    C36_positive h hW hT hs c e hc he hcn hep uc ue huc
  have hA : ∀ k < S.nb, 0 < fpiA S true N W (S.ratio true μ f (vec c) (vec e)) (vec e) k ∧
      0 < fpiA2 S true N W (S.ratio true μ f (vec c) (vec e)) (vec e) k := fun k hk =>
    fpiA_pos hs hW (fun i hi => ratio_nonneg (h.f_nonneg i hi)) (fun i _ => ratio_pos) hk (hev k hk)
  have hform := updateParams_fins h.data h.mask h.lm h.lm_ne h.f_nonneg c e hc he
    (fun _ a ha => (hep a ha).le) (fun i hi => (hg i hi).le) uc ue huc (fun _ k hk => (hA k hk).2.ne')
  rw [hup] at hform
  injection hform with hform
  rw [Prod.mk.injEq] at hform
  obtain ⟨hfc, hfe⟩ := hform
  have hfc := List.map_injective_iff.mpr (fun _ _ hab => XR.fin_inj.mp hab) hfc
  have hfe := List.map_injective_iff.mpr (fun _ _ hab => XR.fin_inj.mp hab) hfe
  rw [hcg.1] at hA hfc
  rw [hcg.1, hcg.2] at hfe
  rw [hcg.2] at hA
  have hL : 0 < (∑ i ∈ range N, W i * f i) / T :=
    lt_of_le_of_ne (div_nonneg (Finset.sum_nonneg fun i hi =>
      mul_nonneg (hW i (mem_range.mp hi)) (h.f_nonneg i (mem_range.mp hi))) hT.le) h.lm_ne.symm
  set L := (∑ i ∈ range N, W i * f i) / T with hLdef
  set A := fpiA S true N W (fun i => f i / S.dens true (vec c) (vec e) i) (vec e) with hAdef
  set A2 := fpiA2 S true N W (fun i => f i / S.dens true (vec c) (vec e) i) (vec e) with hA2def
  have hcsum : c.sum = ∑ k ∈ range S.nb, vec c k := by
    conv_lhs => rw [eq_range_map c _ hc]
    rw [sum_list_tab]
  have hvc : ∀ k < S.nb, vec c₁ k = vec c k * (if uc then A k / L else 1) := by
    intro k hk
    rw [hfc, vec_tab hk]
    split <;> ring
  have hve : ∀ k < S.nb, vec e₁ k = if ue then S.pref k * A k / A2 k else vec e k := by
    intro k hk
    rw [hfe, vec_tab hk]
  have hc1sum : c₁.sum = ∑ k ∈ range S.nb, vec c k * (if uc then A k / L else 1) := by
    conv_lhs => rw [eq_range_map c₁ _ hc1]
    rw [sum_list_tab]
    exact Finset.sum_congr rfl fun k hk => hvc k (mem_range.mp hk)
  have hdens : ∀ i, S.dens true (vec c₁) (vec e₁) i =
      S.dens true (fun k => vec c k * (if uc then A k / L else 1))
        (fun k => if ue then S.pref k * A k / A2 k else vec e k) i := by
    intro i
    exact Finset.sum_congr rfl fun k hk => by rw [hvc k (mem_range.mp hk), hve k (mem_range.mp hk)]
  obtain ⟨hgpos, hgain⟩ := em_gain S N W f (vec c) (vec e) (fun k => if uc then A k / L else 1)
    (fun k => if ue then S.pref k * A k / A2 k else vec e k) hW (fun i hi => (hf i hi).1.le) hcv hev
    (fun k hk => by
      have := (hA k hk).1
      cases uc
      · simp
      · simp only [if_true]; positivity)
    (fun k hk => by
      have := hA k hk
      have := S.pref_pos k
      have := hev k hk
      cases ue
      · simpa using hev k hk
      · simp only [if_true]; exact div_pos (mul_pos (S.pref_pos k) (hA k hk).1) (hA k hk).2) hg
  rw [← hAdef, ← hA2def] at hgain
  obtain ⟨hup1, hup2⟩ := em_update_gain S (vec c) (vec e) L uc ue hL hcv hev A A2
    (fun k hk => (hA k hk).1) (fun k hk => (hA k hk).2)
  -- the KL integral before and after
  have hk0 : klTotal S N W f μ c e = ∑ i ∈ range N, W i * klInt (f i) (S.dens true (vec c) (vec e) i) :=
    Finset.sum_congr rfl fun i hi => by rw [klVal_unmasked (hu i (mem_range.mp hi))]
  have hk1 : klTotal S N W f μ c₁ e₁ ≤
      ∑ i ∈ range N, W i * klInt (f i) (S.dens true (vec c₁) (vec e₁) i) := by
    apply Finset.sum_le_sum
    intro i hi
    have hi := mem_range.mp hi
    apply mul_le_mul_of_nonneg_left _ (hW i hi)
    by_cases hm : Unmasked μ (f i) (S.dens true (vec c₁) (vec e₁) i)
    · rw [klVal_unmasked hm]
    · rw [klVal_masked hm]
      have hgi : 0 < S.dens true (vec c₁) (vec e₁) i := by rw [hdens]; exact hgpos i hi
      have hle : S.dens true (vec c₁) (vec e₁) i ≤ f i := by
        by_contra hcon
        push Not at hcon
        apply hm
        refine ⟨lt_of_le_of_lt (hf i hi).2 hcon, lt_of_le_of_lt ?_ hcon⟩
        have := tiny_lt_one
        nlinarith [(hf i hi).1]
      exact mul_nonneg (hf i hi).1.le (log_nonneg ((one_le_div hgi).mpr hle))
  have hdiff : ∑ i ∈ range N, W i * klInt (f i) (S.dens true (vec c) (vec e) i) -
      ∑ i ∈ range N, W i * klInt (f i) (S.dens true (vec c₁) (vec e₁) i) =
      ∑ i ∈ range N, W i * (f i * log (S.dens true (vec c₁) (vec e₁) i / S.dens true (vec c) (vec e) i)) := by
    rw [← Finset.sum_sub_distrib]
    apply Finset.sum_congr rfl
    intro i hi
    have hi := mem_range.mp hi
    have hg1 : 0 < S.dens true (vec c₁) (vec e₁) i := by rw [hdens]; exact hgpos i hi
    unfold klInt
    rw [log_div (hf i hi).1.ne' (hg i hi).ne', log_div (hf i hi).1.ne' hg1.ne',
      log_div hg1.ne' (hg i hi).ne']
    ring
  simp only [hdens] at hdiff hk1
  refine ⟨c₁, e₁, hup, hc1, he1, hcn1, hep1, ?_, ?_, ?_, ?_⟩
  · rintro rfl
    obtain ⟨c₂, es₂, h2, -, h3, -⟩ := C35_conservation h c e hc he (fun _ a ha => (hep a ha).le) hu ue
    rw [hup] at h2
    injection h2 with h2
    rw [Prod.mk.injEq] at h2
    have := List.map_injective_iff.mpr (fun _ _ hab => XR.fin_inj.mp hab) h2.1
    rw [this, h3]
  · rintro rfl
    rw [hfc, eq_range_map c _ hc]
    apply List.map_congr_left
    intro k hk
    simp [vec_tab (List.mem_range.mp hk)]
  · rw [hk0, hc1sum, hcsum]
    linarith
  · intro heq k hk hck
    rw [hk0, hc1sum, hcsum] at heq
    have := hup2 (by linarith)
    rw [hvc k hk, hve k hk]
    exact this k hk hck

theorem vec_ext {a b : List ℝ} (h : a.length = b.length) (hv : ∀ k < b.length, vec a k = vec b k) : a = b := by
  refine (eq_range_map a _ h).trans (Eq.trans ?_ (eq_range_map b _ rfl).symm)
  exact List.map_congr_left fun k hk => hv k (List.mem_range.mp hk)

/-- `goodness_of_fit` reports `klTotal`. -/
theorem goodness_klTotal {F : Fit} {S : Shape} {N : ℕ} {W f : ℕ → ℝ} {μ : ℝ}
    (h : FitData F true S N W f) (hN : 0 < N) (hμ : F.maskValue = XR.fin μ) (hf : ∀ i < N, 0 < f i)
    (c e : List ℝ) (hc : c.length = S.nb) (he : e.length = S.nb) (hcn : ∀ a ∈ c, 0 ≤ a)
    (hep : ∀ a ∈ e, 0 < a) :
    ∃ p, F.goodness (fins c) (fins e) = .ok p ∧ p.kl = XR.fin (klTotal S N W f μ c e) := by
  obtain ⟨M, kl, h1, -, -, h4⟩ := goodness_fins h hN c e hc he fun _ a ha => (hep a ha).le
  refine ⟨_, h1, h4 μ hμ hf fun i _ => dens_nonneg (vec_of_mem hc hcn) ?_ i⟩
  exact fun k hk => (vec_of_mem he hep k hk).le

theorem Shape.Sees.pos {S : Shape} {N : ℕ} {W f : ℕ → ℝ} (h : S.Sees N W f) (hb : 0 < S.nb) : 0 < N := by
  obtain ⟨i, hi, -⟩ := h 0 hb
  omega

/-- **C37** (one step).  A fixed-point update of the coefficients, the exponents or both does not
increase the reported Kullback-Leibler divergence, if the coefficients sum to at most
`integral_dens` before (needed only when coefficients are updated), and it strictly decreases it
unless it changes nothing (all coefficients positive). -/
theorem C37_monotone {F : FPI} {S : Shape} {N : ℕ} {W f : ℕ → ℝ} {μ T : ℝ}
    (h : IsFPI F true S N W f μ T) (hW : ∀ i < N, 0 ≤ W i) (hT : 0 < T) (hs : S.Sees N W f)
    (hf : ∀ i < N, 0 < f i ∧ μ ≤ f i) (c e : List ℝ) (hc : c.length = S.nb) (he : e.length = S.nb)
    (hcn : ∀ a ∈ c, 0 ≤ a) (hep : ∀ a ∈ e, 0 < a) (hu : S.AllUnmasked true N μ f c e) (uc ue : Bool)
    (huc : uc = true ∨ ue = true) (hsum : uc = true → c.sum ≤ T) :
    ∃ c' e' p p' x x', F.updateParams (fins c) (fins e) uc ue = .ok (fins c', fins e') ∧
      F.goodness (fins c) (fins e) = .ok p ∧ F.goodness (fins c') (fins e') = .ok p' ∧
      p.kl = XR.fin x ∧ p'.kl = XR.fin x' ∧ x' ≤ x ∧
      ((∀ a ∈ c, 0 < a) → (c', e') ≠ (c, e) → x' < x) := by
  obtain ⟨c', e', h1, h2, h3, h4, h5, h6, h7, h8, h9⟩ :=
    fpi_descent h hW hT hs hf c e hc he hcn hep hu uc ue huc
  have hN := hs.pos h.data.model.nb_pos
  obtain ⟨p, hp, hpk⟩ := goodness_klTotal h.data hN h.mask (fun i hi => (hf i hi).1) c e hc he hcn hep
  obtain ⟨p', hp', hpk'⟩ := goodness_klTotal h.data hN h.mask (fun i hi => (hf i hi).1) c' e' h2 h3 h4 h5
  have hL : 0 < (∑ i ∈ range N, W i * f i) / T :=
    lt_of_le_of_ne (div_nonneg (Finset.sum_nonneg fun i hi =>
      mul_nonneg (hW i (mem_range.mp hi)) (h.f_nonneg i (mem_range.mp hi))) hT.le) h.lm_ne.symm
  have hcs : c.sum ≤ c'.sum := by
    cases uc with
    | true => rw [h6 rfl]; exact hsum rfl
    | false => rw [h7 rfl]
  have hmul := mul_le_mul_of_nonneg_left hcs hL.le
  refine ⟨c', e', p, p', _, _, h1, hp, hp', hpk, hpk', by linarith, ?_⟩
  intro hcp hne
  refine lt_of_le_of_ne (by linarith) ?_
  intro heq
  have h9 := h9 (by linarith)
  have hcp := vec_of_mem hc hcp
  apply hne
  rw [vec_ext (h2.trans hc.symm) fun k hk => (h9 k (hc ▸ hk) (hcp k (hc ▸ hk))).1,
    vec_ext (h3.trans he.symm) fun k hk => (h9 k (he ▸ hk) (hcp k (he ▸ hk))).2]

/-- **C37** (without the condition on the sum).  The Lagrangian, the reported divergence plus the
multiplier times the sum of the coefficients, never increases. -/
theorem C37_lagrangian {F : FPI} {S : Shape} {N : ℕ} {W f : ℕ → ℝ} {μ T : ℝ}
    (h : IsFPI F true S N W f μ T) (hW : ∀ i < N, 0 ≤ W i) (hT : 0 < T) (hs : S.Sees N W f)
    (hf : ∀ i < N, 0 < f i ∧ μ ≤ f i) (c e : List ℝ) (hc : c.length = S.nb) (he : e.length = S.nb)
    (hcn : ∀ a ∈ c, 0 ≤ a) (hep : ∀ a ∈ e, 0 < a) (hu : S.AllUnmasked true N μ f c e) (uc ue : Bool)
    (huc : uc = true ∨ ue = true) :
    ∃ c' e' p p' x x' lm, F.updateParams (fins c) (fins e) uc ue = .ok (fins c', fins e') ∧
      F.goodness (fins c) (fins e) = .ok p ∧ F.goodness (fins c') (fins e') = .ok p' ∧
      p.kl = XR.fin x ∧ p'.kl = XR.fin x' ∧ F.lm = XR.fin lm ∧
      x' + lm * c'.sum ≤ x + lm * c.sum := by
  obtain ⟨c', e', h1, h2, h3, h4, h5, h6, h7, h8, h9⟩ :=
    fpi_descent h hW hT hs hf c e hc he hcn hep hu uc ue huc
  have hN := hs.pos h.data.model.nb_pos
  obtain ⟨p, hp, hpk⟩ := goodness_klTotal h.data hN h.mask (fun i hi => (hf i hi).1) c e hc he hcn hep
  obtain ⟨p', hp', hpk'⟩ := goodness_klTotal h.data hN h.mask (fun i hi => (hf i hi).1) c' e' h2 h3 h4 h5
  exact ⟨c', e', p, p', _, _, _, h1, hp, hp', hpk, hpk', h.lm, h8⟩

/-! ### a concrete object -/

/-- Density `(i+1) b(i)` on the grid `0, 1, 2`, with `b` the normalised Gaussian of exponent 1. -/
def demoF (i : ℕ) : ℝ := ((i : ℝ) + 1) * bf true true 1 i

theorem demoF_pos (i : ℕ) : 0 < demoF i :=
  mul_pos (by positivity) (bf_pos true one_pos (Or.inl rfl))

theorem demo_dens (i : ℕ) (hi : i < 3) :
    (atomShape [0, 1, 2] 1 0).dens true (vec [1]) (vec [1]) i = bf true true 1 i := by
  interval_cases i <;> simp [Shape.dens, atomShape, vec]

theorem tiny_lt_quarter : tiny < 1 / 4 := by
  have : tiny = (2 : ℝ) ^ (-2 : ℤ) * 2 ^ (-1020 : ℤ) := by
    unfold tiny; rw [← zpow_add₀ (by norm_num)]; norm_num
  rw [this]
  have h : (2 : ℝ) ^ (-1020 : ℤ) < 1 := by
    rw [zpow_neg]
    exact inv_lt_one_of_one_lt₀ (one_lt_zpow₀ (by norm_num) (by norm_num))
  have h2 : (2 : ℝ) ^ (-2 : ℤ) = 1 / 4 := by norm_num
  rw [h2]
  linarith

/-- The model `b` exceeds the mask everywhere. -/
theorem demo_unmasked : (atomShape [0, 1, 2] 1 0).AllUnmasked true 3 0 demoF [1] [1] := by
  intro i hi
  rw [demo_dens i hi]
  have hb : 0 < bf true true 1 (i : ℝ) := bf_pos true one_pos (Or.inl rfl)
  refine ⟨hb, ?_⟩
  unfold demoF
  have : ((i : ℝ) + 1) * tiny < 1 := by
    have h1 : (i : ℝ) + 1 ≤ 3 := by interval_cases i <;> norm_num
    have := tiny_lt_quarter
    have := tiny_pos
    nlinarith
  nlinarith

theorem demo_sees : (atomShape [0, 1, 2] 1 0).Sees 3 (vec [1 / 2, 1, 1 / 2]) demoF := by
  intro k _
  exact ⟨1, by norm_num, by norm_num [vec], demoF_pos 1, by simp [atomShape, vec]⟩

theorem demo_W (i : ℕ) (hi : i < 3) : 0 ≤ vec [1 / 2, 1, 1 / 2] i := by
  interval_cases i <;> norm_num [vec]

theorem demo_isFPI (T : ℝ) (hT : 0 < T) : ∃ F,
    FPI.init (.radial ⟨fins [0, 1, 2]⟩) (fins (tab 3 demoF)) (.atom (demoS true)) (XR.fin 0)
      (some (XR.fin T)) false = .ok F ∧
    IsFPI F true (atomShape [0, 1, 2] 1 0) 3 (vec [1 / 2, 1, 1 / 2]) demoF 0 T := by
  have hpos : 0 < ∑ i ∈ range 3, vec [1 / 2, 1, 1 / 2] i * demoF i := by
    apply Finset.sum_pos'
    · intro i hi
      exact mul_nonneg (demo_W i (mem_range.mp hi)) (demoF_pos i).le
    · exact ⟨1, by simp, mul_pos (by norm_num [vec]) (demoF_pos 1)⟩
  obtain ⟨F, h1, h2, -⟩ := (C34_finite (f := demoF) 0 (some T) (demoS_isModel true)
    demo_quad (by simp) (fun i _ => (demoF_pos i).le)).1 hpos.ne' (by simpa using hT.ne')
  exact ⟨F, h1, h2⟩

/-- C35: from the coefficient 1 the coefficient becomes the target. -/
example (T : ℝ) (hT : 0 < T) : ∃ F es',
    FPI.init (.radial ⟨fins [0, 1, 2]⟩) (fins (tab 3 demoF)) (.atom (demoS true)) (XR.fin 0)
      (some (XR.fin T)) false = .ok F ∧
    F.updateParams (fins [1]) (fins [1]) true true = .ok (fins [T], es') := by
  obtain ⟨F, h1, h2⟩ := demo_isFPI T hT
  obtain ⟨c', es', h3, h4, h5, -⟩ := C35_conservation h2 [1] [1] rfl rfl (by simp) demo_unmasked true
  have h4 : c'.length = 1 := h4
  obtain ⟨a, rfl⟩ := List.length_eq_one_iff.mp h4
  have : a = T := by simpa using h5
  subst this
  exact ⟨F, es', h1, h3⟩

/-- C36 and C37 apply to the same object. -/
example (T : ℝ) (hT : 1 ≤ T) : ∃ F c' e' p p' x x',
    FPI.init (.radial ⟨fins [0, 1, 2]⟩) (fins (tab 3 demoF)) (.atom (demoS true)) (XR.fin 0)
      (some (XR.fin T)) false = .ok F ∧
    F.updateParams (fins [1]) (fins [1]) true true = .ok (fins c', fins e') ∧
      F.goodness (fins [1]) (fins [1]) = .ok p ∧ F.goodness (fins c') (fins e') = .ok p' ∧
      p.kl = XR.fin x ∧ p'.kl = XR.fin x' ∧ x' ≤ x := by
  obtain ⟨F, h1, h2⟩ := demo_isFPI T (by linarith)
  obtain ⟨c', e', p, p', x, x', h3, h4, h5, h6, h7, h8, -⟩ := C37_monotone h2 demo_W (by linarith) demo_sees
    (fun i _ => ⟨demoF_pos i, (demoF_pos i).le⟩) [1] [1] rfl rfl (by simp) (by simp) demo_unmasked
    true true (by simp) (by simpa using hT)
  exact ⟨F, c', e', p, p', x, x', h1, h3, h4, h5, h6, h7, h8⟩

end
end BFit
