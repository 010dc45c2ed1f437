import Verif.Lemmas.DensDeriv
import Mathlib.Analysis.Calculus.Deriv.Comp

/-! Fixed points of the iteration are the stationary points of the constrained problem. -/

namespace BFit

open Real Classical Finset Topology

noncomputable section

/-- Along a path of parameters the Kullback-Leibler entry of `goodness_of_fit` is, near `t₀`, a real
function with derivative `d` at `t₀`. -/
def KLSlope (F : Fit) (path : ℝ → List ℝ × List ℝ) (t₀ d : ℝ) : Prop :=
  ∃ φ : ℝ → ℝ, (∀ᶠ t in 𝓝 t₀, ∃ p, F.goodness (fins (path t).1) (fins (path t).2) = .ok p ∧
    p.kl = XR.fin (φ t)) ∧ HasDerivAt φ d t₀

theorem KLSlope.unique {F : Fit} {path : ℝ → List ℝ × List ℝ} {t₀ d d' : ℝ} (h : KLSlope F path t₀ d)
    (h' : KLSlope F path t₀ d') : d = d' := by
  obtain ⟨φ, h1, h2⟩ := h
  obtain ⟨ψ, h3, h4⟩ := h'
  have : φ =ᶠ[𝓝 t₀] ψ := by
    filter_upwards [h1, h3] with t ⟨p, hp, hp'⟩ ⟨q, hq, hq'⟩
    rw [hp] at hq
    injection hq with hq
    rw [← hq, hp'] at hq'
    exact XR.fin_inj.mp hq'
  exact (h2.congr_of_eventuallyEq this.symm).unique h4

theorem klSlope_of_dens {F : Fit} {S : Shape} {norm : Bool} {N : ℕ} {W f d : ℕ → ℝ} {μ t₀ : ℝ}
    (h : FitData F norm S N W f) (hN : 0 < N) (hμ : F.maskValue = XR.fin μ) (hf : ∀ i < N, 0 < f i)
    (path : ℝ → List ℝ × List ℝ) (hl : ∀ t, (path t).1.length = S.nb ∧ (path t).2.length = S.nb)
    (hpos : ∀ᶠ t in 𝓝 t₀, norm = true → ∀ a ∈ (path t).2, 0 ≤ a)
    (hu : ∀ i < N, Unmasked μ (f i) (S.dens norm (vec (path t₀).1) (vec (path t₀).2) i))
    (hd : ∀ i < N, HasDerivAt (fun t => S.dens norm (vec (path t).1) (vec (path t).2) i) (d i) t₀) :
    KLSlope F path t₀
      (∑ i ∈ range N, W i * (-(f i / S.dens norm (vec (path t₀).1) (vec (path t₀).2) i) * d i)) := by
  refine ⟨fun t => ∑ i ∈ range N, W i * klInt (f i) (S.dens norm (vec (path t).1) (vec (path t).2) i),
    ?_, ?_⟩
  · have hev : ∀ᶠ t in 𝓝 t₀, ∀ i < N, Unmasked μ (f i) (S.dens norm (vec (path t).1) (vec (path t).2) i) :=
      eventually_all fun i hi => eventually_unmasked (hd i hi).continuousAt (hu i hi)
    filter_upwards [hpos, hev] with t ht1 ht2
    obtain ⟨M, kl, h1, -, -, h4⟩ := goodness_fins h hN (path t).1 (path t).2 (hl t).1 (hl t).2 ht1
    refine ⟨_, h1, ?_⟩
    rw [h4 μ hμ hf fun i hi => (unmasked_pos (hf i hi).le (ht2 i hi)).le]
    show XR.fin _ = XR.fin _
    congr 1
    exact Finset.sum_congr rfl fun i hi => by rw [klVal_unmasked (ht2 i (mem_range.mp hi))]
  · apply HasDerivAt.fun_sum
    intro i hi
    have hi := mem_range.mp hi
    exact ((hasDerivAt_klInt (hf i hi) (unmasked_pos (hf i hi).le (hu i hi))).comp t₀ (hd i hi)).const_mul _

/-- Slopes of the divergence in the coefficients. -/
theorem klSlope_coeff {F : Fit} {S : Shape} {norm : Bool} {N : ℕ} {W f : ℕ → ℝ} {μ : ℝ}
    (h : FitData F norm S N W f) (hN : 0 < N) (hμ : F.maskValue = XR.fin μ) (hf : ∀ i < N, 0 < f i)
    (c e : List ℝ) (hc : c.length = S.nb) (he : e.length = S.nb)
    (hpos : norm = true → ∀ a ∈ e, 0 ≤ a)
    (hu : S.AllUnmasked norm N μ f c e) (k : ℕ) (hk : k < S.nb) :
    KLSlope F (fun t => (c.set k t, e)) (vec c k)
      (-fpiA S norm N W (fun i => f i / S.dens norm (vec c) (vec e) i) (vec e) k) := by
  have hset := set_vec_self c k (hc ▸ hk)
  have := klSlope_of_dens (t₀ := vec c k) (d := fun i => bf (S.isS k) norm (vec e k) (S.rad k i))
    h hN hμ hf (fun t => (c.set k t, e)) (fun t => by simp [hc, he]) (Filter.Eventually.of_forall fun _ => hpos)
    (by simpa [hset, Shape.AllUnmasked] using hu) (fun i _ => hasDerivAt_dens_c S norm c e hc k i hk)
  convert this using 1
  simp only [hset]
  rw [fpiA, ← Finset.sum_neg_distrib]
  exact Finset.sum_congr rfl fun i _ => by ring

/-- Slopes of the divergence in the exponents. -/
theorem klSlope_expon {F : Fit} {S : Shape} {N : ℕ} {W f : ℕ → ℝ} {μ : ℝ}
    (h : FitData F true S N W f) (hN : 0 < N) (hμ : F.maskValue = XR.fin μ) (hf : ∀ i < N, 0 < f i)
    (c e : List ℝ) (hc : c.length = S.nb) (he : e.length = S.nb) (hep : ∀ a ∈ e, 0 < a)
    (hu : S.AllUnmasked true N μ f c e) (k : ℕ) (hk : k < S.nb) :
    KLSlope F (fun t => (c, e.set k t)) (vec e k)
      (-(vec c k * (S.pref k / vec e k *
        fpiA S true N W (fun i => f i / S.dens true (vec c) (vec e) i) (vec e) k -
        fpiA2 S true N W (fun i => f i / S.dens true (vec c) (vec e) i) (vec e) k))) := by
  have hset := set_vec_self e k (he ▸ hk)
  have hek := vec_of_mem he hep k hk
  have hev : ∀ᶠ t in 𝓝 (vec e k), true = true → ∀ a ∈ (c, e.set k t).2, 0 ≤ a := by
    filter_upwards [lt_mem_nhds hek] with t ht _ a ha
    rcases List.mem_or_eq_of_mem_set ha with h | h
    · exact (hep a h).le
    · rw [h]; exact ht.le
  have := klSlope_of_dens (t₀ := vec e k) (d := fun i => vec c k * dbf (S.isS k) true (vec e k) (S.rad k i))
    h hN hμ hf (fun t => (c, e.set k t)) (fun t => by simp [hc, he]) hev
    (by simpa [hset, Shape.AllUnmasked] using hu) (fun i _ => hasDerivAt_dens_e S true c e he k i hk fun _ => hek)
  convert this using 1
  simp only [hset]
  rw [fpiA, fpiA2, Finset.mul_sum, ← Finset.sum_sub_distrib, Finset.mul_sum, ← Finset.sum_neg_distrib]
  apply Finset.sum_congr rfl
  intro i _
  rw [dbf_eq S k _ hek]
  ring

/-- **C38**.  With positive coefficients and exponents, a full fixed-point update returns the
parameters unchanged exactly when the gradient of the Kullback-Leibler divergence plus the
multiplier times the sum of the coefficients vanishes: the slopes of the reported divergence are
minus the multiplier in each coefficient and zero in each exponent. -/
theorem C38_stationary {F : FPI} {S : Shape} {N : ℕ} {W f : ℕ → ℝ} {μ T : ℝ}
    (h : IsFPI F true S N W f μ T) (hW : ∀ i < N, 0 ≤ W i) (hs : S.Sees N W f)
    (hf : ∀ i < N, 0 < f i) (c e : List ℝ) (hc : c.length = S.nb) (he : e.length = S.nb)
    (hcp : ∀ a ∈ c, 0 < a) (hep : ∀ a ∈ e, 0 < a) (hu : S.AllUnmasked true N μ f c e) :
    F.updateParams (fins c) (fins e) true true = .ok (fins c, fins e) ↔
      ∃ lm, F.lm = XR.fin lm ∧ ∀ k < S.nb,
        KLSlope F.toFit (fun t => (c.set k t, e)) (vec c k) (-lm) ∧
        KLSlope F.toFit (fun t => (c, e.set k t)) (vec e k) 0 := by
  have hcv := vec_of_mem hc hcp
  have hev := vec_of_mem he hep
  have hN := hs.pos h.data.model.nb_pos
  have hg : ∀ i < N, 0 < S.dens true (vec c) (vec e) i := fun i hi => unmasked_pos (hf i hi).le (hu i hi)
  have hcg := fpiA_congr (S := S) (norm := true) (W := W) (e := vec e) (ratio_unmasked hu)
  have hA : ∀ k < S.nb, 0 < fpiA S true N W (S.ratio true μ f (vec c) (vec e)) (vec e) k ∧
      0 < fpiA2 S true N W (S.ratio true μ f (vec c) (vec e)) (vec e) k := fun k hk =>
    fpiA_pos hs hW (fun i hi => ratio_nonneg (h.f_nonneg i hi)) (fun i _ => ratio_pos) hk (hev k hk)
  have hform := updateParams_fins h.data h.mask h.lm h.lm_ne h.f_nonneg c e hc he
    (fun _ a ha => (hep a ha).le) (fun i hi => (hg i hi).le) true true (Or.inl rfl)
    (fun _ k hk => (hA k hk).2.ne')
  have hsc := klSlope_coeff h.data hN h.mask hf c e hc he (fun _ a ha => (hep a ha).le) hu
  have hse := klSlope_expon h.data hN h.mask hf c e hc he hep hu
  rw [hform]
  rw [hcg.1, hcg.2] at hA ⊢
  simp only [if_true]
  have hlist : ∀ (l : List ℝ) (u : ℕ → ℝ), l.length = S.nb →
      (fins (tab S.nb u) = fins l ↔ ∀ k < S.nb, u k = vec l k) := by
    intro l u hl
    constructor
    · intro heq k hk
      have := List.map_injective_iff.mpr (fun _ _ hab => XR.fin_inj.mp hab) heq
      rw [← this, vec_tab hk]
    · intro heq
      rw [eq_range_map l _ hl]
      congr 1
      exact List.map_congr_left fun k hk => heq k (List.mem_range.mp hk)
  have hiff : (Except.ok (ε := PyErr) (fins (tab S.nb fun k => vec c k * fpiA S true N W
        (fun i => f i / S.dens true (vec c) (vec e) i) (vec e) k / ((∑ i ∈ range N, W i * f i) / T)),
      fins (tab S.nb fun k => S.pref k * fpiA S true N W
        (fun i => f i / S.dens true (vec c) (vec e) i) (vec e) k /
        fpiA2 S true N W (fun i => f i / S.dens true (vec c) (vec e) i) (vec e) k)) =
      .ok (fins c, fins e)) ↔ ∀ k < S.nb,
        fpiA S true N W (fun i => f i / S.dens true (vec c) (vec e) i) (vec e) k =
            (∑ i ∈ range N, W i * f i) / T ∧
        S.pref k / vec e k * fpiA S true N W (fun i => f i / S.dens true (vec c) (vec e) i) (vec e) k =
          fpiA2 S true N W (fun i => f i / S.dens true (vec c) (vec e) i) (vec e) k := by
    rw [Except.ok.injEq, Prod.mk.injEq, hlist c _ hc, hlist e _ he]
    constructor
    · rintro ⟨h1, h2⟩ k hk
      have a1 := h1 k hk
      have a2 := h2 k hk
      have := hcv k hk
      have := hev k hk
      have := hA k hk
      have hLne := h.lm_ne
      constructor
      · rw [div_eq_iff hLne] at a1
        exact mul_left_cancel₀ (hcv k hk).ne' a1
      · rw [div_eq_iff (hA k hk).2.ne'] at a2
        rw [div_mul_eq_mul_div, a2, mul_div_cancel_left₀ _ (hev k hk).ne']
    · intro hall
      constructor
      · intro k hk
        rw [(hall k hk).1, mul_div_cancel_right₀ _ h.lm_ne]
      · intro k hk
        rw [div_eq_iff (hA k hk).2.ne', ← (hall k hk).2]
        have := (hev k hk).ne'
        field_simp
  rw [hiff]
  constructor
  · intro hall
    refine ⟨_, h.lm, fun k hk => ⟨?_, ?_⟩⟩
    · rw [← (hall k hk).1]
      exact hsc k hk
    · have := hse k hk
      rw [(hall k hk).2, sub_self, mul_zero, neg_zero] at this
      exact this
  · rintro ⟨lm, hlm, hall⟩ k hk
    rw [h.lm] at hlm
    have hlm := XR.fin_inj.mp hlm
    constructor
    · have := (hsc k hk).unique (hall k hk).1
      rw [hlm]
      linarith
    · have := (hse k hk).unique (hall k hk).2
      rw [neg_eq_zero, mul_eq_zero] at this
      rcases this with h0 | h0
      · exact absurd h0 (hcv k hk).ne'
      · linarith

/-- The hypotheses are met by the object of the examples of C35-C37. -/
example (T : ℝ) (hT : 0 < T) : ∃ F,
    FPI.init (.radial ⟨fins [0, 1, 2]⟩) (fins (tab 3 demoF)) (.atom (demoS true)) (XR.fin 0)
      (some (XR.fin T)) false = .ok F ∧
    (F.updateParams (fins [1]) (fins [1]) true true = .ok (fins [1], fins [1]) ↔
      ∃ lm, F.lm = XR.fin lm ∧ ∀ k < 1,
        KLSlope F.toFit (fun t => ([1].set k t, [1])) (vec [1] k) (-lm) ∧
        KLSlope F.toFit (fun t => ([1], [1].set k t)) (vec [1] k) 0) := by
  obtain ⟨F, h1, h2⟩ := demo_isFPI T hT
  exact ⟨F, h1, C38_stationary h2 demo_W demo_sees (fun i _ => demoF_pos i) [1] [1] rfl rfl (by simp)
    (by simp) demo_unmasked⟩

end
end BFit
