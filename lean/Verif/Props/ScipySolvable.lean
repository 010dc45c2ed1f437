import Verif.Props.ScipyConvex
import Mathlib.Topology.Semicontinuity.Basic
import Mathlib.Topology.Order.Compact
import Mathlib.Analysis.Complex.ExponentialBounds

/-! Property C118: when the problem that ScipyFit hands to the optimiser has a solution. -/

namespace BFit

open Real Classical Finset

noncomputable section

/-- `x` is within the bounds and satisfies the constraints of the problem. -/
def SProblem.Feasible (P : SProblem) (x : List ℝ) : Prop :=
  x.length = P.bounds.length ∧ (∀ p ∈ List.zip (fins x) P.bounds, p.2.1 ≤ p.1 ∧ p.1 ≤ p.2.2) ∧
    ∀ con ∈ P.constraints, con (fins x) = .ok (XR.fin 0)

/-- `x` is feasible and no feasible vector has a smaller objective. -/
def SProblem.Solves (P : SProblem) (x : List ℝ) : Prop :=
  P.Feasible x ∧ ∃ o g, P.objective (fins x) = .ok (XR.fin o, g) ∧
    ∀ y, P.Feasible y → ∃ o' g', P.objective (fins y) = .ok (XR.fin o', g') ∧ o ≤ o'

theorem vec_ofFn {n : ℕ} (c : Fin n → ℝ) (k : Fin n) : vec (List.ofFn c) k = c k := by
  simp [vec, List.getD_eq_getElem?_getD]

theorem dens_ofFn (Sh : Shape) (norm : Bool) (c : Fin Sh.nb → ℝ) (e : ℕ → ℝ) (i : ℕ) :
    Sh.dens norm (vec (List.ofFn c)) e i =
      ∑ k : Fin Sh.nb, c k * bf (Sh.isS k) norm (e k) (Sh.rad k i) := by
  unfold Shape.dens
  rw [sum_range]
  exact sum_congr rfl fun k _ => by rw [vec_ofFn]

theorem continuous_dens (Sh : Shape) (norm : Bool) (e : ℕ → ℝ) (i : ℕ) :
    Continuous fun c : Fin Sh.nb → ℝ => Sh.dens norm (vec (List.ofFn c)) e i := by
  simp only [dens_ofFn]
  fun_prop

theorem list_ofFn_get {n : ℕ} (x : List ℝ) (h : x.length = n) : ∃ c : Fin n → ℝ, x = List.ofFn c := by
  subst h
  exact ⟨x.get, (List.ofFn_get x).symm⟩

/-- The feasible vectors of a problem whose bounds are `[1e-12, inf)`. -/
theorem feasible_iff {P : SProblem} {n : ℕ} (hb : P.bounds = List.replicate n (XR.fin 1e-12, XR.pinf))
    (x : List ℝ) : P.Feasible x ↔ x.length = n ∧ (∀ a ∈ x, 1e-12 ≤ a) ∧
      ∀ con ∈ P.constraints, con (fins x) = .ok (XR.fin 0) := by
  unfold SProblem.Feasible
  rw [hb, List.length_replicate]
  refine and_congr_right fun hl => and_congr_left fun _ => ?_
  have hz : List.zip (fins x) (List.replicate n (XR.fin 1e-12, XR.pinf)) =
      x.map fun a => (XR.fin a, (XR.fin 1e-12, XR.pinf)) := by
    apply List.ext_getElem
    · simp [hl]
    · intro i h1 h2
      simp [fins]
  rw [hz]
  simp only [List.mem_map, forall_exists_index, and_imp, forall_apply_eq_imp_iff₂, XR.le_fin]
  refine forall₂_congr fun a _ => ⟨fun h => h.1, fun h => ⟨h, XR.fin_le_pinf a⟩⟩

/-- The problem handed to the optimiser when only the coefficients are optimised. -/
theorem problem_coeffs {S : SFit} {norm : Bool} {Sh : Shape} {N : ℕ} {W f : ℕ → ℝ}
    (h : FitData S.toFit norm Sh N W f) {c0 e0 : List XR} {o : SOpts} {P : SProblem}
    (hoc : o.optCoeffs = true) (hoe : o.optExpons = false) (hP : S.problem c0 e0 o = .ok P) :
    P.bounds = List.replicate Sh.nb (XR.fin 1e-12, XR.pinf) ∧
      P.objective = (fun x => S.func x (.fixedExpons e0)) ∧
      P.constraints = S.constraints (.fixedExpons e0) o.withConstraint := by
  have hnb : S.model.nbasis = (Sh.nb : ℤ) := h.model.nbasis
  unfold SFit.problem SFit.setup at hP
  simp only [hoc, hoe, Bool.and_false, Bool.false_eq_true, if_false, if_true, hnb, Int.toNat_natCast] at hP
  injection hP with hP
  subst hP
  exact ⟨rfl, rfl, rfl⟩

/-- `bf` is non-negative for the exponents that are allowed. -/
theorem bf_nonneg_of {norm : Bool} {e : List ℝ} (hpos : norm = true → ∀ a ∈ e, 0 ≤ a) (s : Bool) (r : ℝ)
    {k : ℕ} (hk : k < e.length) : 0 ≤ bf s norm (vec e k) r := by
  cases norm with
  | false => exact bf_nonneg_unnorm s _ r
  | true =>
    refine bf_nonneg s r ?_
    simp only [vec, List.getD_eq_getElem?_getD, List.getElem?_eq_getElem hk, Option.getD_some]
    exact hpos rfl _ (List.getElem_mem hk)

/-- Feasible vectors of the constrained problem, in real numbers. -/
theorem feasible_constrained {S : SFit} {norm : Bool} {Sh : Shape} {N : ℕ} {W f : ℕ → ℝ} {T : ℝ}
    (h : FitData S.toFit norm Sh N W f) (hN0 : 0 < N) (hT : S.integralDens = XR.fin T) (hs : S.method = .slsqp)
    {c0 : List XR} {e : List ℝ} {o : SOpts} {P : SProblem} (he : e.length = Sh.nb)
    (hpos : norm = true → ∀ a ∈ e, 0 ≤ a)
    (hoc : o.optCoeffs = true) (hoe : o.optExpons = false) (hw : o.withConstraint = true)
    (hP : S.problem c0 (fins e) o = .ok P) {I : ℕ → ℝ}
    (hI : ∀ k < Sh.nb, S.integrate (fins (tab N fun i => bf (Sh.isS k) norm (vec e k) (Sh.rad k i))) =
      .ok (XR.fin (I k))) (c : Fin Sh.nb → ℝ) :
    P.Feasible (List.ofFn c) ↔ (∀ k, 1e-12 ≤ c k) ∧ ∑ k, c k * I k = T := by
  obtain ⟨hb, ho, hc⟩ := problem_coeffs h hoc hoe hP
  rw [feasible_iff hb, hc]
  obtain ⟨M, ⟨p, hp, hpM⟩, -, h2⟩ := C43_const_norm h hN0 hT (.fixedExpons (fins e)) (List.ofFn c) (List.ofFn c) e
    (.coeffs _ e (by simp) he) hpos
  obtain ⟨M', kl, h8, -⟩ := goodness_fins h hN0 (List.ofFn c) e (by simp) he hpos
  rw [hp] at h8
  injection h8 with h8
  rw [h8] at hpM
  simp only [XR.fin_inj] at hpM
  have hsum : M = ∑ k, c k * I k := by
    rw [← hpM]
    simp only [dens_ofFn, mul_sum]
    rw [sum_comm]
    refine sum_congr rfl fun k _ => ?_
    have hk := hI k k.2
    simp only [Fit.integrate] at hk
    rw [h.quad.fin] at hk
    injection hk with hk
    injection hk with hk
    rw [← hk, mul_sum]
    exact sum_congr rfl fun i _ => by ring
  simp only [SFit.constraints, hw, hs, if_true, List.mem_singleton, forall_eq, List.length_ofFn, true_and,
    List.mem_ofFn', Set.forall_mem_range, h2, hsum]

/-- **C118** (feasibility).  With the constraint, all basis functions having positive integrals, there is a
feasible vector exactly when the number of electrons reaches the integral of the model at the lower bounds. -/
theorem C118_feasible {S : SFit} {norm : Bool} {Sh : Shape} {N : ℕ} {W f : ℕ → ℝ} {T : ℝ}
    (h : FitData S.toFit norm Sh N W f) (hN0 : 0 < N) (hT : S.integralDens = XR.fin T) (hs : S.method = .slsqp)
    {c0 : List XR} {e : List ℝ} {o : SOpts} {P : SProblem} (he : e.length = Sh.nb) (hnb : 0 < Sh.nb)
    (hpos : norm = true → ∀ a ∈ e, 0 ≤ a)
    (hoc : o.optCoeffs = true) (hoe : o.optExpons = false) (hw : o.withConstraint = true)
    (hP : S.problem c0 (fins e) o = .ok P) {I : ℕ → ℝ}
    (hI : ∀ k < Sh.nb, S.integrate (fins (tab N fun i => bf (Sh.isS k) norm (vec e k) (Sh.rad k i))) =
      .ok (XR.fin (I k))) (hI0 : ∀ k < Sh.nb, 0 < I k) :
    (∃ x, P.Feasible x) ↔ 1e-12 * ∑ k ∈ range Sh.nb, I k ≤ T := by
  have key := feasible_constrained h hN0 hT hs he hpos hoc hoe hw hP hI
  have hb := (problem_coeffs h hoc hoe hP).1
  have hS : 0 < ∑ k : Fin Sh.nb, I k :=
    sum_pos (fun k _ => hI0 k k.2) ⟨⟨0, hnb⟩, mem_univ _⟩
  rw [sum_range]
  constructor
  · rintro ⟨x, hx⟩
    obtain ⟨c, rfl⟩ := list_ofFn_get x ((feasible_iff hb x).mp hx).1
    obtain ⟨h1, h2⟩ := (key c).mp hx
    rw [← h2, mul_sum]
    exact sum_le_sum fun k _ => mul_le_mul_of_nonneg_right (h1 k) (hI0 k k.2).le
  · intro hle
    refine ⟨List.ofFn fun _ => T / ∑ k : Fin Sh.nb, I k, (key _).mpr ⟨fun _ => ?_, ?_⟩⟩
    · rwa [le_div_iff₀ hS]
    · rw [← mul_sum, div_mul_cancel₀ _ hS.ne']

/-- The constrained coefficients form a compact set. -/
theorem compact_constrained {n : ℕ} {I : ℕ → ℝ} (T : ℝ) (hI0 : ∀ k < n, 0 < I k) :
    IsCompact {c : Fin n → ℝ | (∀ k, 1e-12 ≤ c k) ∧ ∑ k, c k * I k = T} := by
  refine isCompact_Icc (a := fun _ : Fin n => (1e-12 : ℝ)) (b := fun k => T / I k) |>.of_isClosed_subset ?_ ?_
  · have h1 : IsClosed {c : Fin n → ℝ | ∀ k, 1e-12 ≤ c k} := by
      simp only [Set.ofPred_forall]
      exact isClosed_iInter fun k => isClosed_le continuous_const (continuous_apply k)
    exact h1.inter (isClosed_eq (by fun_prop) continuous_const)
  · rintro c ⟨h1, h2⟩
    refine ⟨fun k => h1 k, fun k => ?_⟩
    show c k ≤ T / I k
    rw [le_div_iff₀ (hI0 k k.2), ← h2]
    refine single_le_sum (f := fun k => c k * I k) (fun j _ => mul_nonneg ?_ (hI0 j j.2).le) (mem_univ k)
    exact le_trans (by norm_num) (h1 j)

/-- A lower semicontinuous objective on a compact set of feasible coefficients that beats the others. -/
theorem solves_of_compact {P : SProblem} {n : ℕ} (hl : ∀ x, P.Feasible x → x.length = n)
    {obj : (Fin n → ℝ) → ℝ}
    (hobj : ∀ c, P.Feasible (List.ofFn c) → ∃ g, P.objective (fins (List.ofFn c)) = .ok (XR.fin (obj c), g))
    {K : Set (Fin n → ℝ)} (hK : IsCompact K) (hne : K.Nonempty) (hKF : ∀ c ∈ K, P.Feasible (List.ofFn c))
    (hlsc : LowerSemicontinuousOn obj K)
    (hout : ∀ c, P.Feasible (List.ofFn c) → c ∉ K → ∃ c' ∈ K, obj c' ≤ obj c) : ∃ x, P.Solves x := by
  obtain ⟨c, hc, hmin⟩ := hlsc.exists_isMinOn hne hK
  obtain ⟨g, hg⟩ := hobj c (hKF c hc)
  refine ⟨List.ofFn c, hKF c hc, obj c, g, hg, ?_⟩
  intro y hy
  obtain ⟨d, rfl⟩ := list_ofFn_get y (hl y hy)
  obtain ⟨g', hg'⟩ := hobj d hy
  refine ⟨obj d, g', hg', ?_⟩
  by_cases hd : d ∈ K
  · exact hmin hd
  · obtain ⟨d', hd', hle⟩ := hout d hy hd
    exact (hmin hd').trans hle

/-- Objective in real numbers. -/
def objAt (Sh : Shape) (norm : Bool) (N : ℕ) (W w : ℕ → ℝ) (v : ℕ → ℝ → ℝ) (e : List ℝ)
    (c : Fin Sh.nb → ℝ) : ℝ :=
  ∑ i ∈ range N, W i * (w i * v i (Sh.dens norm (vec (List.ofFn c)) (vec e) i))

theorem objAt_continuousOn {Sh : Shape} {norm : Bool} {N : ℕ} {W w : ℕ → ℝ} {v : ℕ → ℝ → ℝ} {e : List ℝ}
    {K : Set (Fin Sh.nb → ℝ)}
    (hv : ∀ i < N, ∀ c ∈ K, ContinuousAt (v i) (Sh.dens norm (vec (List.ofFn c)) (vec e) i)) :
    LowerSemicontinuousOn (objAt Sh norm N W w v e) K := by
  apply ContinuousOn.lowerSemicontinuousOn
  refine continuousOn_finsetSum _ fun i hi => ContinuousOn.mul continuousOn_const
    (ContinuousOn.mul continuousOn_const ?_)
  intro c hc
  have h1 := hv i (mem_range.mp hi) c hc
  have h2 : ContinuousAt (fun c : Fin Sh.nb → ℝ => Sh.dens norm (vec (List.ofFn c)) (vec e) i) c :=
    (continuous_dens Sh norm (vec e) i).continuousAt
  exact (ContinuousAt.comp (f := fun c : Fin Sh.nb → ℝ => Sh.dens norm (vec (List.ofFn c)) (vec e) i) h1
    h2).continuousWithinAt

theorem objAt_lsc {Sh : Shape} {norm : Bool} {N : ℕ} {W w : ℕ → ℝ} {v : ℕ → ℝ → ℝ} {e : List ℝ}
    (hW : ∀ i < N, 0 ≤ W i) (hw : ∀ i < N, 0 ≤ w i) (hv : ∀ i < N, LowerSemicontinuous (v i)) :
    LowerSemicontinuous (objAt Sh norm N W w v e) := by
  refine lowerSemicontinuous_sum fun i hi => ?_
  have hi := mem_range.mp hi
  have h1 : LowerSemicontinuous fun c : Fin Sh.nb → ℝ =>
      v i (Sh.dens norm (vec (List.ofFn c)) (vec e) i) :=
    (hv i hi).comp (continuous_dens Sh norm (vec e) i)
  have h2 := Continuous.comp_lowerSemicontinuous (g := fun t : ℝ => W i * (w i * t)) (by fun_prop) h1
    fun a b hab => mul_le_mul_of_nonneg_left (mul_le_mul_of_nonneg_left hab (hw i hi)) (hW i hi)
  exact h2

/-- Where the density is at least the mask, masking keeps the Kullback-Leibler value lower
semicontinuous. -/
theorem klVal_lsc {μ f : ℝ} (hf : μ ≤ f) (hμ : f * tiny ≤ μ) (hf0 : 0 < f) :
    LowerSemicontinuous (klVal μ f) := by
  have hμ0 : 0 < μ := lt_of_lt_of_le (mul_pos hf0 tiny_pos) hμ
  intro g a ha
  by_cases hg : μ < g
  · have hu : Unmasked μ f g := ⟨hg, lt_of_le_of_lt hμ hg⟩
    have h1 : ∀ᶠ t in nhds g, Unmasked μ f t := eventually_unmasked continuousAt_id hu
    have h2 := (hasDerivAt_klInt hf0 (hμ0.trans hg)).continuousAt
    rw [klVal_unmasked hu] at ha
    filter_upwards [h1, h2.eventually (lt_mem_nhds ha)] with y hy1 hy2
    rw [klVal_unmasked hy1]
    exact hy2
  · rw [klVal_masked fun hu => hg hu.1] at ha
    have hlt : g < f * exp (-a / f) := by
      have : 1 < exp (-a / f) := by
        rw [one_lt_exp_iff]
        exact div_pos (by linarith) hf0
      nlinarith
    filter_upwards [gt_mem_nhds hlt] with y hy
    by_cases hu : Unmasked μ f y
    · rw [klVal_unmasked hu, klInt]
      have hy0 : 0 < y := hμ0.trans hu.1
      have h3 : y / f < exp (-a / f) := by rw [div_lt_iff₀ hf0]; linarith
      have h4 := log_lt_log (div_pos hy0 hf0) h3
      rw [log_exp, log_div hy0.ne' hf0.ne'] at h4
      rw [log_div hf0.ne' hy0.ne']
      have h5 := mul_lt_mul_of_pos_left h4 hf0
      have h6 : f * (-a / f) = -a := by field_simp
      linarith
    · rw [klVal_masked hu]
      exact ha

/-- Larger coefficients give larger models. -/
theorem dens_mono {Sh : Shape} {norm : Bool} {e : List ℝ} (he : e.length = Sh.nb)
    (hpos : norm = true → ∀ a ∈ e, 0 ≤ a) {c d : Fin Sh.nb → ℝ} (h : ∀ k, c k ≤ d k) (i : ℕ) :
    Sh.dens norm (vec (List.ofFn c)) (vec e) i ≤ Sh.dens norm (vec (List.ofFn d)) (vec e) i := by
  rw [dens_ofFn, dens_ofFn]
  exact sum_le_sum fun k _ => mul_le_mul_of_nonneg_right (h k) (bf_nonneg_of hpos _ _ (k.2.trans_eq he.symm))

theorem dens_nonneg_of {Sh : Shape} {norm : Bool} {e : List ℝ} (he : e.length = Sh.nb)
    (hpos : norm = true → ∀ a ∈ e, 0 ≤ a) {c : Fin Sh.nb → ℝ} (h : ∀ k, 0 ≤ c k) (i : ℕ) :
    0 ≤ Sh.dens norm (vec (List.ofFn c)) (vec e) i := by
  rw [dens_ofFn]
  exact sum_nonneg fun k _ => mul_nonneg (h k) (bf_nonneg_of hpos _ _ (k.2.trans_eq he.symm))

theorem Unmasked.mono {μ f g g' : ℝ} (h : Unmasked μ f g) (hg : g ≤ g') : Unmasked μ f g' :=
  ⟨h.1.trans_le hg, h.2.trans_le hg⟩

theorem ofFn_const (n : ℕ) (a : ℝ) : List.ofFn (fun _ : Fin n => a) = List.replicate n a := by
  simp

theorem tsallis_made {α μ : ℝ} {t : Tsallis} (ht : Tsallis.init α (XR.fin μ) = .ok t) :
    0 ≤ α ∧ α ≠ 1 ∧ (⟨α, XR.fin μ⟩ : Tsallis) = t := by
  have hα : 0 ≤ α ∧ 1e-10 ≤ |α - 1| := by
    by_contra hn
    rw [(C27_construction α (XR.fin μ)).2 hn] at ht
    simp at ht
  rw [(C27_construction α (XR.fin μ)).1 hα] at ht
  injection ht with ht
  refine ⟨hα.1, ?_, ht⟩
  rintro rfl
  norm_num at hα

/-- A constrained problem with a continuous objective. -/
theorem solves_constrained {S : SFit} {norm : Bool} {Sh : Shape} {N : ℕ} {W f w : ℕ → ℝ} {T : ℝ}
    (h : FitData S.toFit norm Sh N W f) (hN0 : 0 < N) (hT : S.integralDens = XR.fin T) (hs : S.method = .slsqp)
    (hwt : S.weights = fins (tab N w)) {Q : ℕ → ℝ → Prop} {v dv : ℕ → ℝ → ℝ}
    (hm : MeasAt S.measure (fins (tab N f)) N Q v dv) (hQ : ∀ i < N, ∀ y z, Q i y → y ≤ z → Q i z)
    {c0 : List XR} {e : List ℝ} {o : SOpts} {P : SProblem} (he : e.length = Sh.nb)
    (hpos : norm = true → ∀ a ∈ e, 0 ≤ a)
    (hQ0 : ∀ i < N, Q i (Sh.dens norm (vec (List.replicate Sh.nb 1e-12)) (vec e) i))
    (hoc : o.optCoeffs = true) (hoe : o.optExpons = false) (hw : o.withConstraint = true)
    (hP : S.problem c0 (fins e) o = .ok P) {I : ℕ → ℝ}
    (hI : ∀ k < Sh.nb, S.integrate (fins (tab N fun i => bf (Sh.isS k) norm (vec e k) (Sh.rad k i))) =
      .ok (XR.fin (I k))) (hI0 : ∀ k < Sh.nb, 0 < I k) (hF : ∃ x, P.Feasible x) : ∃ x, P.Solves x := by
  have key := feasible_constrained h hN0 hT hs he hpos hoc hoe hw hP hI
  obtain ⟨hb, ho, -⟩ := problem_coeffs h hoc hoe hP
  have hl : ∀ x, P.Feasible x → x.length = Sh.nb := fun x hx => ((feasible_iff hb x).mp hx).1
  have hQc : ∀ c : Fin Sh.nb → ℝ, (∀ k, 1e-12 ≤ c k) →
      ∀ i < N, Q i (Sh.dens norm (vec (List.ofFn c)) (vec e) i) := by
    intro c hc i hi
    refine hQ i hi _ _ (hQ0 i hi) ?_
    rw [← ofFn_const]
    exact dens_mono he hpos hc i
  refine solves_of_compact (obj := objAt Sh norm N W w v e) hl ?_ (compact_constrained T hI0) ?_
    (fun c hc => (key c).mpr hc) ?_ fun c hc hn => absurd ((key c).mp hc) hn
  · intro c hc
    rw [ho]
    exact ⟨_, func_fins h hwt hm (.coeffs _ e (by simp) he) hpos (hQc c ((key c).mp hc).1)⟩
  · obtain ⟨x, hx⟩ := hF
    obtain ⟨c, rfl⟩ := list_ofFn_get x (hl x hx)
    exact ⟨c, (key c).mp hx⟩
  · exact objAt_continuousOn fun i hi c hc => (hm.slope i hi _ (hQc c hc.1 i hi)).continuousAt

/-- **C118** (squared difference, constrained).  If the constrained coefficient problem has a feasible
vector, it has a solution. -/
theorem C118_squared {S : SFit} {norm : Bool} {Sh : Shape} {N : ℕ} {W f w : ℕ → ℝ} {T : ℝ}
    (h : FitData S.toFit norm Sh N W f) (hN0 : 0 < N) (hT : S.integralDens = XR.fin T) (hs : S.method = .slsqp)
    (hwt : S.weights = fins (tab N w)) (hm : S.measure = .sq)
    {c0 : List XR} {e : List ℝ} {o : SOpts} {P : SProblem} (he : e.length = Sh.nb)
    (hpos : norm = true → ∀ a ∈ e, 0 ≤ a)
    (hoc : o.optCoeffs = true) (hoe : o.optExpons = false) (hw : o.withConstraint = true)
    (hP : S.problem c0 (fins e) o = .ok P) {I : ℕ → ℝ}
    (hI : ∀ k < Sh.nb, S.integrate (fins (tab N fun i => bf (Sh.isS k) norm (vec e k) (Sh.rad k i))) =
      .ok (XR.fin (I k))) (hI0 : ∀ k < Sh.nb, 0 < I k) (hF : ∃ x, P.Feasible x) : ∃ x, P.Solves x := by
  have hma := measAt_sq N f
  rw [← hm] at hma
  exact solves_constrained h hN0 hT hs hwt hma (fun _ _ _ _ _ _ => trivial) he hpos (fun _ _ => trivial) hoc hoe
    hw hP hI hI0 hF

/-- **C118** (Kullback-Leibler, constrained).  The same when the density is positive and the model at the
lower bounds exceeds the mask. -/
theorem C118_kl {S : SFit} {norm : Bool} {Sh : Shape} {N : ℕ} {W f w : ℕ → ℝ} {T μ : ℝ} {nv : XR}
    (h : FitData S.toFit norm Sh N W f) (hN0 : 0 < N) (hT : S.integralDens = XR.fin T) (hs : S.method = .slsqp)
    (hwt : S.weights = fins (tab N w)) (hm : S.measure = .kl ⟨XR.fin μ, nv⟩) (hf : ∀ i < N, 0 < f i)
    {c0 : List XR} {e : List ℝ} {o : SOpts} {P : SProblem} (he : e.length = Sh.nb)
    (hpos : norm = true → ∀ a ∈ e, 0 ≤ a) (hu : Sh.AllUnmasked norm N μ f (List.replicate Sh.nb 1e-12) e)
    (hoc : o.optCoeffs = true) (hoe : o.optExpons = false) (hw : o.withConstraint = true)
    (hP : S.problem c0 (fins e) o = .ok P) {I : ℕ → ℝ}
    (hI : ∀ k < Sh.nb, S.integrate (fins (tab N fun i => bf (Sh.isS k) norm (vec e k) (Sh.rad k i))) =
      .ok (XR.fin (I k))) (hI0 : ∀ k < Sh.nb, 0 < I k) (hF : ∃ x, P.Feasible x) : ∃ x, P.Solves x := by
  have hma := measAt_kl N f μ nv hf
  rw [← hm] at hma
  exact solves_constrained h hN0 hT hs hwt hma (fun _ _ _ _ h1 h2 => h1.mono h2) he hpos hu hoc hoe hw hP hI hI0
    hF

/-- **C118** (Tsallis, constrained).  The same for a Tsallis object made by its constructor. -/
theorem C118_tsallis {S : SFit} {norm : Bool} {Sh : Shape} {N : ℕ} {W f w : ℕ → ℝ} {T α μ : ℝ} {t : Tsallis}
    (h : FitData S.toFit norm Sh N W f) (hN0 : 0 < N) (hT : S.integralDens = XR.fin T) (hs : S.method = .slsqp)
    (hwt : S.weights = fins (tab N w)) (ht : Tsallis.init α (XR.fin μ) = .ok t) (hm : S.measure = .ts t)
    (hf : ∀ i < N, 0 < f i)
    {c0 : List XR} {e : List ℝ} {o : SOpts} {P : SProblem} (he : e.length = Sh.nb)
    (hpos : norm = true → ∀ a ∈ e, 0 ≤ a) (hu : Sh.AllUnmasked norm N μ f (List.replicate Sh.nb 1e-12) e)
    (hoc : o.optCoeffs = true) (hoe : o.optExpons = false) (hw : o.withConstraint = true)
    (hP : S.problem c0 (fins e) o = .ok P) {I : ℕ → ℝ}
    (hI : ∀ k < Sh.nb, S.integrate (fins (tab N fun i => bf (Sh.isS k) norm (vec e k) (Sh.rad k i))) =
      .ok (XR.fin (I k))) (hI0 : ∀ k < Sh.nb, 0 < I k) (hF : ∃ x, P.Feasible x) : ∃ x, P.Solves x := by
  obtain ⟨-, h1, rfl⟩ := tsallis_made ht
  have hma := measAt_ts N f α μ h1 hf
  rw [← hm] at hma
  exact solves_constrained h hN0 hT hs hwt hma (fun _ _ _ _ h1 h2 => h1.mono h2) he hpos hu hoc hoe hw hP hI hI0
    hF

/-- The Kullback-Leibler objective with masked points. -/
theorem func_kl_masked {S : SFit} {norm : Bool} {Sh : Shape} {N : ℕ} {W f w : ℕ → ℝ} {μ : ℝ} {nv : XR}
    (h : FitData S.toFit norm Sh N W f) (hwt : S.weights = fins (tab N w))
    (hm : S.measure = .kl ⟨XR.fin μ, nv⟩) (hf : ∀ i < N, 0 < f i) {e : List ℝ} (he : e.length = Sh.nb)
    (hpos : norm = true → ∀ a ∈ e, 0 ≤ a) {c : Fin Sh.nb → ℝ} (hc : ∀ k, 1e-12 ≤ c k) :
    ∃ g, S.func (fins (List.ofFn c)) (.fixedExpons (fins e)) =
      .ok (XR.fin (objAt Sh norm N W w (fun i => klVal μ (f i)) e c), g) := by
  have hd : ∀ i < N, 0 ≤ Sh.dens norm (vec (List.ofFn c)) (vec e) i := fun i _ =>
    dens_nonneg_of he hpos (fun k => le_trans (by norm_num) (hc k)) i
  refine ⟨_, func_fins_of h hwt (v := fun i => klVal μ (f i)) (dv := fun i y => -klRatio μ (f i) y)
    (.coeffs _ e (by simp) he) hpos ?_⟩
  rw [hm]
  show KL.evaluate _ _ _ _ = _
  rw [kl_evaluate_vec _ _ _ (by simp), ← kl_core_tab μ nv N f _ hf hd true,
    ← kl_core_tab_deriv μ nv N f _ (fun i hi => (hf i hi).le) hd]

/-- **C118** (Kullback-Leibler with masked points, constrained).  If the density is nowhere below the mask
the problem has a solution, even though the objective jumps where a point becomes masked. -/
theorem C118_kl_masked {S : SFit} {norm : Bool} {Sh : Shape} {N : ℕ} {W f w : ℕ → ℝ} {T μ : ℝ} {nv : XR}
    (h : FitData S.toFit norm Sh N W f) (hN0 : 0 < N) (hT : S.integralDens = XR.fin T) (hs : S.method = .slsqp)
    (hwt : S.weights = fins (tab N w)) (hW : ∀ i < N, 0 ≤ W i) (hwn : ∀ i < N, 0 ≤ w i)
    (hm : S.measure = .kl ⟨XR.fin μ, nv⟩) (hμ0 : 0 < μ) (hf : ∀ i < N, μ ≤ f i ∧ f i * tiny ≤ μ)
    {c0 : List XR} {e : List ℝ} {o : SOpts} {P : SProblem} (he : e.length = Sh.nb)
    (hpos : norm = true → ∀ a ∈ e, 0 ≤ a)
    (hoc : o.optCoeffs = true) (hoe : o.optExpons = false) (hw : o.withConstraint = true)
    (hP : S.problem c0 (fins e) o = .ok P) {I : ℕ → ℝ}
    (hI : ∀ k < Sh.nb, S.integrate (fins (tab N fun i => bf (Sh.isS k) norm (vec e k) (Sh.rad k i))) =
      .ok (XR.fin (I k))) (hI0 : ∀ k < Sh.nb, 0 < I k) (hF : ∃ x, P.Feasible x) : ∃ x, P.Solves x := by
  have key := feasible_constrained h hN0 hT hs he hpos hoc hoe hw hP hI
  obtain ⟨hb, ho, -⟩ := problem_coeffs h hoc hoe hP
  have hl : ∀ x, P.Feasible x → x.length = Sh.nb := fun x hx => ((feasible_iff hb x).mp hx).1
  have hf0 : ∀ i < N, 0 < f i := fun i hi => hμ0.trans_le (hf i hi).1
  refine solves_of_compact (obj := objAt Sh norm N W w (fun i => klVal μ (f i)) e) hl ?_
    (compact_constrained T hI0) ?_ (fun c hc => (key c).mpr hc) ?_ fun c hc hn => absurd ((key c).mp hc) hn
  · intro c hc
    rw [ho]
    exact func_kl_masked h hwt hm hf0 he hpos ((key c).mp hc).1
  · obtain ⟨x, hx⟩ := hF
    obtain ⟨c, rfl⟩ := list_ofFn_get x (hl x hx)
    exact ⟨c, (key c).mp hx⟩
  · exact (objAt_lsc hW hwn fun i hi => klVal_lsc (hf i hi).1 (hf i hi).2 (hf0 i hi)).lowerSemicontinuousOn _

/-- Feasible vectors of the unconstrained problem. -/
theorem feasible_free {S : SFit} {norm : Bool} {Sh : Shape} {N : ℕ} {W f : ℕ → ℝ}
    (h : FitData S.toFit norm Sh N W f) {c0 : List XR} {e : List ℝ} {o : SOpts} {P : SProblem}
    (hoc : o.optCoeffs = true) (hoe : o.optExpons = false) (hw : o.withConstraint = false)
    (hP : S.problem c0 (fins e) o = .ok P) (c : Fin Sh.nb → ℝ) :
    P.Feasible (List.ofFn c) ↔ ∀ k, 1e-12 ≤ c k := by
  obtain ⟨hb, ho, hc⟩ := problem_coeffs h hoc hoe hP
  rw [feasible_iff hb, hc]
  simp [SFit.constraints, hw]

/-- **C118** (squared difference, unconstrained).  If every basis function is positive at some grid point of
positive weight, the problem without constraint has a solution. -/
theorem C118_free_squared {S : SFit} {norm : Bool} {Sh : Shape} {N : ℕ} {W f w : ℕ → ℝ}
    (h : FitData S.toFit norm Sh N W f) (hwt : S.weights = fins (tab N w)) (hW : ∀ i < N, 0 ≤ W i)
    (hwn : ∀ i < N, 0 ≤ w i) (hm : S.measure = .sq)
    {c0 : List XR} {e : List ℝ} {o : SOpts} {P : SProblem} (he : e.length = Sh.nb)
    (hpos : norm = true → ∀ a ∈ e, 0 ≤ a)
    (hsee : ∀ k < Sh.nb, ∃ i < N, 0 < W i ∧ 0 < w i ∧ 0 < bf (Sh.isS k) norm (vec e k) (Sh.rad k i))
    (hoc : o.optCoeffs = true) (hoe : o.optExpons = false) (hw : o.withConstraint = false)
    (hP : S.problem c0 (fins e) o = .ok P) : ∃ x, P.Solves x := by
  have key := feasible_free h hoc hoe hw hP
  obtain ⟨hb, ho, -⟩ := problem_coeffs h hoc hoe hP
  have hl : ∀ x, P.Feasible x → x.length = Sh.nb := fun x hx => ((feasible_iff hb x).mp hx).1
  have hma := measAt_sq N f
  rw [← hm] at hma
  set v : ℕ → ℝ → ℝ := fun i y => (f i - y) ^ 2 with hv
  set obj := objAt Sh norm N W w v e with hobj
  choose! p hpN hpW hpw hpb using hsee
  set lo : Fin Sh.nb → ℝ := fun _ => 1e-12 with hlo
  set B : Fin Sh.nb → ℝ := fun k => max 1e-12 ((|f (p k)| + (obj lo / (W (p k) * w (p k)) + 1)) /
    bf (Sh.isS k) norm (vec e k) (Sh.rad k (p k))) with hB
  have hobj0 : ∀ c, 0 ≤ obj c := fun c => sum_nonneg fun i hi =>
    mul_nonneg (hW i (mem_range.mp hi)) (mul_nonneg (hwn i (mem_range.mp hi)) (sq_nonneg _))
  refine solves_of_compact (obj := obj) hl ?_ (isCompact_Icc (a := lo) (b := B))
    ⟨lo, le_rfl, fun k => le_max_left _ _⟩ (fun c hc => (key c).mpr fun k => hc.1 k) ?_ ?_
  · intro c hc
    rw [ho]
    exact ⟨_, func_fins h hwt hma (.coeffs _ e (by simp) he) hpos fun _ _ => trivial⟩
  · exact objAt_continuousOn fun i hi c hc => (hma.slope i hi _ trivial).continuousAt
  · intro c hc hn
    refine ⟨lo, ⟨le_rfl, fun k => le_max_left _ _⟩, ?_⟩
    by_contra hlt
    refine hn ⟨fun k => (key c).mp hc k, fun k => le_max_of_le_right ?_⟩
    have hc0 : ∀ j, 0 ≤ c j := fun j => le_trans (by norm_num) ((key c).mp hc j)
    set i := p k with hi
    have hiN : i < N := hpN k k.2
    have hWw : 0 < W i * w i := mul_pos (hpW k k.2) (hpw k k.2)
    rw [le_div_iff₀ (hpb k k.2)]
    set D := Sh.dens norm (vec (List.ofFn c)) (vec e) i with hD
    have h1 : c k * bf (Sh.isS k) norm (vec e k) (Sh.rad k i) ≤ D := by
      rw [hD, dens_ofFn]
      exact single_le_sum (f := fun k : Fin Sh.nb => c k * bf (Sh.isS k) norm (vec e k) (Sh.rad k i))
        (fun j _ => mul_nonneg (hc0 j) (bf_nonneg_of hpos _ _ (j.2.trans_eq he.symm))) (mem_univ k)
    have h2 : W i * (w i * (f i - D) ^ 2) ≤ obj c :=
      single_le_sum (f := fun i => W i * (w i * v i (Sh.dens norm (vec (List.ofFn c)) (vec e) i)))
        (fun j hj => mul_nonneg (hW j (mem_range.mp hj)) (mul_nonneg (hwn j (mem_range.mp hj)) (sq_nonneg _)))
        (mem_range.mpr hiN)
    have h3 : (f i - D) ^ 2 ≤ obj lo / (W i * w i) := by
      rw [le_div_iff₀ hWw]
      nlinarith
    have h4 : D - f i ≤ obj lo / (W i * w i) + 1 := by nlinarith [sq_nonneg (f i - D + 1)]
    linarith [le_abs_self (f i)]

/-- **C118** (Kullback-Leibler, unconstrained).  Without constraint the objective takes arbitrarily low
values within the bounds, so there is nothing to converge to. -/
theorem C118_free_kl {S : SFit} {norm : Bool} {Sh : Shape} {N : ℕ} {W f w : ℕ → ℝ} {μ : ℝ} {nv : XR}
    (h : FitData S.toFit norm Sh N W f) (hwt : S.weights = fins (tab N w)) (hW : ∀ i < N, 0 ≤ W i)
    (hwn : ∀ i < N, 0 ≤ w i) (hsome : ∃ i < N, 0 < W i ∧ 0 < w i) (hm : S.measure = .kl ⟨XR.fin μ, nv⟩)
    (hf : ∀ i < N, 0 < f i) {c0 : List XR} {e : List ℝ} {o : SOpts} {P : SProblem} (he : e.length = Sh.nb)
    (hpos : norm = true → ∀ a ∈ e, 0 ≤ a)
    (hsee : ∀ i < N, ∃ k < Sh.nb, 0 < bf (Sh.isS k) norm (vec e k) (Sh.rad k i))
    (hoc : o.optCoeffs = true) (hoe : o.optExpons = false) (hw : o.withConstraint = false)
    (hP : S.problem c0 (fins e) o = .ok P) :
    (∀ B : ℝ, ∃ x, P.Feasible x ∧ ∃ v g, P.objective (fins x) = .ok (XR.fin v, g) ∧ v < B) ∧
      ¬ ∃ x, P.Solves x := by
  have key := feasible_free h hoc hoe hw hP
  obtain ⟨hb, ho, -⟩ := problem_coeffs h hoc hoe hP
  have main : ∀ B : ℝ, ∃ x, P.Feasible x ∧ ∃ v g, P.objective (fins x) = .ok (XR.fin v, g) ∧ v < B := by
    intro B
    set one : Fin Sh.nb → ℝ := fun _ => 1 with hone
    set G : ℕ → ℝ := Sh.dens norm (vec (List.ofFn one)) (vec e) with hG
    have hG0 : ∀ i < N, 0 < G i := by
      intro i hi
      obtain ⟨k, hk, hkb⟩ := hsee i hi
      rw [hG, dens_ofFn]
      exact sum_pos' (fun j _ => mul_nonneg zero_le_one (bf_nonneg_of hpos _ _ (j.2.trans_eq he.symm)))
        ⟨⟨k, hk⟩, mem_univ _, mul_pos one_pos hkb⟩
    have hsc : ∀ t : ℝ, ∀ i, Sh.dens norm (vec (List.ofFn fun _ : Fin Sh.nb => t)) (vec e) i = t * G i := by
      intro t i
      rw [hG, dens_ofFn, dens_ofFn, mul_sum]
      exact sum_congr rfl fun k _ => by simp [hone]
    set A := ∑ i ∈ range N, W i * (w i * klInt (f i) (G i)) with hA
    set C := ∑ i ∈ range N, W i * (w i * f i) with hC
    have hC0 : 0 < C := by
      obtain ⟨i, hi, h1, h2⟩ := hsome
      exact sum_pos' (fun j hj => mul_nonneg (hW j (mem_range.mp hj)) (mul_nonneg (hwn j (mem_range.mp hj))
        (hf j (mem_range.mp hj)).le)) ⟨i, mem_range.mpr hi, mul_pos h1 (mul_pos h2 (hf i hi))⟩
    -- thresholds: bound, mask at all points, and the value
    have hev : ∀ᶠ t in Filter.atTop, (1e-12 : ℝ) ≤ t ∧ (∀ i ∈ range N, Unmasked μ (f i) (t * G i)) ∧
        A - log t * C < B := by
      refine (Filter.eventually_ge_atTop _).and (Filter.Eventually.and ?_ ?_)
      · rw [Filter.eventually_all_finset]
        intro i hi
        have hgi := hG0 i (mem_range.mp hi)
        filter_upwards [Filter.eventually_gt_atTop (μ / G i), Filter.eventually_gt_atTop (f i * tiny / G i)]
          with t h1 h2
        exact ⟨(div_lt_iff₀ hgi).mp h1, (div_lt_iff₀ hgi).mp h2⟩
      · filter_upwards [tendsto_log_atTop.eventually_gt_atTop ((A - B) / C)] with t ht
        have := (div_lt_iff₀ hC0).mp ht
        linarith
    obtain ⟨t, ht1, ht2, ht3⟩ := hev.exists
    have ht0 : 0 < t := lt_of_lt_of_le (by norm_num) ht1
    refine ⟨List.ofFn fun _ : Fin Sh.nb => t, (key _).mpr fun _ => ht1, _, _, by
      rw [ho]
      refine func_fins h hwt (hm ▸ measAt_kl N f μ nv hf) (.coeffs _ e (by simp) he) hpos fun i hi => ?_
      rw [hsc]
      exact ht2 i (mem_range.mpr hi), ?_⟩
    refine lt_of_eq_of_lt ?_ ht3
    rw [hA, hC, mul_sum, ← sum_sub_distrib]
    refine sum_congr rfl fun i hi => ?_
    have hi := mem_range.mp hi
    rw [hsc, klInt, klInt, log_div (hf i hi).ne' (mul_pos ht0 (hG0 i hi)).ne', log_div (hf i hi).ne' (hG0 i hi).ne',
      log_mul ht0.ne' (hG0 i hi).ne']
    ring
  refine ⟨main, ?_⟩
  rintro ⟨x, -, v, g, -, hmin⟩
  obtain ⟨y, hy, v', g', h1, h2⟩ := main v
  obtain ⟨v'', g'', h3, h4⟩ := hmin y hy
  rw [h1] at h3
  injection h3 with h3
  injection h3 with h3 _
  injection h3 with h3
  linarith

/-- **C118** (Tsallis, unconstrained).  Doubling all coefficients lowers the objective, so no vector within
the bounds is a solution. -/
theorem C118_free_tsallis {S : SFit} {norm : Bool} {Sh : Shape} {N : ℕ} {W f w : ℕ → ℝ} {α μ : ℝ} {t : Tsallis}
    (h : FitData S.toFit norm Sh N W f) (hwt : S.weights = fins (tab N w)) (hW : ∀ i < N, 0 ≤ W i)
    (hwn : ∀ i < N, 0 ≤ w i) (hsome : ∃ i < N, 0 < W i ∧ 0 < w i)
    (ht : Tsallis.init α (XR.fin μ) = .ok t) (hm : S.measure = .ts t) (hf : ∀ i < N, 0 < f i)
    {c0 : List XR} {e : List ℝ} {o : SOpts} {P : SProblem} (he : e.length = Sh.nb)
    (hpos : norm = true → ∀ a ∈ e, 0 ≤ a) (hu : Sh.AllUnmasked norm N μ f (List.replicate Sh.nb 1e-12) e)
    (hoc : o.optCoeffs = true) (hoe : o.optExpons = false) (hw : o.withConstraint = false)
    (hP : S.problem c0 (fins e) o = .ok P) :
    (∀ x, P.Feasible x → P.Feasible (x.map (2 * ·)) ∧ ∃ v v' g g', P.objective (fins x) = .ok (XR.fin v, g) ∧
      P.objective (fins (x.map (2 * ·))) = .ok (XR.fin v', g') ∧ v' < v) ∧ ¬ ∃ x, P.Solves x := by
  have key := feasible_free h hoc hoe hw hP
  obtain ⟨hb, ho, -⟩ := problem_coeffs h hoc hoe hP
  obtain ⟨hα0, hα, rfl⟩ := tsallis_made ht
  have hma := measAt_ts N f α μ hα hf
  rw [← hm] at hma
  have hU : ∀ c : Fin Sh.nb → ℝ, (∀ k, 1e-12 ≤ c k) →
      ∀ i < N, Unmasked μ (f i) (Sh.dens norm (vec (List.ofFn c)) (vec e) i) := by
    intro c hc i hi
    refine (hu i hi).mono ?_
    rw [← ofFn_const]
    exact dens_mono he hpos hc i
  have main : ∀ x, P.Feasible x → P.Feasible (x.map (2 * ·)) ∧ ∃ v v' g g', P.objective (fins x) =
      .ok (XR.fin v, g) ∧ P.objective (fins (x.map (2 * ·))) = .ok (XR.fin v', g') ∧ v' < v := by
    intro x hx
    obtain ⟨c, rfl⟩ := list_ofFn_get x ((feasible_iff hb x).mp hx).1
    have hc := (key c).mp hx
    have hc2 : ∀ k, 1e-12 ≤ 2 * c k := fun k => by have := hc k; norm_num at this ⊢; linarith
    have hmap : (List.ofFn c).map (2 * ·) = List.ofFn fun k => 2 * c k := by
      rw [List.map_ofFn]; rfl
    rw [hmap, ho]
    refine ⟨(key _).mpr hc2, _, _, _, _, func_fins h hwt hma (.coeffs _ e (by simp) he) hpos (hU c hc),
      func_fins h hwt hma (.coeffs _ e (by simp) he) hpos (hU _ hc2), ?_⟩
    have hd : ∀ i, Sh.dens norm (vec (List.ofFn fun k => 2 * c k)) (vec e) i =
        2 * Sh.dens norm (vec (List.ofFn c)) (vec e) i := by
      intro i
      rw [dens_ofFn, dens_ofFn, mul_sum]
      exact sum_congr rfl fun k _ => by ring
    have hlt : ∀ i < N, tsInt α (f i) (Sh.dens norm (vec (List.ofFn fun k => 2 * c k)) (vec e) i) <
        tsInt α (f i) (Sh.dens norm (vec (List.ofFn c)) (vec e) i) := by
      intro i hi
      rw [hd]
      set g := Sh.dens norm (vec (List.ofFn c)) (vec e) i with hg
      have hg0 : 0 < g := unmasked_pos (hf i hi).le (hU c hc i hi)
      have h1 := ts_tangent hα0 hα (hf i hi) (mul_pos two_pos hg0) hg0
      have h2 : 0 < (f i / (2 * g)) ^ α := rpow_pos_of_pos (div_pos (hf i hi) (by linarith)) _
      nlinarith
    refine sum_lt_sum (fun i hi => ?_) ?_
    · have hi := mem_range.mp hi
      exact mul_le_mul_of_nonneg_left (mul_le_mul_of_nonneg_left (hlt i hi).le (hwn i hi)) (hW i hi)
    · obtain ⟨i, hi, h1, h2⟩ := hsome
      exact ⟨i, mem_range.mpr hi, mul_lt_mul_of_pos_left (mul_lt_mul_of_pos_left (hlt i hi) h2) h1⟩
  refine ⟨main, ?_⟩
  rintro ⟨x, hx, v, g, h1, hmin⟩
  obtain ⟨hF2, v1, v2, g1, g2, h2, h3, h4⟩ := main x hx
  obtain ⟨v3, g3, h5, h6⟩ := hmin _ hF2
  rw [h1] at h2
  rw [h3] at h5
  injection h2 with h2
  injection h2 with h2 _
  injection h2 with h2
  injection h5 with h5
  injection h5 with h5 _
  injection h5 with h5
  linarith

/-! ### Examples: two s-type functions with exponents 1 and 2, density 1, five electrons -/

/-- A fit of the density 1 by two unnormalised s-type functions. -/
def pairSFit (m : Meas) : SFit where
  grid := .radial ⟨fins [0, 1, 2]⟩
  density := fins (tab 3 fun _ => 1)
  model := .atom { points := .one (fins [0, 1, 2]), coord := fins [0], radii := fins [0, 1, 2], ns := 2, np := 0,
                   normalized := false }
  integralDens := XR.fin 5
  spherical := false
  maskValue := XR.fin 0
  measure := m
  method := .slsqp
  weights := fins (tab 3 fun i => (i : ℝ) + 1)

theorem pairSFit_data (m : Meas) : FitData (pairSFit m).toFit false (atomShape [0, 1, 2] 2 0) 3
    (vec [1 / 2, 1, 1 / 2]) fun _ => 1 :=
  ⟨atom_isModel (rs := [0, 1, 2]) ⟨rfl, rfl, rfl⟩ (by simp), rfl, demo_quad⟩

theorem pair_bf (k i : ℕ) (hk : k < 2) :
    bf ((atomShape [0, 1, 2] 2 0).isS k) false (vec [1, 2] k) ((atomShape [0, 1, 2] 2 0).rad k i) =
      exp (-vec [1, 2] k * vec [0, 1, 2] i ^ 2) := by
  have h : decide (k < 2) = true := by simpa using hk
  simp only [atomShape, h, bf, sBasis, if_true, Bool.false_eq_true, if_false]
  ring_nf

/-- Integrals of the two functions. -/
def pairI (k : ℕ) : ℝ := ∑ i ∈ range 3, vec [1 / 2, 1, (1 / 2 : ℝ)] i * exp (-vec [1, 2] k * vec [0, 1, 2] i ^ 2)

theorem pair_int (m : Meas) (k : ℕ) (hk : k < 2) : (pairSFit m).integrate (fins (tab 3 fun i =>
    bf ((atomShape [0, 1, 2] 2 0).isS k) false (vec [1, 2] k) ((atomShape [0, 1, 2] 2 0).rad k i))) =
      .ok (XR.fin (pairI k)) := by
  simp only [pair_bf k _ hk]
  exact (pairSFit_data m).quad.fin _

theorem pairI_pos (k : ℕ) : 0 < pairI k := by
  simp only [pairI, sum_range_succ, sum_range_zero, vec]
  norm_num
  positivity

theorem pairI_le (k : ℕ) (hk : k < 2) : pairI k ≤ 2 := by
  have h : ∀ x : ℝ, 0 ≤ x → exp (-x) ≤ 1 := fun x hx => exp_le_one_iff.mpr (by linarith)
  have h1 := h 1 (by norm_num)
  have h2 := h 2 (by norm_num)
  have h4 := h 4 (by norm_num)
  have h8 := h 8 (by norm_num)
  interval_cases k <;> simp only [pairI, sum_range_succ, sum_range_zero, vec] <;> norm_num <;> linarith

theorem pair_unmasked : (atomShape [0, 1, 2] 2 0).AllUnmasked false 3 0 (fun _ => 1) (List.replicate 2 1e-12)
    [1, 2] := by
  intro i hi
  have hd : (atomShape [0, 1, 2] 2 0).dens false (vec (List.replicate 2 1e-12)) (vec [1, 2]) i =
      1e-12 * (exp (-vec [1, 2] 0 * vec [0, 1, 2] i ^ 2) + exp (-vec [1, 2] 1 * vec [0, 1, 2] i ^ 2)) := by
    rw [Shape.dens]
    show ∑ k ∈ range 2, _ = _
    rw [sum_range_succ, sum_range_succ, sum_range_zero, pair_bf _ _ (by norm_num), pair_bf _ _ (by norm_num)]
    simp [vec]
    ring
  have h0 : 0 < exp (-vec [1, 2] 1 * vec [0, 1, 2] i ^ 2) := exp_pos _
  have h2 : 1 / 81 ≤ exp (-vec [1, 2] 0 * vec [0, 1, 2] i ^ 2) := by
    have h3 : exp (-4) ≤ exp (-vec [1, 2] 0 * vec [0, 1, 2] i ^ 2) := by
      rw [exp_le_exp]
      interval_cases i <;> norm_num [vec]
    have h4 : exp 4 ≤ 81 := by
      have h5 : exp 4 = exp 1 ^ 4 := by rw [← exp_nat_mul]; norm_num
      have h6 : exp 1 ≤ 3 := by linarith [exp_one_lt_three]
      rw [h5]
      calc exp 1 ^ 4 ≤ 3 ^ 4 := pow_le_pow_left₀ (exp_pos 1).le h6 4
        _ = 81 := by norm_num
    rw [exp_neg] at h3
    refine le_trans ?_ h3
    rw [one_div]
    exact inv_anti₀ (exp_pos 4) h4
  rw [Unmasked, hd]
  refine ⟨by positivity, ?_⟩
  have h7 : tiny ≤ 2 ^ (-100 : ℤ) := zpow_le_zpow_right₀ (by norm_num) (by norm_num)
  have h8 : (2 : ℝ) ^ (-100 : ℤ) < 1e-12 * (1 / 81) := by norm_num
  rw [one_mul]
  refine lt_of_le_of_lt h7 (h8.trans_le ?_)
  exact mul_le_mul_of_nonneg_left (by linarith) (by norm_num)

/-- Options of the examples: only the coefficients are optimised. -/
def pairOpts (b : Bool) : SOpts := ⟨true, false, 100, XR.fin 0, b⟩

/-- The constrained problems of the example are feasible and have solutions, for the squared difference, for
Kullback-Leibler without and with masked points and for Tsallis. -/
example (c0 : List XR) : ∃ P₁ P₂ P₃ P₄,
    (pairSFit .sq).problem c0 (fins [1, 2]) (pairOpts true) = .ok P₁ ∧
    (pairSFit (.kl ⟨XR.fin 0, XR.fin 7⟩)).problem c0 (fins [1, 2]) (pairOpts true) = .ok P₂ ∧
    (pairSFit (.kl ⟨XR.fin 1e-12, XR.fin 7⟩)).problem c0 (fins [1, 2]) (pairOpts true) = .ok P₃ ∧
    (pairSFit (.ts ⟨2, XR.fin 0⟩)).problem c0 (fins [1, 2]) (pairOpts true) = .ok P₄ ∧
    (∃ x, P₁.Solves x) ∧ (∃ x, P₂.Solves x) ∧ (∃ x, P₃.Solves x) ∧ ∃ x, P₄.Solves x := by
  have hF : ∀ (m : Meas) P, (pairSFit m).problem c0 (fins [1, 2]) (pairOpts true) = .ok P →
      ∃ x, P.Feasible x := by
    intro m P hP
    refine (C118_feasible (pairSFit_data m) (by norm_num) (T := 5) rfl rfl (c0 := c0) (e := [1, 2]) (o := pairOpts true) rfl (by simp [atomShape])
      (by simp) rfl rfl rfl hP (pair_int m) fun k _ => pairI_pos k).mpr ?_
    show 1e-12 * ∑ k ∈ range 2, pairI k ≤ 5
    have h0 := pairI_le 0 (by norm_num)
    have h1 := pairI_le 1 (by norm_num)
    rw [sum_range_succ, sum_range_succ, sum_range_zero]
    norm_num at h0 h1 ⊢
    linarith
  refine ⟨_, _, _, _, rfl, rfl, rfl, rfl, ?_, ?_, ?_, ?_⟩
  · exact C118_squared (pairSFit_data _) (by norm_num) (T := 5) rfl rfl (w := fun i => (i : ℝ) + 1) rfl rfl
      (c0 := c0) (e := [1, 2]) (o := pairOpts true) rfl (by simp) rfl rfl rfl rfl (pair_int _) (fun k _ => pairI_pos k) (hF _ _ rfl)
  · exact C118_kl (μ := 0) (nv := XR.fin 7) (pairSFit_data _) (by norm_num) (T := 5) rfl rfl (w := fun i => (i : ℝ) + 1) rfl rfl
      (fun _ _ => one_pos) (c0 := c0) (e := [1, 2]) (o := pairOpts true) rfl (by simp) pair_unmasked rfl rfl rfl rfl (pair_int _)
      (fun k _ => pairI_pos k) (hF _ _ rfl)
  · exact C118_kl_masked (μ := 1e-12) (nv := XR.fin 7) (pairSFit_data _) (by norm_num) (T := 5) rfl rfl (w := fun i => (i : ℝ) + 1) rfl
      demo_weights_nonneg (fun i _ => by positivity) rfl (by norm_num)
      (fun _ _ => ⟨by norm_num, by
        have h7 : tiny ≤ 2 ^ (-100 : ℤ) := zpow_le_zpow_right₀ (by norm_num) (by norm_num)
        rw [one_mul]
        exact h7.trans (by norm_num)⟩) (c0 := c0) (e := [1, 2]) (o := pairOpts true) rfl (by simp) rfl rfl rfl rfl (pair_int _)
      (fun k _ => pairI_pos k) (hF _ _ rfl)
  · exact C118_tsallis (α := 2) (μ := 0) (pairSFit_data _) (by norm_num) (T := 5) rfl rfl (w := fun i => (i : ℝ) + 1) rfl
      ((C27_construction 2 _).1 (by norm_num)) rfl
      (fun _ _ => one_pos) (c0 := c0) (e := [1, 2]) (o := pairOpts true) rfl (by simp) pair_unmasked rfl rfl rfl rfl (pair_int _)
      (fun k _ => pairI_pos k) (hF _ _ rfl)

/-- Without constraint the squared difference has a solution, Kullback-Leibler and Tsallis have none. -/
example (c0 : List XR) : ∃ P₁ P₂ P₃,
    (pairSFit .sq).problem c0 (fins [1, 2]) (pairOpts false) = .ok P₁ ∧
    (pairSFit (.kl ⟨XR.fin 0, XR.fin 7⟩)).problem c0 (fins [1, 2]) (pairOpts false) = .ok P₂ ∧
    (pairSFit (.ts ⟨2, XR.fin 0⟩)).problem c0 (fins [1, 2]) (pairOpts false) = .ok P₃ ∧
    (∃ x, P₁.Solves x) ∧ (¬ ∃ x, P₂.Solves x) ∧ ¬ ∃ x, P₃.Solves x := by
  have hsome : ∃ i < 3, 0 < vec [1 / 2, 1, (1 / 2 : ℝ)] i ∧ 0 < (fun i : ℕ => (i : ℝ) + 1) i :=
    ⟨0, by norm_num, by norm_num [vec], by norm_num⟩
  refine ⟨_, _, _, rfl, rfl, rfl, ?_, ?_, ?_⟩
  · refine C118_free_squared (pairSFit_data _) (w := fun i => (i : ℝ) + 1) rfl demo_weights_nonneg
      (fun i _ => by positivity) rfl (c0 := c0) (e := [1, 2]) (o := pairOpts false) rfl (by simp) ?_ rfl rfl rfl rfl
    intro k hk
    refine ⟨0, by norm_num, by norm_num [vec], by norm_num, ?_⟩
    rw [pair_bf k 0 hk]
    exact exp_pos _
  · refine (C118_free_kl (μ := 0) (nv := XR.fin 7) (pairSFit_data _) (w := fun i => (i : ℝ) + 1) rfl demo_weights_nonneg
      (fun i _ => by positivity) hsome rfl (fun _ _ => one_pos) (c0 := c0) (e := [1, 2]) (o := pairOpts false) rfl (by simp) ?_ rfl rfl rfl rfl).2
    intro i hi
    refine ⟨0, by simp [atomShape], ?_⟩
    rw [pair_bf 0 i (by norm_num)]
    exact exp_pos _
  · exact (C118_free_tsallis (α := 2) (μ := 0) (pairSFit_data _) (w := fun i => (i : ℝ) + 1) rfl demo_weights_nonneg
      (fun i _ => by positivity) hsome ((C27_construction 2 _).1 (by norm_num)) rfl (fun _ _ => one_pos)
      (c0 := c0) (e := [1, 2]) (o := pairOpts false) rfl (by simp) pair_unmasked rfl rfl rfl rfl).2

end
end BFit
