import Verif.Props.FPICoeffLimit

/-! Property C121: the fixed-point iteration and SLSQP look for the same coefficients. -/

namespace BFit

open Real Classical Finset

noncomputable section

/-- A `KLDivergenceFPI` object and a `ScipyFit` object (SLSQP, Kullback-Leibler measure, weights one) that fit
the same density with the same kind of model on the same grid. -/
structure Twins (F : FPI) (S : SFit) (Sh : Shape) (N : ℕ) (W f : ℕ → ℝ) (μ T : ℝ) : Prop where
  fpi : IsFPI F true Sh N W f μ T
  data : FitData S.toFit true Sh N W f
  target : S.integralDens = XR.fin T
  method : S.method = .slsqp
  weights : S.weights = fins (tab N fun _ => 1)
  measure : ∃ nv, S.measure = .kl ⟨XR.fin μ, nv⟩

theorem Shape.Clear.mono {S : Shape} {N : ℕ} {f : ℕ → ℝ} {μ T T' : ℝ} {e : List ℝ}
    (h : S.Clear N f μ T e) (he : e.length = S.nb) (hep : ∀ a ∈ e, 0 < a) (hT : T ≤ T') : S.Clear N f μ T' e := by
  intro k hk i hi
  refine (h k hk i hi).mono (mul_le_mul_of_nonneg_right hT ?_)
  exact bf_nonneg _ _ (vec_of_mem he hep k hk).le

section
variable {F : FPI} {S : SFit} {Sh : Shape} {N : ℕ} {W f : ℕ → ℝ} {μ T : ℝ}

theorem Twins.func (t : Twins F S Sh N W f μ T) (hf : ∀ i < N, 0 < f i) {c e : List ℝ} (hc : c.length = Sh.nb)
    (he : e.length = Sh.nb) (hep : ∀ a ∈ e, 0 < a) (hu : Sh.AllUnmasked true N μ f c e) :
    ∃ g, S.func (fins c) (.fixedExpons (fins e)) = .ok (XR.fin (klTotal Sh N W f μ c e), g) := by
  obtain ⟨nv, hm⟩ := t.measure
  have hma := measAt_kl N f μ nv hf
  rw [← hm] at hma
  rw [func_fins t.data t.weights hma (.coeffs _ e hc he) (fun _ a ha => (hep a ha).le) hu]
  have : ∑ i ∈ range N, W i * (1 * klInt (f i) (Sh.dens true (vec c) (vec e) i)) = klTotal Sh N W f μ c e := by
    unfold klTotal
    exact sum_congr rfl fun i hi => by rw [klVal_unmasked (hu i (mem_range.mp hi)), one_mul]
  rw [this]
  exact ⟨_, rfl⟩

theorem Twins.const (t : Twins F S Sh N W f μ T) {e : List ℝ} (he : e.length = Sh.nb)
    (hep : ∀ a ∈ e, 0 < a) {I : ℕ → ℝ}
    (hI : ∀ k < Sh.nb, S.integrate (fins (tab N fun i => bf (Sh.isS k) true (vec e k) (Sh.rad k i))) =
      .ok (XR.fin (I k))) (c : Fin Sh.nb → ℝ) :
    S.constNorm (fins (List.ofFn c)) (.fixedExpons (fins e)) = .ok (XR.fin (T - ∑ k, c k * I k)) := by
  unfold SFit.constNorm
  rw [evaluateModel_fins t.data (.coeffs _ e (by simp) he) fun _ a ha => (hep a ha).le]
  simp only [Fit.integrate]
  rw [t.data.quad.fin, t.target]
  have : ∑ i ∈ range N, W i * Sh.dens true (vec (List.ofFn c)) (vec e) i = ∑ k, c k * I k := by
    simp only [dens_ofFn, mul_sum]
    rw [sum_comm]
    refine sum_congr rfl fun k _ => ?_
    have hk := hI k k.2
    simp only [Fit.integrate] at hk
    rw [t.data.quad.fin] at hk
    injection hk with hk
    injection hk with hk
    rw [← hk, mul_sum]
    exact sum_congr rfl fun i _ => by ring
  rw [this]
  simp

/-- Multiplying all coefficients by the same number. -/
theorem klTotal_scale {S : Shape} {N : ℕ} {W f : ℕ → ℝ} {μ : ℝ} {e : List ℝ} (hf : ∀ i < N, 0 < f i)
    {c : Fin S.nb → ℝ} {s : ℝ} (hs : 0 < s) (hu : S.AllUnmasked true N μ f (List.ofFn c) e)
    (hu' : S.AllUnmasked true N μ f (List.ofFn fun k => s * c k) e) :
    klTotal S N W f μ (List.ofFn fun k => s * c k) e =
      klTotal S N W f μ (List.ofFn c) e - (∑ i ∈ range N, W i * f i) * log s := by
  unfold klTotal
  rw [sum_mul, ← sum_sub_distrib]
  refine sum_congr rfl fun i hi => ?_
  have hi := mem_range.mp hi
  rw [klVal_unmasked (hu i hi), klVal_unmasked (hu' i hi)]
  have hp := unmasked_pos (hf i hi).le (hu i hi)
  have he : S.dens true (vec (List.ofFn fun k => s * c k)) (vec e) i =
      s * S.dens true (vec (List.ofFn c)) (vec e) i := by
    simp only [dens_ofFn, mul_sum]
    exact sum_congr rfl fun k _ => by ring
  unfold klInt
  rw [he, log_div (hf i hi).ne' (mul_pos hs hp).ne', log_div (hf i hi).ne' hp.ne', log_mul hs.ne' hp.ne']
  ring

/-- **C121** (upper bound).  Both objects on the same data, the grid integrals of all basis functions within
`η < 1` of one.  After a run of the fixed-point iteration on the coefficients with `n` updates, from
coefficients of at least `m` that sum to `integral_dens`, the SLSQP constraint is violated by at most
`η integral_dens`, and the SLSQP objective exceeds that of any vector feasible for SLSQP by at most
`J (log (integral_dens / m) / (n + 1) + log (1 / (1 - η)))`, where `J` is the integral of the density. -/
theorem C121_upper (t : Twins F S Sh N W f μ T) (hW : ∀ i < N, 0 ≤ W i) (hT : 0 < T) (hs : Sh.Sees N W f)
    (hf : ∀ i < N, 0 < f i) {o : FPIOpts} (hoc : o.optCoeffs = true) (hoe : o.optExpons = false)
    {c e : List ℝ} (hg : Sh.Good c e) {m η : ℝ} (hm0 : 0 < m) (hcm : ∀ a ∈ c, m ≤ a) (hsum : c.sum = T)
    (hη0 : 0 ≤ η) (hη1 : η < 1) (hm : Sh.Clear N f μ (T / (1 + η)) e) {I : ℕ → ℝ}
    (hI : ∀ k < Sh.nb, S.integrate (fins (tab N fun i => bf (Sh.isS k) true (vec e k) (Sh.rad k i))) =
      .ok (XR.fin (I k))) (hIη : ∀ k < Sh.nb, |I k - 1| ≤ η)
    {c0 : List XR} {so : SOpts} {P : SProblem} (hsc : so.optCoeffs = true) (hse : so.optExpons = false)
    (hsw : so.withConstraint = true) (hP : S.problem c0 (fins e) so = .ok P) :
    ∃ r v y g J, F.run (.arr (ND.vec (fins c))) (.arr (ND.vec (fins e))) o = .ok r ∧
      S.constNorm r.coeffs (.fixedExpons (fins e)) = .ok (XR.fin v) ∧ |v| ≤ η * T ∧
      P.objective r.coeffs = .ok (XR.fin y, g) ∧ F.integrate F.density = .ok (XR.fin J) ∧
      ∀ x, P.Feasible x → ∃ z g', P.objective (fins x) = .ok (XR.fin z, g') ∧
        y ≤ z + J * (log (T / m) / (r.fun_.length + 1) + log (1 / (1 - η))) := by
  have hN := hs.pos t.fpi.data.model.nb_pos
  have h1η : 0 < 1 + η := by linarith
  have h2η : 0 < 1 - η := by linarith
  have hTle : T / (1 + η) ≤ T := div_le_self hT.le (by linarith)
  have hmT := hm.mono hg.elen hg.epos hTle
  have hclear : ∀ {T'}, T / (1 + η) ≤ T' → ∀ d : Fin Sh.nb → ℝ, (∀ k, 0 ≤ d k) → ∑ k, d k = T' →
      Sh.AllUnmasked true N μ f (List.ofFn d) e := by
    intro T' hT' d hd hds
    refine (hm.mono hg.elen hg.epos hT').unmasked (lt_of_lt_of_le (div_pos hT h1η) hT') (by simp) ?_ ?_
    · rw [List.forall_mem_ofFn_iff]; exact hd
    · rw [List.sum_ofFn]; exact hds
  obtain ⟨r, hist, c', J, j1, j2, j3, j4, ⟨j5, j6, j7⟩, j8, j9⟩ := C81_rate t.fpi hW hT hs hf o hoc hoe c e hg
    hm0 hcm hsum hmT
  obtain ⟨b, rfl⟩ := list_ofFn_get c' j5
  rw [List.forall_mem_ofFn_iff] at j6
  rw [List.sum_ofFn] at j7
  obtain ⟨hb, ho, hc⟩ := problem_coeffs t.data hsc hse hP
  have hub := hclear hTle b (fun k => (j6 k).le) j7
  obtain ⟨g, hg1⟩ := t.func hf (c := List.ofFn b) (e := e) (by simp) hg.elen hg.epos hub
  have hJ : J = ∑ i ∈ range N, W i * f i := by
    rw [t.fpi.data.dens, Fit.integrate, t.fpi.data.quad.fin f] at j8
    injection j8 with j8
    injection j8 with j8
    exact j8.symm
  refine ⟨r, _, _, g, J, j1, by rw [j3]; exact t.const hg.elen hg.epos hI b, ?_, by rw [ho, j3]; exact hg1, j8,
    fun x hx => ?_⟩
  · rw [← j7, ← sum_sub_distrib, mul_sum]
    refine (abs_sum_le_sum_abs _ _).trans (sum_le_sum fun k _ => ?_)
    rw [show b k - b k * I k = b k * (1 - I k) by ring, abs_mul, abs_of_pos (j6 k), mul_comm, abs_sub_comm]
    exact mul_le_mul_of_nonneg_right (hIη k k.2) (j6 k).le
  · obtain ⟨d, rfl⟩ := list_ofFn_get x ((feasible_iff hb x).mp hx).1
    obtain ⟨hd, hdT⟩ := (feasible_constrained t.data hN t.target t.method hg.elen
      (fun _ a ha => (hg.epos a ha).le) hsc hse hsw hP hI d).mp hx
    have hd0 : ∀ k, 0 < d k := fun k => lt_of_lt_of_le (by norm_num) (hd k)
    set D := ∑ k, d k with hD
    have hIk : ∀ k : Fin Sh.nb, 1 - η ≤ I k ∧ I k ≤ 1 + η := fun k => by
      have := abs_le.mp (hIη k k.2); constructor <;> linarith
    have hDlo : T / (1 + η) ≤ D := by
      rw [div_le_iff₀ h1η, ← hdT, hD, sum_mul]
      exact sum_le_sum fun k _ => mul_le_mul_of_nonneg_left (hIk k).2 (hd0 k).le
    have hDhi : D ≤ T / (1 - η) := by
      rw [le_div_iff₀ h2η, ← hdT, hD, sum_mul]
      exact sum_le_sum fun k _ => mul_le_mul_of_nonneg_left (hIk k).1 (hd0 k).le
    have hDpos : 0 < D := lt_of_lt_of_le (div_pos hT h1η) hDlo
    have hud := hclear hDlo d (fun k => (hd0 k).le) hD.symm
    have hs0 : 0 < T / D := div_pos hT hDpos
    have hsumd : ∑ k, T / D * d k = T := by
      rw [← mul_sum, ← hD]; field_simp
    have hd' : ∀ k, 0 ≤ T / D * d k := fun k => mul_nonneg hs0.le (hd0 k).le
    have hud' := hclear hTle (fun k => T / D * d k) hd' hsumd
    obtain ⟨g', hg2⟩ := t.func hf (c := List.ofFn d) (e := e) (by simp) hg.elen hg.epos hud
    refine ⟨_, g', by rw [ho]; exact hg2, ?_⟩
    obtain ⟨p, x, q, y, l1, l2, l3, l4, l5, -⟩ := j9 (List.ofFn fun k => T / D * d k) (by simp)
      (by rw [List.forall_mem_ofFn_iff]; exact hd') (by rw [List.sum_ofFn]; exact hsumd)
    obtain ⟨p', k1, k2⟩ := goodness_klTotal t.fpi.data hN t.fpi.mask hf (List.ofFn fun k => T / D * d k) e
      (by simp) hg.elen (by rw [List.forall_mem_ofFn_iff]; exact hd') hg.epos
    obtain ⟨q', k3, k4⟩ := goodness_klTotal t.fpi.data hN t.fpi.mask hf (List.ofFn b) e
      (by simp) hg.elen (by rw [List.forall_mem_ofFn_iff]; exact fun k => (j6 k).le) hg.epos
    rw [l1] at k1
    injection k1 with k1
    rw [← k1, l2, XR.fin_inj] at k2
    rw [j3, j4, k3] at l3
    injection l3 with l3
    rw [l3, l4, XR.fin_inj] at k4
    rw [← k4]
    rw [klTotal_scale hf hs0 hud hud'] at k2
    have hlen : r.fun_.length = hist.length := by rw [j2]; simp
    rw [hlen]
    have hJ0 : 0 ≤ J := by
      rw [hJ]
      exact sum_nonneg fun i hi => mul_nonneg (hW i (mem_range.mp hi)) (hf i (mem_range.mp hi)).le
    have hlog : -log (T / D) ≤ log (1 / (1 - η)) := by
      rw [← log_inv, inv_div]
      refine log_le_log (div_pos hDpos hT) ?_
      rw [div_le_iff₀ hT, one_div_mul_eq_div]
      exact hDhi
    rw [← hJ] at k2
    have := mul_le_mul_of_nonneg_left hlog hJ0
    rw [mul_add, ← mul_div_assoc]
    linarith

/-- **C121** (lower bound).  The objective of a solution of the SLSQP problem exceeds that of coefficients of at
least `(1 + η) 1e-12` that sum to `integral_dens`, such as those of the fixed-point iteration, by at most
`J log (1 + η)`. -/
theorem C121_lower (t : Twins F S Sh N W f μ T) (hW : ∀ i < N, 0 ≤ W i) (hN : 0 < N) (hT : 0 < T)
    (hf : ∀ i < N, 0 < f i) {e : List ℝ} (he : e.length = Sh.nb) (hep : ∀ a ∈ e, 0 < a) {η : ℝ}
    (hη0 : 0 ≤ η) (hη1 : η < 1) (hm : Sh.Clear N f μ (T / (1 + η)) e) {I : ℕ → ℝ}
    (hI : ∀ k < Sh.nb, S.integrate (fins (tab N fun i => bf (Sh.isS k) true (vec e k) (Sh.rad k i))) =
      .ok (XR.fin (I k))) (hIη : ∀ k < Sh.nb, |I k - 1| ≤ η)
    {c0 : List XR} {so : SOpts} {P : SProblem} (hsc : so.optCoeffs = true) (hse : so.optExpons = false)
    (hsw : so.withConstraint = true) (hP : S.problem c0 (fins e) so = .ok P) {x : List ℝ} (hx : P.Solves x)
    {b : List ℝ} (hbl : b.length = Sh.nb) (hb12 : ∀ a ∈ b, (1 + η) * 1e-12 ≤ a) (hbs : b.sum = T) :
    ∃ z g y g' J, P.objective (fins x) = .ok (XR.fin z, g) ∧ P.objective (fins b) = .ok (XR.fin y, g') ∧
      F.integrate F.density = .ok (XR.fin J) ∧ z ≤ y + J * log (1 + η) := by
  have h1η : 0 < 1 + η := by linarith
  have h2η : 0 < 1 - η := by linarith
  obtain ⟨hb, ho, hc⟩ := problem_coeffs t.data hsc hse hP
  obtain ⟨d, rfl⟩ := list_ofFn_get b hbl
  rw [List.forall_mem_ofFn_iff] at hb12
  rw [List.sum_ofFn] at hbs
  have hd0 : ∀ k, 0 < d k := fun k => lt_of_lt_of_le (by positivity) (hb12 k)
  have hIk : ∀ k : Fin Sh.nb, 1 - η ≤ I k ∧ I k ≤ 1 + η := fun k => by
    have := abs_le.mp (hIη k k.2); constructor <;> linarith
  set D := ∑ k, d k * I k with hD
  have hDhi : D ≤ T * (1 + η) := by
    rw [← hbs, hD, sum_mul]
    exact sum_le_sum fun k _ => mul_le_mul_of_nonneg_left (hIk k).2 (hd0 k).le
  have hDlo : T * (1 - η) ≤ D := by
    rw [← hbs, hD, sum_mul]
    exact sum_le_sum fun k _ => mul_le_mul_of_nonneg_left (hIk k).1 (hd0 k).le
  have hDpos : 0 < D := lt_of_lt_of_le (mul_pos hT h2η) hDlo
  have hs0 : 0 < T / D := div_pos hT hDpos
  have hs1 : 1 / (1 + η) ≤ T / D := by
    rw [div_le_div_iff₀ h1η hDpos, one_mul]
    exact hDhi
  have hclear : ∀ {T'}, T / (1 + η) ≤ T' → ∀ d : Fin Sh.nb → ℝ, (∀ k, 0 ≤ d k) → ∑ k, d k = T' →
      Sh.AllUnmasked true N μ f (List.ofFn d) e := by
    intro T' hT' d hd hds
    refine (hm.mono he hep hT').unmasked (lt_of_lt_of_le (div_pos hT h1η) hT') (by simp) ?_ ?_
    · rw [List.forall_mem_ofFn_iff]; exact hd
    · rw [List.sum_ofFn]; exact hds
  have hud := hclear (div_le_self hT.le (by linarith)) d (fun k => (hd0 k).le) hbs
  have hud' := hclear (T' := T / D * T) (by
      have := mul_le_mul_of_nonneg_right hs1 hT.le
      rwa [one_div_mul_eq_div] at this) (fun k => T / D * d k)
    (fun k => mul_nonneg hs0.le (hd0 k).le) (by rw [← mul_sum, hbs])
  have hfe : P.Feasible (List.ofFn fun k => T / D * d k) := by
    refine (feasible_constrained t.data hN t.target t.method he
      (fun _ a ha => (hep a ha).le) hsc hse hsw hP hI _).mpr ⟨fun k => ?_, ?_⟩
    · calc (1e-12 : ℝ) = 1 / (1 + η) * ((1 + η) * 1e-12) := by field_simp
        _ ≤ T / D * d k := mul_le_mul hs1 (hb12 k) (by positivity) hs0.le
    · simp only [mul_assoc]
      rw [← mul_sum, ← hD]
      field_simp
  obtain ⟨-, z, g, hz, hopt⟩ := hx
  obtain ⟨y', g1, h1, h2⟩ := hopt _ hfe
  obtain ⟨g2, h3⟩ := t.func hf (c := List.ofFn d) (e := e) (by simp) he hep hud
  obtain ⟨g3, h4⟩ := t.func hf (c := List.ofFn fun k => T / D * d k) (e := e) (by simp) he hep hud'
  rw [ho] at h1
  simp only at h1
  rw [h4] at h1
  simp only [Except.ok.injEq, Prod.mk.injEq, XR.fin_inj] at h1
  refine ⟨z, g, _, g2, ∑ i ∈ range N, W i * f i, hz, by rw [ho]; exact h3,
    by rw [t.fpi.data.dens]; exact t.fpi.data.quad.fin f, ?_⟩
  rw [← h1.1, klTotal_scale hf hs0 hud hud'] at h2
  have hJ0 : 0 ≤ ∑ i ∈ range N, W i * f i :=
    sum_nonneg fun i hi => mul_nonneg (hW i (mem_range.mp hi)) (hf i (mem_range.mp hi)).le
  have hlog : -log (T / D) ≤ log (1 + η) := by
    rw [← log_inv, inv_div]
    refine log_le_log (div_pos hDpos hT) ?_
    rw [div_le_iff₀ hT, mul_comm]
    exact hDhi
  have := mul_le_mul_of_nonneg_left hlog hJ0
  linarith

/-- **C121** (fixed points).  If the grid integrals of all basis functions are one, coefficients above the
lower bound `1e-12` solve the SLSQP problem if and only if they sum to `integral_dens` and an update of the
fixed-point iteration leaves them unchanged. -/
theorem C121_fixed_points (t : Twins F S Sh N W f μ T) (hW : ∀ i < N, 0 ≤ W i) (hT : 0 < T) (hs : Sh.Sees N W f)
    (hf : ∀ i < N, 0 < f i) {e : List ℝ} (he : e.length = Sh.nb) (hep : ∀ a ∈ e, 0 < a)
    (hm : Sh.Clear N f μ T e)
    (hI : ∀ k < Sh.nb, S.integrate (fins (tab N fun i => bf (Sh.isS k) true (vec e k) (Sh.rad k i))) =
      .ok (XR.fin 1))
    {c0 : List XR} {so : SOpts} {P : SProblem} (hsc : so.optCoeffs = true) (hse : so.optExpons = false)
    (hsw : so.withConstraint = true) (hP : S.problem c0 (fins e) so = .ok P) {x : List ℝ}
    (hxl : x.length = Sh.nb) (hx12 : ∀ a ∈ x, 1e-12 < a) :
    P.Solves x ↔ x.sum = T ∧ F.updateParams (fins x) (fins e) true false = .ok (fins x, fins e) := by
  have hN := hs.pos t.fpi.data.model.nb_pos
  obtain ⟨hb, ho, hc⟩ := problem_coeffs t.data hsc hse hP
  have hx0 : ∀ a ∈ x, 0 < a := fun a ha => lt_trans (by norm_num) (hx12 a ha)
  have hg : Sh.Good x e := ⟨hxl, he, fun a ha => (hx0 a ha).le, hep⟩
  obtain ⟨d, rfl⟩ := list_ofFn_get x hxl
  rw [List.forall_mem_ofFn_iff] at hx12
  have hfe : ∀ c : Fin Sh.nb → ℝ, P.Feasible (List.ofFn c) ↔ (∀ k, 1e-12 ≤ c k) ∧ ∑ k, c k = T := by
    intro c
    have := feasible_constrained t.data hN t.target t.method he (fun _ a ha => (hep a ha).le) hsc hse hsw hP
      (I := fun _ => 1) hI c
    simpa only [mul_one] using this
  have hun : ∀ c : Fin Sh.nb → ℝ, (∀ k, 0 ≤ c k) → ∑ k, c k = T → Sh.AllUnmasked true N μ f (List.ofFn c) e := by
    intro c h1 h2
    exact hm.unmasked hT (by simp) (by rw [List.forall_mem_ofFn_iff]; exact h1) (by rw [List.sum_ofFn]; exact h2)
  have hbest : ∀ (hd : ∑ k, d k = T), F.updateParams (fins (List.ofFn d)) (fins e) true false =
      .ok (fins (List.ofFn d), fins e) ↔ F.BestCoeffs Sh.nb T e (List.ofFn d) := by
    intro hd
    rw [C80_optimal t.fpi hW hT hs hf _ e hg hx0 (by rw [List.sum_ofFn]; exact hd) hm]
    constructor
    · intro h1
      refine ⟨by simp, fun a ha => (hx0 a ha).le, by rw [List.sum_ofFn]; exact hd, fun c' k1 k2 k3 => ?_⟩
      obtain ⟨p, q, u, v, g1, g2, g3, g4, g5⟩ := h1 c' k1 k2 k3
      exact ⟨p, q, u, v, g1, g3, g2, g4, g5⟩
    · intro h1 c' k1 k2 k3
      obtain ⟨p, q, u, v, g1, g2, g3, g4, g5⟩ := h1.2.2.2 c' k1 k2 k3
      exact ⟨p, q, u, v, g1, g3, g2, g4, g5⟩
  have hobj : ∀ c : Fin Sh.nb → ℝ, (∀ k, 0 ≤ c k) → ∑ k, c k = T →
      ∃ g, P.objective (fins (List.ofFn c)) = .ok (XR.fin (klTotal Sh N W f μ (List.ofFn c) e), g) := by
    intro c h1 h2
    rw [ho]
    exact t.func hf (by simp) he hep (hun c h1 h2)
  have hd0 : ∀ k, 0 ≤ d k := fun k => le_trans (by norm_num) (hx12 k).le
  rw [List.sum_ofFn]
  constructor
  · rintro ⟨h1, z, g, h2, h3⟩
    have hd := ((hfe d).mp h1).2
    refine ⟨hd, (hbest hd).mpr ((best_iff t.fpi hN hf he hep d).mpr ⟨⟨hd0, hd⟩, fun c hc0 hcs => ?_⟩)⟩
    obtain ⟨g0, hg0⟩ := hobj d hd0 hd
    rw [h2] at hg0
    simp only [Except.ok.injEq, Prod.mk.injEq, XR.fin_inj] at hg0
    -- a small step towards `c`
    obtain ⟨s, hs0, hs1, hstep⟩ : ∃ s : ℝ, 0 < s ∧ s ≤ 1 ∧ ∀ k, 1e-12 ≤ d k + s * (c k - d k) := by
      have hev : ∀ᶠ s in nhdsWithin (0 : ℝ) (Set.Ioi 0), ∀ k, 1e-12 < d k + s * (c k - d k) := by
        rw [Filter.eventually_all]
        intro k
        have hcont : Continuous fun s : ℝ => d k + s * (c k - d k) := by fun_prop
        have : ∀ᶠ s in nhds (0 : ℝ), 1e-12 < d k + s * (c k - d k) :=
          hcont.continuousAt.eventually_const_lt (by simpa using hx12 k)
        exact this.filter_mono nhdsWithin_le_nhds
      have hev2 : ∀ᶠ s in nhdsWithin (0 : ℝ) (Set.Ioi 0), s < 1 :=
        (eventually_lt_nhds one_pos).filter_mono nhdsWithin_le_nhds
      obtain ⟨s, ⟨h5, h6⟩, h7⟩ := ((hev.and hev2).and self_mem_nhdsWithin).exists
      exact ⟨s, h7, h6.le, fun k => (h5 k).le⟩
    have hms : ∑ k, (d k + s * (c k - d k)) = T := by
      rw [sum_add_distrib, ← mul_sum, sum_sub_distrib, hd, hcs]
      ring
    obtain ⟨z', g', h4, h5⟩ := h3 _ ((hfe _).mpr ⟨hstep, hms⟩)
    have hm0 : ∀ k, 0 ≤ d k + s * (c k - d k) := fun k => le_trans (by norm_num) (hstep k)
    obtain ⟨g2, hg2⟩ := hobj _ hm0 hms
    rw [h4] at hg2
    simp only [Except.ok.injEq, Prod.mk.injEq, XR.fin_inj] at hg2
    rw [hg0.1, hg2.1] at h5
    -- convexity
    have hconv : klTotal Sh N W f μ (List.ofFn fun k => d k + s * (c k - d k)) e ≤
        (1 - s) * klTotal Sh N W f μ (List.ofFn d) e + s * klTotal Sh N W f μ (List.ofFn c) e := by
      unfold klTotal
      rw [mul_sum, mul_sum, ← sum_add_distrib]
      refine sum_le_sum fun i hi => ?_
      have hi := mem_range.mp hi
      have u1 := hun d hd0 hd i hi
      have u2 := hun c hc0 hcs i hi
      have u3 := hun _ hm0 hms i hi
      rw [klVal_unmasked u1, klVal_unmasked u2, klVal_unmasked u3]
      have p1 := unmasked_pos (hf i hi).le u1
      have p2 := unmasked_pos (hf i hi).le u2
      have p3 := unmasked_pos (hf i hi).le u3
      have hmix : Sh.dens true (vec (List.ofFn fun k => d k + s * (c k - d k))) (vec e) i =
          (1 - s) * Sh.dens true (vec (List.ofFn d)) (vec e) i + s * Sh.dens true (vec (List.ofFn c)) (vec e) i := by
        simp only [dens_ofFn, mul_sum]
        rw [← sum_add_distrib]
        exact sum_congr rfl fun k _ => by ring
      have hlog := strictConcaveOn_log_Ioi.concaveOn.2 (Set.mem_Ioi.mpr p1) (Set.mem_Ioi.mpr p2)
        (by linarith : 0 ≤ 1 - s) hs0.le (by ring)
      simp only [smul_eq_mul] at hlog
      rw [← hmix] at hlog
      unfold klInt
      rw [log_div (hf i hi).ne' p1.ne', log_div (hf i hi).ne' p2.ne', log_div (hf i hi).ne' p3.ne']
      have := mul_le_mul_of_nonneg_left hlog (mul_nonneg (hW i hi) (hf i hi).le)
      linarith
    have : 0 ≤ s * (klTotal Sh N W f μ (List.ofFn c) e - klTotal Sh N W f μ (List.ofFn d) e) := by linarith
    have := nonneg_of_mul_nonneg_right this hs0
    linarith
  · rintro ⟨hd, hup⟩
    have hB := ((best_iff t.fpi hN hf he hep d).mp ((hbest hd).mp hup)).2
    obtain ⟨g, hg⟩ := hobj d hd0 hd
    refine ⟨(hfe d).mpr ⟨fun k => (hx12 k).le, hd⟩, _, g, hg, fun y hy => ?_⟩
    obtain ⟨c, rfl⟩ := list_ofFn_get y ((feasible_iff hb y).mp hy).1
    obtain ⟨h1, h2⟩ := (hfe c).mp hy
    have hc0 : ∀ k, 0 ≤ c k := fun k => le_trans (by norm_num) (h1 k)
    obtain ⟨g', hg'⟩ := hobj c hc0 h2
    exact ⟨_, g', hg', hB c hc0 h2⟩

end

/-! ### Example: a grid on which two s-type functions have integral one -/

/-- `exp (-a r²)` at the two grid points. -/
def twinU : ℝ := 3 * √2 / 10

/-- See `twinU`. -/
def twinV : ℝ := 3 * √2 / 20

/-- The smaller exponent; the other one is twice as large. -/
def twinA : ℝ := 2 * π ^ (3 / 2 : ℝ) / ((twinU + twinV) * (√(-log twinV) - √(-log twinU)))

/-- The grid points. -/
def twinR : List ℝ := [√(-log twinU) / √twinA, √(-log twinV) / √twinA]

/-- The integration weights. -/
def twinW : ℝ := (√(-log twinV) / √twinA - √(-log twinU) / √twinA) / 2

theorem twin_num : 4 / 3 < √2 ∧ √2 < 3 / 2 := by
  constructor
  · rw [lt_sqrt (by norm_num)]; norm_num
  · rw [sqrt_lt' (by norm_num)]; norm_num

theorem twin_uv : 1 / 5 < twinV ∧ twinV < twinU ∧ twinU < 1 := by
  obtain ⟨h1, h2⟩ := twin_num
  unfold twinU twinV
  refine ⟨by linarith, by linarith, by linarith⟩

theorem twin_log : 0 < √(-log twinU) ∧ √(-log twinU) < √(-log twinV) ∧ √(-log twinV) < 2 := by
  obtain ⟨h1, h2, h3⟩ := twin_uv
  have h4 : log twinU < 0 := log_neg (by linarith) h3
  have h5 : log twinV < log twinU := log_lt_log (by linarith) h2
  refine ⟨sqrt_pos.mpr (by linarith), sqrt_lt_sqrt (by linarith) (by linarith), ?_⟩
  rw [sqrt_lt' (by norm_num)]
  have h6 := log_le_sub_one_of_pos (inv_pos.mpr (by linarith : 0 < twinV))
  rw [log_inv] at h6
  have h7 : twinV⁻¹ < 5 := by
    rw [inv_lt_comm₀ (by linarith) (by norm_num)]
    linarith
  linarith

theorem twin_pi : π ≤ π ^ (3 / 2 : ℝ) := by
  have h : (1 : ℝ) ≤ π := by linarith [pi_gt_three]
  calc π = π ^ (1 : ℝ) := (rpow_one π).symm
    _ ≤ π ^ (3 / 2 : ℝ) := rpow_le_rpow_of_exponent_le h (by norm_num)

theorem twinA_gt : π < twinA := by
  obtain ⟨h1, h2, h3⟩ := twin_uv
  obtain ⟨h4, h5, h6⟩ := twin_log
  obtain ⟨h7, h8⟩ := twin_num
  have hs : twinU + twinV < 1 := by unfold twinU twinV; linarith
  have hd : 0 < (twinU + twinV) * (√(-log twinV) - √(-log twinU)) := mul_pos (by linarith) (by linarith)
  have hd2 : (twinU + twinV) * (√(-log twinV) - √(-log twinU)) < 1 * 2 :=
    mul_lt_mul'' hs (by linarith) (by linarith) (by linarith)
  unfold twinA
  rw [lt_div_iff₀ hd]
  have := mul_lt_mul_of_pos_left hd2 pi_pos
  linarith [twin_pi]

theorem twinA_pos : 0 < twinA := pi_pos.trans twinA_gt

theorem twin_sq (L : ℝ) (hL : 0 ≤ L) : twinA * (√L / √twinA) ^ 2 = L := by
  rw [div_pow, sq_sqrt hL, sq_sqrt twinA_pos.le]
  field_simp [twinA_pos.ne']

/-- `exp (-a r²)` at the grid points is `twinU` and `twinV`. -/
theorem twin_exp (i : ℕ) (hi : i < 2) : exp (-(twinA * vec twinR i ^ 2)) = vec [twinU, twinV] i := by
  obtain ⟨h1, h2, h3⟩ := twin_uv
  have h4 : log twinU < 0 := log_neg (by linarith) h3
  have h5 : log twinV < 0 := log_neg (by linarith) (by linarith)
  interval_cases i
  · show exp (-(twinA * (√(-log twinU) / √twinA) ^ 2)) = twinU
    rw [twin_sq _ (by linarith), neg_neg, exp_log (by linarith)]
  · show exp (-(twinA * (√(-log twinV) / √twinA) ^ 2)) = twinV
    rw [twin_sq _ (by linarith), neg_neg, exp_log (by linarith)]

theorem twin_phi (k i : ℕ) (hk : k < 2) (hi : i < 2) :
    bf ((atomShape twinR 2 0).isS k) true (vec [twinA, 2 * twinA] k) ((atomShape twinR 2 0).rad k i) =
      (twinA / π) ^ (3 / 2 : ℝ) * ((2 ^ k : ℝ) ^ (3 / 2 : ℝ) * vec [twinU, twinV] i ^ (2 ^ k)) := by
  have h : decide (k < 2) = true := by simpa using hk
  have hA := twinA_pos
  simp only [atomShape, h, bf, sBasis, if_true]
  rw [← twin_exp i hi, ← exp_nat_mul]
  interval_cases k
  · simp [vec]
  · simp only [vec, List.getD_cons_succ, List.getD_cons_zero, pow_one]
    rw [show 2 * twinA / π = twinA / π * 2 by ring, mul_rpow (by positivity) (by norm_num), mul_assoc]
    congr 3
    push_cast
    ring

theorem twin_W : 0 < twinW := by
  obtain ⟨h4, h5, h6⟩ := twin_log
  have := sqrt_pos.mpr twinA_pos
  unfold twinW
  rw [← sub_div]
  exact div_pos (div_pos (by linarith) this) (by norm_num)

theorem twin_one : twinW * ((twinA / π) ^ (3 / 2 : ℝ) * (twinU + twinV)) = 1 := by
  obtain ⟨h1, h2, h3⟩ := twin_uv
  obtain ⟨h4, h5, h6⟩ := twin_log
  have hA := twinA_pos
  have hsA := sqrt_pos.mpr hA
  have hp : 0 < π ^ (3 / 2 : ℝ) := by positivity
  have e1 : (twinA / π) ^ (3 / 2 : ℝ) = twinA * √twinA / π ^ (3 / 2 : ℝ) := by
    rw [div_rpow hA.le pi_pos.le, sqrt_eq_rpow, show (3 / 2 : ℝ) = 1 + 1 / 2 by norm_num, rpow_add hA, rpow_one]
  have e2 : twinA * ((twinU + twinV) * (√(-log twinV) - √(-log twinU))) = 2 * π ^ (3 / 2 : ℝ) := by
    have hd : 0 < (twinU + twinV) * (√(-log twinV) - √(-log twinU)) := mul_pos (by linarith) (by linarith)
    conv_lhs => rw [twinA]
    exact div_mul_cancel₀ _ hd.ne'
  rw [e1, twinW, ← sub_div]
  calc (√(-log twinV) - √(-log twinU)) / √twinA / 2 * (twinA * √twinA / π ^ (3 / 2 : ℝ) * (twinU + twinV))
      = twinA * ((twinU + twinV) * (√(-log twinV) - √(-log twinU))) / (2 * π ^ (3 / 2 : ℝ)) := by
        field_simp
    _ = 1 := by rw [e2]; exact div_self (by positivity)

theorem twin_two : (2 : ℝ) ^ (3 / 2 : ℝ) * (twinU ^ 2 + twinV ^ 2) = twinU + twinV := by
  have e1 : (2 : ℝ) ^ (3 / 2 : ℝ) = 2 * √2 := by
    rw [sqrt_eq_rpow, show (3 / 2 : ℝ) = 1 + 1 / 2 by norm_num, rpow_add two_pos, rpow_one]
  have e2 : √2 ^ 2 = (2 : ℝ) := sq_sqrt (by norm_num)
  rw [e1]
  unfold twinU twinV
  linear_combination (9 * √2 / 40 : ℝ) * e2

theorem twin_quad : Quad (.radial ⟨fins twinR⟩) false 2 (fun _ => twinW) := by
  have h := quad_plain (hasWeights_radial twinR)
  have e : ∀ i < 2, vec (trapW twinR) i = twinW := by
    intro i hi
    interval_cases i <;> simp [trapW, trapWAux, twinR, vec, twinW]
  have hl : (trapW twinR).length = 2 := by simp [trapW, trapWAux, twinR]
  rw [hl] at h
  refine ⟨fun f => ?_, h.ok⟩
  rw [h.fin]
  congr 2
  exact sum_congr rfl fun i hi => by rw [e i (mem_range.mp hi)]

/-- The model of the example. -/
def twinAtom : Atomic :=
  { points := .one (fins twinR), coord := fins [0], radii := fins twinR, ns := 2, np := 0, normalized := true }

/-- The ScipyFit object of the example: density 1, two electrons. -/
def twinSFit : SFit where
  grid := .radial ⟨fins twinR⟩
  density := fins (tab 2 fun _ => 1)
  model := .atom twinAtom
  integralDens := XR.fin 2
  spherical := false
  maskValue := XR.fin 0
  measure := .kl ⟨XR.fin 0, XR.fin 0⟩
  method := .slsqp
  weights := fins (tab 2 fun _ => 1)

theorem twin_pair : ∃ F, FPI.init (.radial ⟨fins twinR⟩) (fins (tab 2 fun _ => 1)) (.atom twinAtom) (XR.fin 0)
    (some (XR.fin 2)) false = .ok F ∧
    Twins F twinSFit (atomShape twinR 2 0) 2 (fun _ => twinW) (fun _ => 1) 0 2 := by
  have hW := twin_W
  obtain ⟨F, h1, h2, -⟩ := (C34_finite (f := fun _ => 1) 0 (some 2)
    (atom_isModel (m := twinAtom) (rs := twinR) ⟨rfl, rfl, rfl⟩ (by simp)) twin_quad (by simp)
    (fun i _ => zero_le_one)).1 (by simpa [twinR] using hW.ne') (by norm_num)
  exact ⟨F, h1, h2, ⟨atom_isModel (m := twinAtom) (rs := twinR) ⟨rfl, rfl, rfl⟩ (by simp), rfl, twin_quad⟩, rfl, rfl,
    rfl, _, rfl⟩

theorem twin_integral (k : ℕ) (hk : k < 2) : twinSFit.integrate (fins (tab 2 fun i =>
    bf ((atomShape twinR 2 0).isS k) true (vec [twinA, 2 * twinA] k) ((atomShape twinR 2 0).rad k i))) =
      .ok (XR.fin 1) := by
  have := twin_quad.fin fun i =>
    bf ((atomShape twinR 2 0).isS k) true (vec [twinA, 2 * twinA] k) ((atomShape twinR 2 0).rad k i)
  simp only [Fit.integrate, twinSFit]
  rw [this, sum_range_succ, sum_range_succ, sum_range_zero, twin_phi k 0 hk (by norm_num),
    twin_phi k 1 hk (by norm_num)]
  have e1 : vec [twinU, twinV] 0 = twinU := rfl
  have e2 : vec [twinU, twinV] 1 = twinV := rfl
  rw [e1, e2]
  congr 2
  have h1 := twin_one
  have h2 := twin_two
  interval_cases k
  · norm_num
    linarith
  · simp only [pow_one]
    rw [← h1, ← h2]
    ring

theorem twin_clear : (atomShape twinR 2 0).Clear 2 (fun _ => 1) 0 1 [twinA, 2 * twinA] := by
  intro k hk i hi
  have hk : k < 2 := hk
  rw [Unmasked, twin_phi k i hk hi]
  obtain ⟨h1, h2, h3⟩ := twin_uv
  have hA : 1 ≤ (twinA / π) ^ (3 / 2 : ℝ) := by
    apply one_le_rpow _ (by norm_num)
    rw [le_div_iff₀ pi_pos]
    linarith [twinA_gt]
  have hk2 : (1 : ℝ) ≤ (2 ^ k : ℝ) ^ (3 / 2 : ℝ) := one_le_rpow (one_le_pow₀ (by norm_num)) (by norm_num)
  have hv : 1 / 25 ≤ vec [twinU, twinV] i ^ (2 ^ k) := by
    have h4 : 1 / 5 ≤ vec [twinU, twinV] i := by
      interval_cases i <;> simp [vec] <;> linarith
    interval_cases k
    · norm_num; linarith
    · norm_num; nlinarith
  have h5 : 1 / 25 ≤ (twinA / π) ^ (3 / 2 : ℝ) * ((2 ^ k : ℝ) ^ (3 / 2 : ℝ) * vec [twinU, twinV] i ^ (2 ^ k)) := by
    calc (1 / 25 : ℝ) = 1 * (1 * (1 / 25)) := by norm_num
      _ ≤ _ := mul_le_mul hA (mul_le_mul hk2 hv (by norm_num) (by linarith)) (by norm_num) (by linarith)
  have h7 : tiny ≤ 2 ^ (-100 : ℤ) := zpow_le_zpow_right₀ (by norm_num) (by norm_num)
  have h8 : (2 : ℝ) ^ (-100 : ℤ) < 1 / 25 := by norm_num
  constructor
  · linarith
  · rw [one_mul, one_mul]; exact lt_of_le_of_lt h7 (h8.trans_le h5)

theorem twin_sees : (atomShape twinR 2 0).Sees 2 (fun _ => twinW) fun _ => 1 := by
  intro k hk
  refine ⟨0, by norm_num, twin_W, one_pos, ?_⟩
  show √(-log twinU) / √twinA ≠ 0
  exact (div_pos twin_log.1 (sqrt_pos.mpr twinA_pos)).ne'

/-- C121 on the example: `x` above the lower bound solves the SLSQP problem exactly when it is a fixed point with
sum 2; a run from `[1/2, 3/2]` with `n` updates is within `2 W log 4 / (n + 1)` of every feasible vector; and a
solution is no worse than any coefficients with sum 2 above the lower bound. -/
example (c0 : List XR) (o : FPIOpts) (ho : o.optCoeffs = true ∧ o.optExpons = false) : ∃ F P,
    FPI.init (.radial ⟨fins twinR⟩) (fins (tab 2 fun _ => 1)) (.atom twinAtom) (XR.fin 0)
      (some (XR.fin 2)) false = .ok F ∧
    twinSFit.problem c0 (fins [twinA, 2 * twinA]) (pairOpts true) = .ok P ∧
    (∀ x : List ℝ, x.length = 2 → (∀ a ∈ x, 1e-12 < a) → (P.Solves x ↔ x.sum = 2 ∧
      F.updateParams (fins x) (fins [twinA, 2 * twinA]) true false = .ok (fins x, fins [twinA, 2 * twinA]))) ∧
    (∃ r y g J, F.run (.arr (ND.vec (fins [1 / 2, 3 / 2]))) (.arr (ND.vec (fins [twinA, 2 * twinA]))) o = .ok r ∧
      twinSFit.constNorm r.coeffs (.fixedExpons (fins [twinA, 2 * twinA])) = .ok (XR.fin 0) ∧
      P.objective r.coeffs = .ok (XR.fin y, g) ∧ F.integrate F.density = .ok (XR.fin J) ∧
      ∀ x, P.Feasible x → ∃ z g', P.objective (fins x) = .ok (XR.fin z, g') ∧
        y ≤ z + J * (log 4 / (r.fun_.length + 1))) ∧
    ∀ x b : List ℝ, P.Solves x → b.length = 2 → (∀ a ∈ b, 1e-12 ≤ a) → b.sum = 2 →
      ∃ z g y g', P.objective (fins x) = .ok (XR.fin z, g) ∧ P.objective (fins b) = .ok (XR.fin y, g') ∧ z ≤ y := by
  obtain ⟨F, h1, t⟩ := twin_pair
  have hA := twinA_pos
  have hep : ∀ a ∈ [twinA, 2 * twinA], 0 < a := by simp [hA]
  have hI : ∀ k < 2, |(1 : ℝ) - 1| ≤ 0 := by simp
  have hcl : (atomShape twinR 2 0).Clear 2 (fun _ => 1) 0 2 [twinA, 2 * twinA] :=
    twin_clear.mono rfl hep (by norm_num)
  have hcl0 : (atomShape twinR 2 0).Clear 2 (fun _ => 1) 0 (2 / (1 + 0)) [twinA, 2 * twinA] := by simpa using hcl
  obtain ⟨P, hP⟩ : ∃ P, twinSFit.problem c0 (fins [twinA, 2 * twinA]) (pairOpts true) = .ok P := ⟨_, rfl⟩
  refine ⟨F, P, h1, hP, fun x hx hx12 => ?_, ?_, fun x b hx hb hb12 hbs => ?_⟩
  · exact C121_fixed_points t (fun _ _ => twin_W.le) (by norm_num) twin_sees (fun _ _ => one_pos) rfl hep hcl
      twin_integral (so := pairOpts true) rfl rfl rfl hP hx hx12
  · obtain ⟨r, v, y, g, J, k1, k2, k3, k4, k5, k6⟩ := C121_upper t (fun _ _ => twin_W.le) (by norm_num) twin_sees
      (fun _ _ => one_pos) ho.1 ho.2 (c := [1 / 2, 3 / 2]) (e := [twinA, 2 * twinA])
      ⟨rfl, rfl, by simp; norm_num, hep⟩ (m := 1 / 2) (η := 0) (by norm_num) (by simp; norm_num) (by norm_num)
      le_rfl one_pos hcl0 twin_integral hI (so := pairOpts true) rfl rfl rfl hP
    rw [zero_mul, abs_nonpos_iff] at k3
    subst k3
    refine ⟨r, y, g, J, k1, k2, k4, k5, fun x hx => ?_⟩
    obtain ⟨z, g', l1, l2⟩ := k6 x hx
    refine ⟨z, g', l1, ?_⟩
    norm_num at l2
    exact l2
  · obtain ⟨z, g, y, g', J, l1, l2, l3, l4⟩ := C121_lower t (fun _ _ => twin_W.le) (by norm_num) (by norm_num)
      (fun _ _ => one_pos) (e := [twinA, 2 * twinA]) rfl hep (η := 0) le_rfl one_pos hcl0 twin_integral hI
      (so := pairOpts true) rfl rfl rfl hP hx hb (by simpa using hb12) hbs
    exact ⟨z, g, y, g', l1, l2, by simpa using l4⟩

end
end BFit
