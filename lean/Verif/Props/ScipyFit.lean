import Verif.Lemmas.Scipy

/-! Properties of ScipyFit. -/

namespace BFit

open Real Classical Finset Topology

noncomputable section

/-! ### C42 -/

/-- The objective as a function of entry `k` of the vector has derivative `d` at `x`. -/
def ObjSlope (S : SFit) (args : SArgs) (x : List ℝ) (k : ℕ) (d : ℝ) : Prop :=
  ∃ φ : ℝ → ℝ, (∀ᶠ t in 𝓝 (vec x k), ∃ g, S.func (fins (x.set k t)) args = .ok (XR.fin (φ t), g)) ∧
    HasDerivAt φ d (vec x k)

/-- `func` returns a finite objective and its exact gradient. -/
def GradExact (S : SFit) (args : SArgs) (x : List ℝ) : Prop :=
  ∃ obj grad, S.func (fins x) args = .ok (XR.fin obj, fins grad) ∧ grad.length = x.length ∧
    ∀ k < x.length, ObjSlope S args x k (vec grad k)

theorem grad_exact {S : SFit} {norm : Bool} {Sh : Shape} {N : ℕ} {W f w : ℕ → ℝ}
    (h : FitData S.toFit norm Sh N W f) (hw : S.weights = fins (tab N w)) {P : ℕ → ℝ → Prop}
    {v dv : ℕ → ℝ → ℝ} (hm : MeasAt S.measure (fins (tab N f)) N P v dv)
    {args : SArgs} {x c e : List ℝ} (hp : Params Sh.nb args x c e)
    (hpos : norm = true → ∀ a ∈ e, 0 < a) (hP : ∀ i < N, P i (Sh.dens norm (vec c) (vec e) i)) :
    GradExact S args x := by
  refine ⟨_, _, func_fins h hw hm hp (fun hn a ha => (hpos hn a ha).le) hP, by simp, ?_⟩
  intro k hk
  obtain ⟨path, h1, h2, h3, h4⟩ := params_set (norm := norm) hp k hk hpos
  have hP' : ∀ᶠ t in 𝓝 (vec x k), ∀ i < N, P i (Sh.dens norm (vec (path t).1) (vec (path t).2) i) := by
    apply eventually_all
    intro i hi
    have hc := (h4 i).continuousAt
    have := hm.isOpen i hi _ (hP i hi)
    refine hc.eventually ?_
    simpa [h2] using this
  refine ⟨fun t => ∑ i ∈ range N, W i * (w i * v i (Sh.dens norm (vec (path t).1) (vec (path t).2) i)),
    ?_, ?_⟩
  · filter_upwards [h3, hP'] with t ht1 ht2
    exact ⟨_, func_fins h hw hm (h1 t) ht1 ht2⟩
  · rw [vec_tab hk]
    apply HasDerivAt.fun_sum
    intro i hi
    have hi := mem_range.mp hi
    have hs := hm.slope i hi _ (hP i hi)
    have hcomp : HasDerivAt (v i ∘ fun t => Sh.dens norm (vec (path t).1) (vec (path t).2) i)
        (dv i (Sh.dens norm (vec c) (vec e) i) * Sh.jcol norm c e (args.off Sh.nb + k) i) (vec x k) := by
      apply HasDerivAt.comp
      · simpa [h2] using hs
      · exact h4 i
    refine HasDerivAt.congr_deriv ((hcomp.const_mul (w i)).const_mul (W i)) ?_
    ring

/-- **C42** (squared difference).  In each mode the gradient returned by `func` is exact. -/
theorem C42_squared {S : SFit} {norm : Bool} {Sh : Shape} {N : ℕ} {W f w : ℕ → ℝ}
    (h : FitData S.toFit norm Sh N W f) (hw : S.weights = fins (tab N w)) (hm : S.measure = .sq)
    (args : SArgs) (x c e : List ℝ) (hp : Params Sh.nb args x c e)
    (hpos : norm = true → ∀ a ∈ e, 0 < a) : GradExact S args x :=
  grad_exact h hw (by rw [hm]; exact measAt_sq N f) hp hpos fun _ _ => trivial

/-- **C42** (Kullback-Leibler).  The same where the density is positive and the model exceeds the
mask. -/
theorem C42_kl {S : SFit} {norm : Bool} {Sh : Shape} {N : ℕ} {W f w : ℕ → ℝ} {μ : ℝ} {nv : XR}
    (h : FitData S.toFit norm Sh N W f) (hw : S.weights = fins (tab N w))
    (hm : S.measure = .kl ⟨XR.fin μ, nv⟩) (hf : ∀ i < N, 0 < f i)
    (args : SArgs) (x c e : List ℝ) (hp : Params Sh.nb args x c e)
    (hpos : norm = true → ∀ a ∈ e, 0 < a) (hu : Sh.AllUnmasked norm N μ f c e) : GradExact S args x :=
  grad_exact h hw (by rw [hm]; exact measAt_kl N f μ nv hf) hp hpos hu

/-- **C42** (Tsallis).  The same for a Tsallis object made by its constructor. -/
theorem C42_tsallis {S : SFit} {norm : Bool} {Sh : Shape} {N : ℕ} {W f w : ℕ → ℝ} {α μ : ℝ} {t : Tsallis}
    (h : FitData S.toFit norm Sh N W f) (hw : S.weights = fins (tab N w))
    (ht : Tsallis.init α (XR.fin μ) = .ok t) (hm : S.measure = .ts t) (hf : ∀ i < N, 0 < f i)
    (args : SArgs) (x c e : List ℝ) (hp : Params Sh.nb args x c e)
    (hpos : norm = true → ∀ a ∈ e, 0 < a) (hu : Sh.AllUnmasked norm N μ f c e) : GradExact S args x := by
  have hα : α ≠ 1 := by
    rintro rfl
    have := (C27_construction 1 (XR.fin μ)).2 (by norm_num)
    rw [this] at ht
    simp at ht
  have htt : t = ⟨α, XR.fin μ⟩ := by
    by_cases h : 0 ≤ α ∧ 1e-10 ≤ |α - 1|
    · rw [(C27_construction α (XR.fin μ)).1 h] at ht
      injection ht with ht
      exact ht.symm
    · rw [(C27_construction α (XR.fin μ)).2 h] at ht
      simp at ht
  exact grad_exact h hw (by rw [hm, htt]; exact measAt_ts N f α μ hα hf) hp hpos hu

/-- The fit object of the examples with a measure. -/
def demoSFit (m : Meas) : SFit :=
  { demoFit true demoF with measure := m, method := .slsqp, weights := fins (tab 3 fun i => (i : ℝ) + 1) }

theorem demoSFit_data (m : Meas) : FitData (demoSFit m).toFit true (atomShape [0, 1, 2] 1 0) 3
    (vec [1 / 2, 1, 1 / 2]) demoF := demoFit_data true demoF

/-- C42 with both parameters, only the coefficient and only the exponent. -/
example : GradExact (demoSFit .sq) .none [1, 1] ∧
    GradExact (demoSFit (.kl ⟨XR.fin 0, XR.fin 7⟩)) (.fixedExpons (fins [1])) [1] ∧
    GradExact (demoSFit (.ts ⟨2, XR.fin 0⟩)) (.fixedCoeffs (fins [1])) [1] :=
  ⟨C42_squared (w := fun i => (i : ℝ) + 1) (demoSFit_data _) rfl rfl _ [1, 1] [1] [1] (.both [1] [1] rfl rfl) (by simp),
   C42_kl (w := fun i => (i : ℝ) + 1) (demoSFit_data _) rfl rfl (fun i _ => demoF_pos i) _ _ _ _ (.coeffs [1] [1] rfl rfl) (by simp)
     demo_unmasked,
   C42_tsallis (w := fun i => (i : ℝ) + 1) (demoSFit_data _) rfl ((C27_construction 2 _).1 (by norm_num)) rfl
     (fun i _ => demoF_pos i) _ _ _ _ (.expons [1] [1] rfl rfl) (by simp) demo_unmasked⟩

/-! ### C43 -/

/-- **C43**.  `const_norm` is `integral_dens` minus the integral of the model, hence zero exactly when
the model integrates to `integral_dens`. -/
theorem C43_const_norm {S : SFit} {norm : Bool} {Sh : Shape} {N : ℕ} {W f : ℕ → ℝ} {T : ℝ}
    (h : FitData S.toFit norm Sh N W f) (hN0 : 0 < N) (hT : S.integralDens = XR.fin T)
    (args : SArgs) (x c e : List ℝ) (hp : Params Sh.nb args x c e) (hpos : norm = true → ∀ a ∈ e, 0 ≤ a) :
    ∃ I, (∃ p, S.goodness (fins c) (fins e) = .ok p ∧ p.integral = XR.fin I) ∧
      S.constNorm (fins x) args = .ok (XR.fin (T - I)) ∧
      (S.constNorm (fins x) args = .ok (XR.fin 0) ↔ I = T) := by
  · obtain ⟨M, kl, h1, -⟩ := goodness_fins h hN0 c e hp.len.1 hp.len.2 hpos
    have hcn : S.constNorm (fins x) args =
        .ok (XR.fin (T - ∑ i ∈ range N, W i * Sh.dens norm (vec c) (vec e) i)) := by
      unfold SFit.constNorm
      rw [evaluateModel_fins h hp hpos]
      simp only [Fit.integrate]
      rw [h.quad.fin, hT]
      simp
    refine ⟨_, ⟨_, h1, rfl⟩, hcn, ?_⟩
    rw [hcn, Except.ok.injEq, XR.fin_inj]
    constructor
    · intro h; linarith
    · rintro rfl; ring

theorem measure_sizes {m : Meas} {d g : List XR} {b : Bool} {o : MeasOut}
    (h : m.evaluate (.arr (ND.vec d)) (.arr (ND.vec g)) (.bool b) = .ok o) : g.length = d.length := by
  by_contra hne
  have hc : checkArgs (.arr (ND.vec d)) (.arr (ND.vec g)) (.bool b) = .error .valueError := by
    simp [checkArgs, ND.vec, hne, ND.ndim, raise]
  cases m <;> simp [Meas.evaluate, sqEvaluate, KL.evaluate, Tsallis.evaluate, hc] at h

/-- **C43** (method SLSQP).  The constraint handed to the optimiser is `const_norm` with the frozen
parameters of the objective, and it takes a value wherever the objective does. -/
theorem C43_slsqp (S : SFit) (hm : S.method = .slsqp) (c0 e0 : List XR) (o : SOpts) (P : SProblem)
    (hq : S.grid.len = S.density.length) (hg : S.grid.Full) (hs : S.spherical = false)
    (hP : S.problem c0 e0 o = .ok P) :
    (o.withConstraint = true → ∃ args, P.objective = (fun x => S.func x args) ∧
      P.constraints = [fun x => S.constNorm x args] ∧
      ∀ x ov, P.objective x = .ok ov → ∃ cv, S.constNorm x args = .ok cv) ∧
    (o.withConstraint = false → P.constraints = []) := by
  unfold SFit.problem at hP
  split at hP
  · simp at hP
  rename_i bounds x0 args hset
  injection hP with hP
  subst hP
  constructor
  · intro hw
    refine ⟨args, rfl, by simp [SFit.constraints, hw, hm], ?_⟩
    intro x ov hov
    simp only [SFit.func] at hov
    unfold SFit.constNorm
    rcases hev : S.evaluateModel x args with err | ⟨m, dm⟩
    · rw [hev] at hov; simp at hov
    rw [hev] at hov
    simp only at hov ⊢
    split at hov
    · simp at hov
    rename_i k dk hme
    have hlen := measure_sizes hme
    obtain ⟨v, hv⟩ := grid_integrate_ok S.grid hg m (hlen.trans hq.symm)
    have hi : S.integrate m = .ok v := by
      simp [Fit.integrate, integrateOn, hs, hv]
    rw [hi]
    exact ⟨_, rfl⟩
  · intro hw
    simp [SFit.constraints, hw]

theorem gmodel_evaluate_sizes (m : GModel) (c e : List XR) (d : Bool)
    (h : (c.length : ℤ) ≠ m.nbasis ∨ (e.length : ℤ) ≠ m.nbasis) :
    m.evaluate c e d = .error .valueError := by
  cases m with
  | atom m =>
    show m.evaluate _ _ d = _
    rw [(C19_evaluate m (ND.vec c) (ND.vec e) d).1]
    rintro ⟨-, -, h1, h2⟩
    rcases h with h | h
    · exact h (by simpa [ND.vec, ND.size, GModel.nbasis] using h1)
    · exact h (by simpa [ND.vec, ND.size, GModel.nbasis] using h2)
  | mol m =>
    show m.evaluate _ _ d = _
    unfold Molecular.evaluate
    rw [if_neg (by simp [ND.vec, ND.ndim]), if_pos (by simpa [ND.vec, ND.size, GModel.nbasis] using h)]
    rfl

/-- **C43 fails** for method trust-constr with frozen parameters: the constraint raises ValueError at
every vector of the length of the bounds. -/
theorem C43_trust_constr_raises (S : SFit) (hm : S.method = .trustConstr) (hnb : 0 < S.model.nbasis)
    (c0 e0 : List XR) (o : SOpts) (ho : o.withConstraint = true)
    (hof : o.optCoeffs = false ∨ o.optExpons = false) (P : SProblem)
    (hP : S.problem c0 e0 o = .ok P) :
    ∃ con, P.constraints = [con] ∧ P.bounds.length = S.model.nbasis ∧
      ∀ x : List XR, x.length = P.bounds.length → con x = .error .valueError := by
  unfold SFit.problem at hP
  split at hP
  · simp at hP
  rename_i bounds x0 args hset
  injection hP with hP
  subst hP
  have hbl : (bounds.length : ℤ) = S.model.nbasis := by
    unfold SFit.setup at hset
    rcases hof with h | h <;> cases h2 : o.optCoeffs <;> cases h3 : o.optExpons <;>
      simp [h2, h3, raise] at hset h
    all_goals (rw [← hset.1]; simp; omega)
  refine ⟨_, by simp only [SFit.constraints, ho, hm, if_true]; rfl, hbl, ?_⟩
  intro x hx
  simp only at hx
  unfold SFit.constNorm SFit.evaluateModel
  simp only
  rw [gmodel_evaluate_sizes]
  right
  obtain ⟨nb, hnb'⟩ := Int.eq_ofNat_of_zero_le hnb.le
  rw [hnb', sliceFrom_nat]
  simp
  omega

/-- **C43** (partial, method trust-constr).  When both parameters are optimised the constraint is the
same as with SLSQP.  Missing: the modes with frozen parameters (`C43_trust_constr_raises`). -/
theorem C43_trust_constr_partial (S : SFit) (c0 e0 : List XR) (o : SOpts)
    (ho : o.withConstraint = true) (hc : o.optCoeffs = true) (he : o.optExpons = true) (P : SProblem)
    (hP : S.problem c0 e0 o = .ok P) :
    P.objective = (fun x => S.func x .none) ∧ P.constraints = [fun x => S.constNorm x .none] := by
  unfold SFit.problem SFit.setup at hP
  simp only [hc, he, Bool.and_self, if_true] at hP
  injection hP with hP
  subst hP
  refine ⟨rfl, ?_⟩
  simp only [SFit.constraints, ho, if_true]
  cases S.method <;> rfl

/-- C43 on the object of the examples, with a frozen exponent. -/
example : ∃ I, (demoSFit .sq).constNorm (fins [1]) (.fixedExpons (fins [1])) = .ok (XR.fin (1 - I)) := by
  obtain ⟨I, -, h, -⟩ := C43_const_norm (T := 1) (demoSFit_data .sq) (by norm_num) rfl _ _ _ _
    (.coeffs [1] [1] rfl rfl) (by simp)
  exact ⟨I, h⟩

/-- A trust-constr fit that cannot be run with frozen exponents, although its objective is defined. -/
example : ∃ P con, ({ demoSFit .sq with method := .trustConstr } : SFit).problem (fins [1]) (fins [1])
      ⟨true, false, 100, XR.fin 0, true⟩ = .ok P ∧ P.x0 = fins [1] ∧ P.constraints = [con] ∧
      (∃ v, P.objective P.x0 = .ok v) ∧ con P.x0 = .error .valueError := by
  obtain ⟨P, hP⟩ : ∃ P, ({ demoSFit .sq with method := .trustConstr } : SFit).problem (fins [1]) (fins [1])
      ⟨true, false, 100, XR.fin 0, true⟩ = .ok P := ⟨_, rfl⟩
  have hnb : ({ demoSFit .sq with method := .trustConstr } : SFit).model.nbasis = 1 :=
    (demoSFit_data .sq).model.nbasis
  obtain ⟨con, h1, h2, h3⟩ := C43_trust_constr_raises _ rfl (by rw [hnb]; norm_num) _ _ _ rfl
    (Or.inr rfl) P hP
  have hx : P.x0 = fins [1] := by
    have hP' := hP
    injection hP' with hP'
    rw [← hP']
  refine ⟨P, con, hP, hx, h1, ?_, h3 _ ?_⟩
  · have hd : FitData ({ demoSFit .sq with method := .trustConstr } : SFit).toFit true
      (atomShape [0, 1, 2] 1 0) 3 (vec [1 / 2, 1, 1 / 2]) demoF := demoFit_data true demoF
    obtain ⟨obj, grad, h4, -⟩ := C42_squared (w := fun i => (i : ℝ) + 1) hd rfl rfl
      (.fixedExpons (fins [1])) [1] [1] [1] (.coeffs [1] [1] rfl rfl) (by simp)
    have hP' := hP
    injection hP' with hP'
    refine ⟨(XR.fin obj, fins grad), ?_⟩
    rw [← hP']
    exact h4
  · rw [hx]
    have := h2.trans hnb
    simp
    omega

/-! ### C44 -/

/-- **C44**.  What a successful `run` returns, for an arbitrary optimiser. -/
theorem C44_run (S : SFit) (minimize : SProblem → Py SRes) (c0 e0 : List XR) (o : SOpts) (r : SResult)
    (nb : ℕ) (hnb : S.model.nbasis = (nb : ℤ)) (h : S.run minimize c0 e0 o = .ok r) :
    ∃ P R, S.problem c0 e0 o = .ok P ∧ minimize P = .ok R ∧
      (o.optCoeffs = true → o.optExpons = true → P.x0 = c0 ++ e0 ∧ R.x = r.coeffs ++ r.exps ∧
        (R.x.length = 2 * nb → r.coeffs.length = nb ∧ r.exps.length = nb)) ∧
      (o.optCoeffs = true → o.optExpons = false → P.x0 = c0 ∧ r.coeffs = R.x ∧ r.exps = e0) ∧
      (o.optCoeffs = false → o.optExpons = true → P.x0 = e0 ∧ r.exps = R.x ∧ r.coeffs = c0) ∧
      S.goodness r.coeffs r.exps = .ok r.performance ∧
      r.fun_ = R.fun_ ∧ r.success = R.success ∧ r.message = R.message ∧ r.jacobian = R.jac := by
  unfold SFit.run at h
  rcases hP : S.problem c0 e0 o with err | P
  · rw [hP] at h; simp at h
  rw [hP] at h
  simp only at h
  rcases hR : minimize P with err | R
  · rw [hR] at h; simp at h
  rw [hR] at h
  simp only at h
  split at h
  · simp at h
  rename_i p hp
  injection h with h
  refine ⟨P, R, rfl, hR, ?_⟩
  unfold SFit.problem SFit.setup at hP
  subst h
  cases hc : o.optCoeffs <;> cases he : o.optExpons <;> simp only [hc, he] at hP hp ⊢
  · simp [raise] at hP
  · simp only [Bool.false_and, Bool.false_eq_true, if_false, if_true] at hP hp ⊢
    injection hP with hP
    subst hP
    simp [hp]
  · simp only [Bool.and_false, Bool.false_eq_true, if_false, if_true] at hP hp ⊢
    injection hP with hP
    subst hP
    simp [hp]
  · simp only [Bool.and_self, if_true] at hP hp ⊢
    injection hP with hP
    subst hP
    simp only [hnb, sliceTo_nat, sliceFrom_nat] at hp ⊢
    simp [hp]
    omega

/-- **C44** (bounds).  If the optimiser answers within the bounds it is given, every optimised
parameter is at least `1e-12` (in particular not NaN). -/
theorem C44_bounds (S : SFit) (minimize : SProblem → Py SRes) (c0 e0 : List XR) (o : SOpts) (r : SResult)
    (hmin : ∀ P R, minimize P = .ok R →
      List.Forall₂ (fun b v => b.1 ≤ v ∧ v ≤ b.2) P.bounds R.x)
    (h : S.run minimize c0 e0 o = .ok r) :
    (o.optCoeffs = true → ∀ v ∈ r.coeffs, XR.fin 1e-12 ≤ v) ∧
    (o.optExpons = true → ∀ v ∈ r.exps, XR.fin 1e-12 ≤ v) := by
  unfold SFit.run at h
  rcases hP : S.problem c0 e0 o with err | P
  · rw [hP] at h; simp at h
  rw [hP] at h
  simp only at h
  rcases hR : minimize P with err | R
  · rw [hR] at h; simp at h
  rw [hR] at h
  simp only at h
  split at h
  · simp at h
  injection h with h
  have hall : ∀ v ∈ R.x, XR.fin 1e-12 ≤ v := by
    have hb : ∀ b ∈ P.bounds, b.1 = XR.fin 1e-12 := by
      unfold SFit.problem SFit.setup at hP
      intro b hb
      cases hc : o.optCoeffs <;> cases he : o.optExpons <;> simp [hc, he, raise] at hP <;>
        (subst hP; rw [List.eq_of_mem_replicate hb])
    have hf := hmin P R hR
    intro v hv
    obtain ⟨i, hi, rfl⟩ := List.getElem_of_mem hv
    have hl := hf.length_eq
    have := (List.forall₂_iff_get.mp hf).2 i (by omega) hi
    simp only [List.get_eq_getElem] at this
    rw [hb _ (List.getElem_mem _)] at this
    exact this.1
  subst h
  constructor
  · intro hc v hv
    cases he : o.optExpons <;> simp [hc, he] at hv
    · exact hall v hv
    · apply hall
      unfold sliceTo at hv
      split at hv <;> exact List.mem_of_mem_take hv
  · intro he v hv
    cases hc : o.optCoeffs <;> simp [hc, he] at hv
    · exact hall v hv
    · apply hall
      unfold sliceFrom at hv
      split at hv <;> exact List.mem_of_mem_drop hv

/-- **C44** (nothing to optimise). -/
theorem C44_nothing (S : SFit) (minimize : SProblem → Py SRes) (c0 e0 : List XR) (o : SOpts)
    (hc : o.optCoeffs = false) (he : o.optExpons = false) :
    S.run minimize c0 e0 o = .error .valueError := by
  simp [SFit.run, SFit.problem, SFit.setup, hc, he, raise]

/-! ### C45 -/

theorem parse_names : SMethod.parse "SLSQP" = some .slsqp ∧ SMethod.parse "slsqp" = some .slsqp ∧
    SMethod.parse "trust-constr" = some .trustConstr := by
  have h1 : "SLSQP".toList = ['S', 'L', 'S', 'Q', 'P'] := by decide
  have h2 : "slsqp".toList = ['s', 'l', 's', 'q', 'p'] := by decide
  have h3 : "trust-constr".toList = ['t', 'r', 'u', 's', 't', '-', 'c', 'o', 'n', 's', 't', 'r'] := by decide
  unfold SMethod.parse
  rw [h1, h2, h3]
  refine ⟨?_, ?_, ?_⟩
  · rw [if_pos (by decide)]
  · rw [if_pos (by decide)]
  · rw [if_neg (by decide), if_pos (by decide)]

/-- With the default `measure` (the class) the constructor never returns, and raises TypeError on arguments
that pass the other checks; used for `C45_default_raises` in ScipyInit. -/
theorem klClass_raises (grid : Grid) (density : List XR) (model : GModel) (method : String)
    (weights : Option (List XR)) (T : Option XR) (spherical : Bool) (mask : XR) :
    (∀ S, SFit.init grid density model .klClass method weights T spherical mask ≠ .ok S) ∧
    (pointsDiffer grid.pts model.points = some false → grid.len = density.length →
      method ∈ ["SLSQP", "slsqp", "trust-constr"] →
      SFit.init grid density model .klClass method weights T spherical mask = .error .typeError) := by
  constructor
  · intro S h
    unfold SFit.init raise at h
    repeat' split at h
    all_goals simp_all
  · intro h1 h2 h3
    unfold SFit.init
    rw [h1]
    simp only
    rw [if_neg (by simp [h2])]
    simp only [List.mem_cons, List.not_mem_nil, or_false] at h3
    rcases h3 with rfl | rfl | rfl
    · rw [parse_names.1]; rfl
    · rw [parse_names.2.1]; rfl
    · rw [parse_names.2.2]; rfl

/-- With a measure instance the constructor works on valid arguments; used for `C45_radial_partial` in
ScipyInit. -/
theorem instance_ok (grid : Grid) (density : List XR) (model : GModel) (ms : Meas) (method : String)
    (meth : SMethod) (hmeth : SMethod.parse method = some meth)
    (weights : Option (List XR)) (T : Option XR) (spherical : Bool) (mask : XR)
    (hpt : pointsDiffer grid.pts model.points = some false) (hl : grid.len = density.length)
    (hg : grid.Full) (hd : ∀ x ∈ density, ¬ x < XR.fin 0) (hs : spherical = true → ∃ g, grid = .radial g) :
    ∃ S, SFit.init grid density model (.inst ms) method weights T spherical mask = .ok S ∧
      S.grid = grid ∧ S.density = density ∧ S.model = model ∧ S.measure = ms ∧ S.method = meth ∧
      S.spherical = spherical ∧ S.maskValue = mask ∧
      S.weights = weights.getD (List.replicate density.length (XR.fin 1)) ∧
      (∀ v, T = some v → S.integralDens = v) ∧
      (T = none → S.integrate density = .ok S.integralDens) := by
  obtain ⟨F, h1, h2, h3, h4, h5, h6, h7, h8⟩ :=
    (C32_construct grid density model T spherical mask).2.2 hd hs hl.symm hg
  refine ⟨{ F with measure := ms, method := meth, weights := weights.getD (List.replicate density.length (XR.fin 1)) },
    ?_, h2, h3, h4, rfl, rfl, h5, h6, rfl, h7, h8⟩
  unfold SFit.init
  rw [hpt]
  simp only
  rw [if_neg (by simp [hl])]
  rw [hmeth]
  simp only [h1]

/-- A run whose optimiser returns the initial vector. -/
example : ∃ r, (demoSFit .sq).run (fun P => .ok ⟨P.x0, XR.fin 0, [], true, ""⟩) (fins [1]) (fins [1])
    ⟨true, true, 100, XR.fin 0, true⟩ = .ok r ∧ r.coeffs = fins [1] ∧ r.exps = fins [1] := by
  have hnb : (demoSFit .sq).model.nbasis = 1 := (demoSFit_data .sq).model.nbasis
  obtain ⟨M, kl, h1, -⟩ := goodness_fins (demoSFit_data .sq) (by norm_num) [1] [1] rfl rfl (by simp)
  have : (demoSFit .sq).problem (fins [1]) (fins [1]) ⟨true, true, 100, XR.fin 0, true⟩ = .ok _ := rfl
  unfold SFit.run
  rw [this]
  simp only [Bool.and_self, if_true, hnb]
  have e1 : sliceTo (fins [1] ++ fins [1]) 1 = fins [1] := rfl
  have e2 : sliceFrom (fins [1] ++ fins [1]) 1 = fins [1] := rfl
  rw [e1, e2, h1]
  exact ⟨_, rfl, rfl, rfl⟩

theorem demo_points : pointsDiffer (Grid.pts (.radial ⟨fins [0, 1, 2]⟩)) (GModel.atom (demoS true)).points =
    some false := by
  simp [Grid.pts, GModel.points, demoS, pointsDiffer, Pts.mat, subRow, fins, XR.abs]
  norm_num

end
end BFit
