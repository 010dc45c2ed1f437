import Verif.Props.ScipyWeights
import Verif.Props.ScipyInit

/-! Property C107: what `ScipyFit.run` hands to the optimiser and what it reports. -/

namespace BFit

open Classical Finset

noncomputable section

theorem run_inv {S : SFit} {minimize : SProblem → Py SRes} {c0 e0 : List XR} {o : SOpts} {r : SResult}
    (h : S.run minimize c0 e0 o = .ok r) :
    ∃ P R, S.problem c0 e0 o = .ok P ∧ minimize P = .ok R ∧
      r.coeffs = (if o.optCoeffs && o.optExpons then sliceTo R.x S.model.nbasis
        else if o.optCoeffs then R.x else c0) ∧
      r.exps = (if o.optCoeffs && o.optExpons then sliceFrom R.x S.model.nbasis
        else if o.optCoeffs then e0 else R.x) ∧
      S.goodness r.coeffs r.exps = .ok r.performance ∧
      r.fun_ = R.fun_ ∧ r.success = R.success ∧ r.message = R.message ∧ r.jacobian = R.jac := by
  unfold SFit.run at h
  rcases hP : S.problem c0 e0 o with err | P
  · rw [hP] at h; simp at h
  rw [hP] at h
  simp only at h
  rcases hR : minimize P with err | R
  · rw [hR] at h; simp at h
  rw [hR] at h
  simp only at h
  split at h
  · simp at h
  rename_i p hp
  injection h with h
  subst h
  refine ⟨P, R, rfl, hR, ?_, ?_, hp, rfl, rfl, rfl, rfl⟩ <;>
    cases o.optCoeffs <;> cases o.optExpons <;> rfl

/-- The objective of a fit with given sets of optimised parameters at given values of all coefficients and
exponents: the value and the derivatives with respect to the optimised ones. -/
def objectiveAt (S : SFit) (optCoeffs optExpons : Bool) (c e : List XR) : Py (XR × List XR) :=
  if optCoeffs && optExpons then S.func (c ++ e) .none
  else if optCoeffs then S.func c (.fixedExpons e)
  else S.func e (.fixedCoeffs c)

/-- **C107** (what is handed over).  The optimiser receives the method given to the constructor, the tolerance
and the maximum number of iterations given to `run`, one bound [1e-12, ∞) per optimised parameter, and an
objective which at every vector of variables is the objective of the fit at the parameters that vector stands
for; the start vector stands for the given parameters. -/
theorem C107_problem (grid : Grid) (density : List XR) (model : GModel) (mc : MeasArg) (method : String)
    (weights : Option (List XR)) (T : Option XR) (spherical : Bool) (mask : XR) (S : SFit)
    (hS : SFit.init grid density model mc method weights T spherical mask = .ok S)
    (c0 e0 : List XR) (o : SOpts) (ho : o.optCoeffs = true ∨ o.optExpons = true) :
    ∃ P, S.problem c0 e0 o = .ok P ∧
      (P.method = .slsqp ↔ method.toList.map Char.toLower = "slsqp".toList) ∧
      (P.method = .trustConstr ↔ method.toList.map Char.toLower = "trust-constr".toList) ∧
      P.tol = o.tol ∧ P.maxiter = o.maxiter ∧
      (∀ b ∈ P.bounds, b = (XR.fin 1e-12, XR.pinf)) ∧
      (P.bounds.length : ℤ) = max 0 (if o.optCoeffs && o.optExpons then 2 * S.model.nbasis else S.model.nbasis) ∧
      P.objective P.x0 = objectiveAt S o.optCoeffs o.optExpons c0 e0 ∧
      (∀ c e : List XR, o.optCoeffs = true → o.optExpons = true →
        P.objective (c ++ e) = objectiveAt S o.optCoeffs o.optExpons c e) ∧
      (∀ c : List XR, o.optCoeffs = true → o.optExpons = false →
        P.objective c = objectiveAt S o.optCoeffs o.optExpons c e0) ∧
      (∀ e : List XR, o.optCoeffs = false → o.optExpons = true →
        P.objective e = objectiveAt S o.optCoeffs o.optExpons c0 e) := by
  have hm : SMethod.parse method = some S.method := by
    unfold SFit.init raise at hS
    split at hS
    · simp at hS
    · simp at hS
    · split at hS
      · simp at hS
      · split at hS
        · simp at hS
        · rename_i meth hmeth
          split at hS
          · split at hS
            · simp at hS
            · injection hS with hS
              subst hS
              exact hmeth
          · simp at hS
  have h1 : "slsqp".toList = ['s', 'l', 's', 'q', 'p'] := by decide
  have h2 : "trust-constr".toList = ['t', 'r', 'u', 's', 't', '-', 'c', 'o', 'n', 's', 't', 'r'] := by decide
  have hmm : (S.method = .slsqp ↔ method.toList.map Char.toLower = "slsqp".toList) ∧
      (S.method = .trustConstr ↔ method.toList.map Char.toLower = "trust-constr".toList) := by
    rw [h1, h2]
    unfold SMethod.parse at hm
    simp only at hm
    split at hm
    · rename_i hl
      injection hm with hm
      rw [← hm, hl]
      simp
    · rename_i hl
      split at hm
      · rename_i hl'
        injection hm with hm
        rw [← hm, hl']
        simp
      · simp at hm
  have hlen : ∀ z : ℤ, (z.toNat : ℤ) = max 0 z := by intro z; omega
  rcases hc : o.optCoeffs with _ | _ <;> rcases he : o.optExpons with _ | _
  · simp [hc, he] at ho
  all_goals
    refine ⟨_, by unfold SFit.problem SFit.setup; rw [hc, he]; rfl, hmm.1, hmm.2, rfl, rfl, ?_, ?_, rfl, ?_, ?_, ?_⟩
  all_goals first
    | (intro b hb; exact List.eq_of_mem_replicate hb)
    | (simp only [List.length_replicate, hlen]; rfl)
    | (intro c e h h'; cases h; done)
    | (intro c e h h'; cases h'; done)
    | (intro c h h'; cases h; done)
    | (intro c h h'; cases h'; done)
    | (intros; rfl)

/-- **C107** (what is reported).  If the optimiser reports the value and the gradient of the objective at the
vector it returns, then `fun` and `jacobian` of the result are the objective and its derivatives at the
`coeffs` and `exps` of the result; if in addition the value is not larger than the one at the start, then
neither is `fun`. -/
theorem C107_report (S : SFit) (minimize : SProblem → Py SRes) (c0 e0 : List XR) (o : SOpts) (r : SResult)
    (nb : ℕ) (hnb : S.model.nbasis = (nb : ℤ)) (h : S.run minimize c0 e0 o = .ok r)
    (htrue : ∀ P R, S.problem c0 e0 o = .ok P → minimize P = .ok R → P.objective R.x = .ok (R.fun_, R.jac)) :
    objectiveAt S o.optCoeffs o.optExpons r.coeffs r.exps = .ok (r.fun_, r.jacobian) ∧
    ((∀ P R v g, S.problem c0 e0 o = .ok P → minimize P = .ok R → P.objective P.x0 = .ok (v, g) → R.fun_ ≤ v) →
      ∀ v g, objectiveAt S o.optCoeffs o.optExpons c0 e0 = .ok (v, g) → r.fun_ ≤ v) := by
  obtain ⟨P, R, hP, hR, h1, h2, -, h3, -, -, h4⟩ := run_inv h
  have hT := htrue P R hP hR
  have hP' := hP
  rw [h1, h2, h3, h4]
  unfold SFit.problem SFit.setup at hP
  rcases hc : o.optCoeffs with _ | _ <;> rcases he : o.optExpons with _ | _ <;>
    simp only [hc, he, Bool.and_false, Bool.and_true, Bool.false_and, Bool.false_eq_true, if_true, if_false,
      raise, reduceCtorEq] at hP
  all_goals
    injection hP with hP
    subst hP
    refine ⟨?_, fun hle v g hv => hle _ R v g hP' hR ?_⟩
  · exact hT
  · exact hv
  · exact hT
  · exact hv
  · rw [← hT]
    simp only [objectiveAt, Bool.and_self, if_true]
    rw [hnb]
    congr 1
    simp [sliceTo, sliceFrom]
  · exact hv

/-- The parameters of the objective in all modes. -/
theorem objectiveAt_params (S : SFit) (oc oe : Bool) (nb : ℕ) (c e : List ℝ) (hc : c.length = nb)
    (he : e.length = nb) : ∃ args x, Params nb args x c e ∧
      objectiveAt S oc oe (fins c) (fins e) = S.func (fins x) args := by
  cases oc <;> cases oe
  · exact ⟨_, _, .expons c e hc he, rfl⟩
  · exact ⟨_, _, .expons c e hc he, rfl⟩
  · exact ⟨_, _, .coeffs c e hc he, rfl⟩
  · exact ⟨_, _, .both c e hc he, by simp [objectiveAt, fins]⟩

/-- **C107** (the fit improves).  With the default weights and an optimiser that reports the objective
truthfully and does not return anything worse than the start, the error reported in `performance` is the
reported `fun` and not larger than the one of the initial parameters: the least-squares error when the measure is
the squared difference, the Kullback-Leibler divergence when the measure is this divergence and no value of the
density or the model is masked. -/
theorem C107_improves (grid : Grid) (density : List XR) (model : GModel) (ms : Meas) (method : String)
    (T : Option XR) (spherical : Bool) (mask : XR) (S : SFit)
    (hS : SFit.init grid density model (.inst ms) method none T spherical mask = .ok S)
    {norm : Bool} {Sh : Shape} {N : ℕ} {W f : ℕ → ℝ} (h : FitData S.toFit norm Sh N W f) (hN : 0 < N)
    (minimize : SProblem → Py SRes)
    (o : SOpts) (c0 e0 c e : List ℝ)
    (htrue : ∀ P R, S.problem (fins c0) (fins e0) o = .ok P → minimize P = .ok R →
      P.objective R.x = .ok (R.fun_, R.jac))
    (hle : ∀ P R v g, S.problem (fins c0) (fins e0) o = .ok P → minimize P = .ok R →
      P.objective P.x0 = .ok (v, g) → R.fun_ ≤ v)
    (hc0 : c0.length = Sh.nb) (he0 : e0.length = Sh.nb)
    (hpos0 : norm = true → ∀ a ∈ e0, 0 ≤ a) (hc : c.length = Sh.nb) (he : e.length = Sh.nb)
    (hpos : norm = true → ∀ a ∈ e, 0 ≤ a) (r : SResult)
    (hr : S.run minimize (fins c0) (fins e0) o = .ok r) (hrc : r.coeffs = fins c) (hre : r.exps = fins e) :
    ∃ p0, S.goodness (fins c0) (fins e0) = .ok p0 ∧
      (ms = .sq → r.performance.ls = r.fun_ ∧ r.performance.ls ≤ p0.ls) ∧
      (∀ μ nv, ms = .kl ⟨XR.fin μ, nv⟩ → mask = XR.fin μ → (∀ i < N, 0 < f i) →
        Sh.AllUnmasked norm N μ f c0 e0 → Sh.AllUnmasked norm N μ f c e →
        r.performance.kl = r.fun_ ∧ r.performance.kl ≤ p0.kl) := by
  obtain ⟨-, -, -, -, -, -, hperf, -⟩ := run_inv hr
  have hnb : S.model.nbasis = (Sh.nb : ℤ) := h.model.nbasis
  obtain ⟨h1, h2⟩ := C107_report S minimize _ _ o r Sh.nb hnb hr htrue
  have h2 := h2 hle
  rw [hrc, hre] at h1 hperf
  obtain ⟨a0, x0, hp0, ha0⟩ := objectiveAt_params S o.optCoeffs o.optExpons Sh.nb c0 e0 hc0 he0
  obtain ⟨a1, x1, hp1, ha1⟩ := objectiveAt_params S o.optCoeffs o.optExpons Sh.nb c e hc he
  rw [ha0] at h2
  rw [ha1] at h1
  obtain ⟨k0, k0'⟩ := C105_default _ _ _ _ _ _ _ _ _ hS h hN a0 x0 c0 e0 hp0 hpos0
  obtain ⟨k1, k1'⟩ := C105_default _ _ _ _ _ _ _ _ _ hS h hN a1 x1 c e hp1 hpos
  obtain ⟨M, kl, hg, -⟩ := goodness_fins h hN c0 e0 hc0 he0 hpos0
  refine ⟨_, hg, ?_, ?_⟩
  · intro hm
    obtain ⟨v0, g0, p0, q1, q2, q3⟩ := k0 hm
    obtain ⟨v1, g1, p1, s1, s2, s3⟩ := k1 hm
    rw [s2] at hperf
    rw [hg] at q2
    injection hperf with hperf
    injection q2 with q2
    rw [s1] at h1
    have hv : XR.fin v1 = r.fun_ := by injection h1 with h1; exact congrArg Prod.fst h1
    rw [q2, q3, ← hperf, s3]
    exact ⟨hv, hv ▸ h2 _ _ q1⟩
  · intro μ nv hm hmask hf hu0 hu1
    obtain ⟨v0, g0, p0, q1, q2, q3⟩ := k0' μ nv hm hmask hf hu0
    obtain ⟨v1, g1, p1, s1, s2, s3⟩ := k1' μ nv hm hmask hf hu1
    rw [s2] at hperf
    rw [hg] at q2
    injection hperf with hperf
    injection q2 with q2
    rw [s1] at h1
    have hv : XR.fin v1 = r.fun_ := by injection h1 with h1; exact congrArg Prod.fst h1
    rw [q2, q3, ← hperf, s3]
    exact ⟨hv, hv ▸ h2 _ _ q1⟩

/-- An optimiser that stays at the start and reports the objective there. -/
def stay (P : SProblem) : Py SRes :=
  match P.objective P.x0 with
  | .error e => .error e
  | .ok (v, g) => .ok ⟨P.x0, v, g, true, "ok"⟩

theorem stay_true (P : SProblem) (R : SRes) (h : stay P = .ok R) :
    R.x = P.x0 ∧ P.objective P.x0 = .ok (R.fun_, R.jac) := by
  unfold stay at h
  split at h
  · simp at h
  · rename_i v g hv
    injection h with h
    subst h
    exact ⟨rfl, hv⟩

/-- The hypotheses of C107 hold for the object of the examples and an optimiser that stays at the start. -/
example : ∃ r p0, ({ demoSFit .sq with weights := List.replicate 3 (XR.fin 1) } : SFit).run stay
      (fins [1]) (fins [1]) ⟨true, true, 100, XR.fin 0, true⟩ = .ok r ∧
    ({ demoSFit .sq with weights := List.replicate 3 (XR.fin 1) } : SFit).goodness (fins [1]) (fins [1]) = .ok p0 ∧
    r.performance.ls = r.fun_ ∧ r.performance.ls ≤ p0.ls := by
  have hd : FitData ({ demoSFit .sq with weights := List.replicate 3 (XR.fin 1) } : SFit).toFit true
    (atomShape [0, 1, 2] 1 0) 3 (vec [1 / 2, 1, 1 / 2]) demoF := demoSFit_data .sq
  obtain ⟨v, g, p, h1, h2, h3⟩ := (C105_default _ _ _ _ _ _ _ _ _ (demo_default .sq) hd (by norm_num) .none
    [1, 1] [1] [1] (.both [1] [1] rfl rfl) (by simp)).1 rfl
  have hrun : ({ demoSFit .sq with weights := List.replicate 3 (XR.fin 1) } : SFit).run stay
      (fins [1]) (fins [1]) ⟨true, true, 100, XR.fin 0, true⟩ =
      .ok ⟨fins [1], fins [1], XR.fin v, true, "ok", g, p⟩ := by
    have hx : fins [1] ++ fins [1] = fins [1, 1] := rfl
    have hnb : ({ demoSFit .sq with weights := List.replicate 3 (XR.fin 1) } : SFit).model.nbasis = 1 :=
      hd.model.nbasis
    simp only [SFit.run, SFit.problem, SFit.setup, Bool.and_self, if_true, stay, hx, h1, hnb, sliceTo, sliceFrom]
    simp only [fins, List.map_cons, List.map_nil] at h2 ⊢
    simp [h2]
  obtain ⟨p0, h4, h5, -⟩ := C107_improves _ _ _ _ _ _ _ _ _ (demo_default .sq) hd (by norm_num) stay
    _ [1] [1] [1] [1] (fun P R _ h => by rw [(stay_true P R h).1]; exact (stay_true P R h).2)
    (fun P R u k hP h hu => by
      have := (stay_true P R h).2
      rw [hu] at this
      injection this with this
      rw [← (Prod.mk.inj this).1]
      have hobj : P.objective P.x0 = .ok (XR.fin v, g) := by
        injection hP with hP
        subst hP
        exact h1
      rw [hu] at hobj
      injection hobj with hobj
      rw [(Prod.mk.inj hobj).1]
      exact (XR.le_fin v v).2 le_rfl)
    rfl rfl (by simp) rfl rfl (by simp) _ hrun rfl rfl
  exact ⟨_, p0, hrun, h4, h5 rfl⟩

end
end BFit
