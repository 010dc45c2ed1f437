import Verif.Props.FPIStationary

/-! Properties of `KLDivergenceFPI.run`. -/

namespace BFit

open Real Classical Finset

noncomputable section

/-- The sequence `a, tr 0, tr 1, …`. -/
def consSeq {α : Type} (a : α) (tr : ℕ → α) : ℕ → α
  | 0 => a
  | n + 1 => tr n

/-- Everything about the loop in one induction: `k` updates are made, along the parameters `tr`. -/
theorem loop_trace (F : FPI) (o : FPIOpts) (n : ℕ) (s s' : FPIState) (h : F.loop o n s = .ok s') :
    ∃ (k : ℕ) (tr : ℕ → List XR × List XR) (new : List Perf), k ≤ n ∧ new.length = k ∧
      s'.performance = s.performance ++ new ∧ tr 0 = (s.cs, s.es) ∧ tr k = (s'.cs, s'.es) ∧
      (∀ j < k, F.updateParams (tr j).1 (tr j).2 o.optCoeffs o.optExpons = .ok (tr (j + 1))) ∧
      (∀ j (hj : j < new.length), F.goodness (tr (j + 1)).1 (tr (j + 1)).2 = .ok new[j]) ∧
      (k < n → ¬ s'.notConverged o) ∧
      (0 < k → s.notConverged o ∧ ¬ (o.optCoeffs = false ∧ o.optExpons = false)) ∧
      (k = 0 → s' = s) ∧
      (0 < k → maxChange (tr k).1 (tr (k - 1)).1 = .ok s'.maxDC ∧
        maxChange (tr k).2 (tr (k - 1)).2 = .ok s'.maxDE ∧
        (s'.performance.length = 1 → s'.diffDiv = s.diffDiv) ∧
        (∀ pre a b, s'.performance = pre ++ [a, b] → s'.diffDiv = (b.kl - a.kl).abs)) := by
  induction n generalizing s with
  | zero =>
    simp only [FPI.loop, Except.ok.injEq] at h
    subst h
    exact ⟨0, fun _ => (s.cs, s.es), [], le_refl _, rfl, by simp, rfl, rfl, by simp, by simp, by simp,
      by simp, by simp, by simp⟩
  | succ n ih =>
    unfold FPI.loop at h
    by_cases hc : s.notConverged o
    · rw [if_pos hc] at h
      unfold FPI.step at h
      by_cases ho : o.optCoeffs = false ∧ o.optExpons = false
      · rw [if_pos ho] at h; simp [raise] at h
      rw [if_neg ho] at h
      rcases hup : F.updateParams s.cs s.es o.optCoeffs o.optExpons with err | ⟨cs, es⟩
      · rw [hup] at h; simp at h
      rw [hup] at h
      simp only at h
      rcases hdc : maxChange cs s.cs with err | dc
      · rw [hdc] at h; simp at h
      rw [hdc] at h
      simp only at h
      rcases hde : maxChange es s.es with err | de
      · rw [hde] at h; simp at h
      rw [hde] at h
      simp only at h
      rcases hgo : F.goodness cs es with err | p
      · rw [hgo] at h; simp at h
      rw [hgo] at h
      simp only at h
      obtain ⟨k, tr, new, h1, h2, h3, h4, h5, h6, h7, h8, h9, h9', h10⟩ := ih _ h
      refine ⟨k + 1, consSeq (s.cs, s.es) tr, p :: new, by omega, by simp [h2], ?_, rfl,
        h5, ?_, ?_, ?_, fun _ => ⟨hc, ho⟩, by simp, fun _ => ?_⟩
      · rw [h3]; simp
      · intro j hj
        cases j with
        | zero =>
          show F.updateParams s.cs s.es _ _ = .ok (tr 0)
          rw [hup, h4]
        | succ j => exact h6 j (by omega)
      · intro j hj
        cases j with
        | zero =>
          show F.goodness (tr 0).1 (tr 0).2 = _
          rw [h4]; exact hgo
        | succ j => exact h7 j (by simpa using hj)
      · intro hk; exact h8 (by omega)
      · by_cases hk0 : k = 0
        · subst hk0
          have hs := h9' rfl
          subst hs
          show maxChange (tr 0).1 s.cs = _ ∧ maxChange (tr 0).2 s.es = _ ∧ _
          rw [h4]
          refine ⟨hdc, hde, ?_, ?_⟩
          · intro hl
            have : s.performance = [] := by
              simp only [List.length_append, List.length_cons, List.length_nil] at hl
              exact List.length_eq_zero_iff.mp (by omega)
            simp [this]
          · intro pre a b hab
            have hab' : s.performance ++ [p] = (pre ++ [a]) ++ [b] := by simpa using hab
            have := List.append_inj' hab' rfl
            obtain ⟨e1, e2⟩ := this
            have : p = b := by simpa using e2
            subst this
            simp [e1]
        · obtain ⟨g1, g2, g3, g4⟩ := h10 (by omega)
          obtain ⟨k, rfl⟩ : ∃ m, k = m + 1 := ⟨k - 1, by omega⟩
          refine ⟨g1, g2, ?_, g4⟩
          intro hl
          rw [h3] at hl
          simp only [List.length_append, List.length_cons, List.length_nil] at hl
          omega
    · rw [if_neg hc] at h
      simp only [Except.ok.injEq] at h
      subst h
      exact ⟨0, fun _ => (s.cs, s.es), [], by omega, rfl, by simp, rfl, rfl, by simp, by simp,
        fun _ => hc, by simp, by simp, by simp⟩

/-- The parameters `tr 0, …, tr n` visited by a run with result `r`. -/
structure RunTrace (F : FPI) (c0 e0 : ND XR) (o : FPIOpts) (r : FPIResult) (n : ℕ)
    (tr : ℕ → List XR × List XR) : Prop where
  start : tr 0 = (c0.data, e0.data)
  last : tr n = (r.coeffs, r.exps)
  step : ∀ j < n, F.updateParams (tr j).1 (tr j).2 o.optCoeffs o.optExpons = .ok (tr (j + 1))
  len : r.performance.length = n
  perf : ∀ j (hj : j < r.performance.length), F.goodness (tr (j + 1)).1 (tr (j + 1)).2 =
    .ok r.performance[j]
  fun_ : r.fun_ = r.performance.map Perf.kl

/-! ### C39 -/

/-- **C39**.  A successful `run` makes at most `maxiter` updates, starting from the given parameters;
`performance[k]` is `goodness_of_fit` of the parameters after update `k`, `fun` lists the KL entries,
and the returned parameters are the last ones. -/
theorem C39_trace (F : FPI) (c0 e0 : ND XR) (o : FPIOpts) (r : FPIResult)
    (h : F.run (.arr c0) (.arr e0) o = .ok r) :
    ∃ n tr, RunTrace F c0 e0 o r n tr ∧ n ≤ o.maxiter.toNat := by
  unfold FPI.run at h
  simp only at h
  split at h
  · simp [raise] at h
  split at h
  · simp [raise] at h
  split at h
  · simp at h
  rename_i s hs
  simp only [Except.ok.injEq] at h
  obtain ⟨k, tr, new, h1, h2, h3, h4, h5, h6, h7, -⟩ := loop_trace F o _ _ _ hs
  simp only [List.nil_append] at h3
  subst h
  refine ⟨k, tr, ⟨h4, h5, h6, by simpa [h3] using h2, ?_, rfl⟩, h1⟩
  intro j hj
  simp only [h3] at hj ⊢
  exact h7 j hj

theorem mapPy_length {α β : Type} {f : α → Py β} {l : List α} {r : List β} (h : mapPy f l = .ok r) :
    r.length = l.length := by
  induction l generalizing r with
  | nil => simp only [mapPy, Except.ok.injEq] at h; subst h; rfl
  | cons x l ih =>
    unfold mapPy at h
    rcases hx : f x with e | y
    · rw [hx] at h; simp at h
    rw [hx] at h
    simp only at h
    rcases hl : mapPy f l with e | ys
    · rw [hl] at h; simp at h
    rw [hl] at h
    simp only [Except.ok.injEq] at h
    subst h
    simp [ih hl]

theorem updateParams_length {F : FPI} {cs es cs' es' : List XR} {uc ue : Bool} {nb : ℕ}
    (hnb : F.model.nbasis = (nb : ℤ)) (hp : F.model.prefactor.length = nb)
    (hc : cs.length = nb) (he : es.length = nb) (h : F.updateParams cs es uc ue = .ok (cs', es')) :
    cs'.length = nb ∧ es'.length = nb := by
  unfold FPI.updateParams at h
  split at h
  · simp [raise] at h
  split at h
  · simp at h
  split at h
  · simp at h
  split at h
  · simp at h
  rename_i hav
  have hl := mapPy_length hav
  rw [hnb, Int.toNat_natCast, List.length_range] at hl
  simp only [Except.ok.injEq, Prod.mk.injEq] at h
  obtain ⟨h1, h2⟩ := h
  subst h1 h2
  constructor
  · split <;> simp [hc, hl]
  · split <;> simp [he, hl, hp]

/-- **C39** (sizes).  The returned arrays have one entry per basis function. -/
theorem C39_sizes (F : FPI) (c0 e0 : ND XR) (o : FPIOpts) (r : FPIResult) (nb : ℕ)
    (hnb : F.model.nbasis = (nb : ℤ)) (hp : F.model.prefactor.length = nb)
    (hcd : c0.data.length = c0.shape.prod) (hed : e0.data.length = e0.shape.prod)
    (h : F.run (.arr c0) (.arr e0) o = .ok r) :
    r.coeffs.length = nb ∧ r.exps.length = nb ∧ r.fun_.length = r.performance.length := by
  obtain ⟨n, tr, ht, -⟩ := C39_trace F c0 e0 o r h
  have hshape : c0.shape = [nb] ∧ e0.shape = [nb] := by
    unfold FPI.run at h
    simp only at h
    split at h
    · simp [raise] at h
    split at h
    · simp [raise] at h
    rename_i h1 h2
    have key : ∀ l : List ℕ, ¬ (l.map Int.ofNat ≠ [F.model.nbasis]) → l = [nb] := by
      intro l hl
      rw [not_not, hnb] at hl
      cases l with
      | nil => simp at hl
      | cons a l =>
        simp only [List.map_cons, List.cons.injEq, List.map_eq_nil_iff] at hl
        obtain ⟨ha, rfl⟩ := hl
        have : a = nb := Int.ofNat.inj ha
        rw [this]
    exact ⟨key _ h1, key _ h2⟩
  have hl : ∀ j ≤ n, (tr j).1.length = nb ∧ (tr j).2.length = nb := by
    intro j hj
    induction j with
    | zero => rw [ht.start]; simp [hcd, hed, hshape.1, hshape.2]
    | succ j ih => exact updateParams_length hnb hp (ih (by omega)).1 (ih (by omega)).2 (ht.step j (by omega))
  have := hl n le_rfl
  rw [ht.last] at this
  exact ⟨this.1, this.2, by rw [ht.fun_]; simp⟩

/-- **C39** (input checks).  Anything but arrays is a TypeError, arrays of another shape than
`(nbasis,)` are a ValueError. -/
theorem C39_input_errors (F : FPI) (o : FPIOpts) :
    (∀ c0 e0 : PyObj, ¬ ((∃ c, c0 = .arr c) ∧ ∃ e, e0 = .arr e) → F.run c0 e0 o = .error .typeError) ∧
    (∀ c0 e0 : ND XR, (c0.shape.map Int.ofNat ≠ [F.model.nbasis] ∨
      e0.shape.map Int.ofNat ≠ [F.model.nbasis]) → F.run (.arr c0) (.arr e0) o = .error .valueError) := by
  constructor
  · intro c0 e0 h
    unfold FPI.run
    split
    · exact absurd ⟨⟨_, rfl⟩, _, rfl⟩ h
    · rfl
  · intro c0 e0 h
    unfold FPI.run
    simp only
    split
    · rfl
    · rename_i h1
      rw [if_pos (h.resolve_left h1)]
      rfl

/-! ### C40 -/

theorem updateParams_frozen {F : FPI} {cs es cs' es' : List XR} {uc ue : Bool}
    (h : F.updateParams cs es uc ue = .ok (cs', es')) :
    (uc = false → cs' = cs) ∧ (ue = false → es' = es) := by
  unfold FPI.updateParams at h
  split at h
  · simp [raise] at h
  split at h
  · simp at h
  split at h
  · simp at h
  split at h
  · simp at h
  simp only [Except.ok.injEq, Prod.mk.injEq] at h
  obtain ⟨h1, h2⟩ := h
  subst h1 h2
  exact ⟨fun h => by simp [h], fun h => by simp [h]⟩

/-- **C40**.  Parameters that are not optimised are returned exactly as given. -/
theorem C40_frozen (F : FPI) (c0 e0 : ND XR) (o : FPIOpts) (r : FPIResult)
    (h : F.run (.arr c0) (.arr e0) o = .ok r) :
    (o.optExpons = false → r.exps = e0.data) ∧ (o.optCoeffs = false → r.coeffs = c0.data) := by
  obtain ⟨n, tr, ht, -⟩ := C39_trace F c0 e0 o r h
  have hl : ∀ j ≤ n, (o.optExpons = false → (tr j).2 = e0.data) ∧
      (o.optCoeffs = false → (tr j).1 = c0.data) := by
    intro j hj
    induction j with
    | zero => rw [ht.start]; simp
    | succ j ih =>
      have h1 := updateParams_frozen (ht.step j (by omega))
      have h2 := ih (by omega)
      exact ⟨fun h => (h1.2 h).trans (h2.1 h), fun h => (h1.1 h).trans (h2.2 h)⟩
  have := hl n le_rfl
  rw [ht.last] at this
  exact this

/-- **C40** (nothing to optimise).  If neither is optimised, a run that would iterate raises
ValueError; in particular every run with `maxiter > 0` and finite thresholds. -/
theorem C40_nothing (F : FPI) (c0 e0 : ND XR) (o : FPIOpts) (ho : o.optCoeffs = false)
    (ho' : o.optExpons = false) (hm : 0 < o.maxiter) (eT dT : ℝ)
    (he : o.eThr = XR.fin eT) (hd : o.dThr = XR.fin dT) :
    F.run (.arr c0) (.arr e0) o = .error .valueError := by
  unfold FPI.run
  simp only
  split
  · rfl
  split
  · rfl
  obtain ⟨n, hn⟩ : ∃ n, o.maxiter.toNat = n + 1 := ⟨o.maxiter.toNat - 1, by omega⟩
  rw [hn]
  have hnc : FPIState.notConverged ⟨c0.data, e0.data, XR.pinf, XR.pinf, XR.pinf, []⟩ o := by
    unfold FPIState.notConverged
    rw [he, hd]
    exact ⟨Or.inl trivial, trivial⟩
  unfold FPI.loop FPI.step
  rw [if_pos hnc, if_pos ⟨ho, ho'⟩]
  rfl

/-! ### C41 -/

/-- One normalised s-type function on the grid `0, 1`. -/
def nanAtom : Atomic :=
  { points := .one (fins [0, 1]), coord := fins [0], radii := fins [0, 1], ns := 1, np := 0,
    normalized := true }

theorem nanAtom_eval (c e : XR) (he : e = XR.pinf ∨ e = XR.nan) (d : Bool) :
    GModel.evaluate (.atom nanAtom) [c] [e] d =
      .ok ([XR.nan, XR.nan], if d then some [[XR.nan, XR.nan], [XR.nan, XR.nan]] else none) := by
  have h1 : XR.pinf / XR.fin π = XR.pinf := by rw [XR.pinf_div_fin, if_neg (not_lt.mpr pi_pos.le)]
  have h2 : XR.pinf.pow 1.5 = XR.pinf := by norm_num [XR.pow]
  have h3 : XR.ninf * XR.fin 0 = XR.nan := by simp [XR.ninf_mul_fin]
  have h4 : XR.ninf * XR.fin 1 = XR.ninf := by
    rw [XR.ninf_mul_fin]; exact XR.sgnInf_neg (by norm_num)
  have h5 : XR.ninf.exp = XR.fin 0 := rfl
  have h6 : XR.fin 0 * XR.pinf = XR.nan := by simp [XR.fin_mul_pinf]
  rcases he with rfl | rfl
  · simp [GModel.evaluate, Atomic.evaluate, nanAtom, ND.vec, ND.ndim, ND.size, Atomic.nbasis,
      Atomic.evalRow, evalSRow, gaussRow, fins, npDot, h1, h2, h3, h4, h5, h6]
  · simp [GModel.evaluate, Atomic.evaluate, nanAtom, ND.vec, ND.ndim, ND.size, Atomic.nbasis,
      Atomic.evalRow, evalSRow, gaussRow, fins, npDot]

/-- The fit of the density `1, 0`, made by the constructor. -/
def nanFPI : FPI :=
  { grid := .radial ⟨fins [0, 1]⟩, density := fins [1, 0], model := .atom nanAtom,
    integralDens := XR.fin (1 / 2), spherical := false, maskValue := XR.fin 0, lm := XR.fin 1 }

theorem nan_quad : Quad (.radial ⟨fins [0, 1]⟩) false 2 (vec [1 / 2, 1 / 2]) := by
  have h := quad_plain (hasWeights_radial [0, 1])
  have e : trapW [0, 1] = [1 / 2, 1 / 2] := by norm_num [trapW, trapWAux]
  rw [e] at h
  exact h

theorem nanFPI_init : FPI.init (.radial ⟨fins [0, 1]⟩) (fins [1, 0]) (.atom nanAtom) (XR.fin 0) none
    false = .ok nanFPI := by
  have hq := nan_quad.fin (vec [1, 0])
  have e1 : fins (tab 2 (vec [1, 0])) = fins [1, 0] := rfl
  have e2 : (∑ i ∈ range 2, vec [1 / 2, 1 / 2] i * vec [1, 0] i) = 1 / 2 := by
    norm_num [Finset.sum_range_succ, vec]
  rw [e1, e2] at hq
  unfold FPI.init Fit.init
  rw [if_neg (by simp [fins]), if_neg (by simp)]
  simp only [hq, Fit.integrate]
  rw [XR.div_fin_of_ne _ (by norm_num)]
  rw [if_neg]
  · norm_num [nanFPI]
  · rintro (h | h)
    · exact absurd (XR.fin_inj.mp h) (by norm_num)
    · cases h

theorem nanFPI_ratio (b : Bool) : nanFPI.klError.core (fins [1, 0]) [XR.nan, XR.nan] b =
    ([XR.fin 0, XR.fin 0], if b then some [XR.fin (-1), XR.fin (-1)] else none) := by
  simp [KL.core, KL.ratio, Fit.klError, nanFPI, fins, maDivFilled, XR.log]

theorem nan_integrate (l : List XR) (h : l.length = 2) : ∃ v, nanFPI.integrate l = .ok v :=
  nan_quad.ok l h

theorem nan_goodness (c e : XR) (he : e = XR.pinf ∨ e = XR.nan) :
    ∃ p, nanFPI.goodness [c] [e] = .ok p ∧ p.kl = XR.fin 0 := by
  obtain ⟨i, hi⟩ := nan_integrate [XR.nan, XR.nan] rfl
  have hz : nanFPI.integrate [XR.fin 0, XR.fin 0] = .ok (XR.fin 0) := by
    have hq := nan_quad.fin (vec [0, 0])
    have e1 : fins (tab 2 (vec [0, 0])) = [XR.fin 0, XR.fin 0] := rfl
    have e2 : (∑ i ∈ range 2, vec [1 / 2, 1 / 2] i * vec [0, 0] i) = 0 := by
      norm_num [Finset.sum_range_succ, vec]
    rw [e1, e2] at hq
    exact hq
  have hd : bcast (· - ·) nanFPI.density [XR.nan, XR.nan] = .ok [XR.nan, XR.nan] := by
    simp [bcast, nanFPI, fins]
  have hsq : sqEvaluate (.arr (ND.vec nanFPI.density)) (.arr (ND.vec [XR.nan, XR.nan])) (.bool false) =
      .ok ([XR.nan, XR.nan], none) := by
    rw [sq_evaluate_vec nanFPI.density [XR.nan, XR.nan] rfl]
    simp [sqCore, nanFPI, fins, XR.pow]
  have hkl : nanFPI.klError.evaluate (.arr (ND.vec nanFPI.density)) (.arr (ND.vec [XR.nan, XR.nan]))
      (.bool false) = .ok ([XR.fin 0, XR.fin 0], none) := by
    rw [kl_evaluate_vec _ nanFPI.density [XR.nan, XR.nan] rfl]
    exact congrArg Except.ok (nanFPI_ratio false)
  refine ⟨⟨i, i, XR.nan, i, XR.fin 0⟩, ?_, rfl⟩
  unfold Fit.goodness
  have hev : nanFPI.model.evaluate [c] [e] false = .ok ([XR.nan, XR.nan], none) :=
    nanAtom_eval c e he false
  rw [hev]
  simp only [hd, hi, hsq, hkl, hz]
  simp [hi, npMax, XR.max2]

theorem nan_update (c e : XR) (he : e = XR.pinf ∨ e = XR.nan) :
    nanFPI.updateParams [c] [e] true true = .ok ([XR.nan], [XR.nan]) := by
  have hint : nanFPI.integrate [XR.nan, XR.nan] = .ok XR.nan := by
    simp [Fit.integrate, integrateOn, nanFPI, Grid.integrate, RadialGrid.integrate, ND.vec, fins, trapz]
  have hkl : nanFPI.klError.evaluate (.arr (ND.vec nanFPI.density)) (.arr (ND.vec [XR.nan, XR.nan]))
      (.bool true) = .ok ([XR.fin 0, XR.fin 0], some [XR.fin (-1), XR.fin (-1)]) := by
    rw [kl_evaluate_vec _ nanFPI.density [XR.nan, XR.nan] rfl]
    exact congrArg Except.ok (nanFPI_ratio true)
  have hev : nanFPI.model.evaluate [c] [e] true =
      .ok ([XR.nan, XR.nan], some [[XR.nan, XR.nan], [XR.nan, XR.nan]]) := nanAtom_eval c e he true
  have hnb : nanFPI.model.nbasis.toNat = 1 := rfl
  have hav : nanFPI.averages [XR.fin (-1), XR.fin (-1)] [[XR.nan, XR.nan], [XR.nan, XR.nan]] true 0 =
      .ok (XR.nan, XR.nan) := by
    have hr : nanFPI.model.radiiFor 0 = .ok (fins [0, 1]) := rfl
    simp [FPI.averages, hint, hr, bcast, fins]
  unfold FPI.updateParams
  rw [if_neg (by simp), hev]
  have hm : mapPy (nanFPI.averages [XR.fin (-1), XR.fin (-1)] [[XR.nan, XR.nan], [XR.nan, XR.nan]] true)
      (List.range 1) = .ok [(XR.nan, XR.nan)] := by
    simp [List.range_succ, mapPy, hav]
  simp only [hkl, Option.getD_some, hnb, hm]
  simp [nanFPI, GModel.prefactor, Atomic.prefactor, nanAtom]

theorem nan_first : ∃ x : ℝ, nanFPI.updateParams (fins [1]) (fins [1]) true true =
    .ok ([XR.fin x], [XR.pinf]) := by
  have hdata : FitData nanFPI.toFit true (atomShape [0, 1] 1 0) 2 (vec [1 / 2, 1 / 2]) (vec [1, 0]) :=
    ⟨atom_isModel (rs := [0, 1]) ⟨rfl, rfl, rfl⟩ (by simp), rfl, nan_quad⟩
  have hb : ∀ r : ℝ, 0 < bf true true 1 r := fun r => bf_pos true one_pos (Or.inl rfl)
  have hd : ∀ i, (atomShape [0, 1] 1 0).dens true (vec [1]) (vec [1]) i = bf true true 1 (vec [0, 1] i) := by
    intro i; simp [Shape.dens, atomShape, vec]
  have h := updateParams_gen (μ := 0) (L := 1) hdata rfl rfl one_ne_zero
    (by intro i hi; interval_cases i <;> simp [vec]) [1] [1] rfl rfl (by simp)
    (by intro i _; rw [hd]; exact (hb _).le) true true (Or.inl rfl)
  have hr1 : (atomShape [0, 1] 1 0).ratio true 0 (vec [1, 0]) (vec [1]) (vec [1]) 1 = 0 := by
    unfold Shape.ratio klRatio
    rw [hd, if_pos]
    · simp [vec]
    · exact ⟨hb _, by simpa [vec] using hb _⟩
  have hr0 : 0 < (atomShape [0, 1] 1 0).ratio true 0 (vec [1, 0]) (vec [1]) (vec [1]) 0 :=
    ratio_pos (by norm_num [vec])
  have hA2 : fpiA2 (atomShape [0, 1] 1 0) true 2 (vec [1 / 2, 1 / 2])
      ((atomShape [0, 1] 1 0).ratio true 0 (vec [1, 0]) (vec [1]) (vec [1])) (vec [1]) 0 = 0 := by
    rw [fpiA2, Finset.sum_range_succ, Finset.sum_range_one, hr1]
    simp [atomShape, vec]
  have hA : 0 < fpiA (atomShape [0, 1] 1 0) true 2 (vec [1 / 2, 1 / 2])
      ((atomShape [0, 1] 1 0).ratio true 0 (vec [1, 0]) (vec [1]) (vec [1])) (vec [1]) 0 := by
    rw [fpiA, Finset.sum_range_succ, Finset.sum_range_one, hr1]
    have : (0 : ℝ) < vec [1 / 2, 1 / 2] 0 := by norm_num [vec]
    have h2 : 0 < bf ((atomShape [0, 1] 1 0).isS 0) true (vec [1] 0) ((atomShape [0, 1] 1 0).rad 0 0) :=
      bf_pos _ (by norm_num [vec]) (Or.inl (by simp [atomShape]))
    rw [zero_mul, mul_zero, add_zero]
    positivity
  refine ⟨vec [1] 0 * fpiA (atomShape [0, 1] 1 0) true 2 (vec [1 / 2, 1 / 2])
      ((atomShape [0, 1] 1 0).ratio true 0 (vec [1, 0]) (vec [1]) (vec [1])) (vec [1]) 0 / 1, h.trans ?_⟩
  have hnb : (atomShape [0, 1] 1 0).nb = 1 := rfl
  have hp : 0 < (atomShape [0, 1] 1 0).pref 0 := Shape.pref_pos _ _
  rw [hnb]
  simp only [tab, List.range_one, List.map_cons, List.map_nil, if_true, hA2]
  rw [XR.div_fin, if_pos rfl, XR.sgnInf_pos (mul_pos hp hA)]

/-- **C41 fails**: the constructor accepts this density, and `run` with the default options returns
`success = True` with NaN parameters and `fun = [0, 0]`. -/
theorem C41_nan_success (maxiter : ℤ) (hm : 2 ≤ maxiter) :
    ∃ r, nanFPI.run (.arr (ND.vec (fins [1]))) (.arr (ND.vec (fins [1])))
        ⟨true, true, maxiter, XR.fin 1e-6, XR.fin 1e-6, XR.fin 1e-6⟩ = .ok r ∧
      r.success = true ∧ r.coeffs = [XR.nan] ∧ r.exps = [XR.nan] ∧ r.fun_ = [XR.fin 0, XR.fin 0] := by
  obtain ⟨x, hx⟩ := nan_first
  obtain ⟨p, hp, hpk⟩ := nan_goodness (XR.fin x) XR.pinf (Or.inl rfl)
  obtain ⟨q, hq, hqk⟩ := nan_goodness XR.nan XR.nan (Or.inr rfl)
  obtain ⟨n, hn⟩ : ∃ n, maxiter.toNat = n + 2 := ⟨maxiter.toNat - 2, by omega⟩
  have hu := nan_update (XR.fin x) XR.pinf (Or.inl rfl)
  set o : FPIOpts := ⟨true, true, maxiter, XR.fin 1e-6, XR.fin 1e-6, XR.fin 1e-6⟩ with ho
  have s1 : nanFPI.step o ⟨fins [1], fins [1], XR.pinf, XR.pinf, XR.pinf, []⟩ =
      .ok ⟨[XR.fin x], [XR.pinf], XR.pinf, XR.fin |x - 1|, XR.pinf, [p]⟩ := by
    unfold FPI.step
    simp only [ho, hx]
    simp [maxChange, npMax, hp]
    rfl
  have s2 : nanFPI.step o ⟨[XR.fin x], [XR.pinf], XR.pinf, XR.fin |x - 1|, XR.pinf, [p]⟩ =
      .ok ⟨[XR.nan], [XR.nan], XR.fin 0, XR.nan, XR.nan, [p, q]⟩ := by
    unfold FPI.step
    simp only [ho, hu]
    simp [maxChange, npMax, hq, hpk, hqk]
  have c1 : FPIState.notConverged ⟨fins [1], fins [1], XR.pinf, XR.pinf, XR.pinf, []⟩ o :=
    ⟨Or.inl trivial, trivial⟩
  have c2 : FPIState.notConverged ⟨[XR.fin x], [XR.pinf], XR.pinf, XR.fin |x - 1|, XR.pinf, [p]⟩ o :=
    ⟨Or.inl trivial, trivial⟩
  have c3 : ¬ FPIState.notConverged ⟨[XR.nan], [XR.nan], XR.fin 0, XR.nan, XR.nan, [p, q]⟩ o := by
    rintro ⟨-, h⟩
    have h : (XR.fin 1e-6 : XR) < XR.fin 0 := h
    norm_num at h
  have hl : nanFPI.loop o (n + 2) ⟨fins [1], fins [1], XR.pinf, XR.pinf, XR.pinf, []⟩ =
      .ok ⟨[XR.nan], [XR.nan], XR.fin 0, XR.nan, XR.nan, [p, q]⟩ := by
    rw [FPI.loop, if_pos c1, s1]
    simp only
    rw [FPI.loop, if_pos c2, s2]
    simp only
    cases n with
    | zero => rfl
    | succ n => rw [FPI.loop, if_neg c3]
  have hshape : (ND.vec (fins [1])).shape.map Int.ofNat = [nanFPI.model.nbasis] := rfl
  unfold FPI.run
  simp only
  rw [if_neg (by rw [hshape]; simp), if_neg (by rw [hshape]; simp)]
  have hmx : o.maxiter.toNat = n + 2 := hn
  rw [hmx]
  have hl' : nanFPI.loop o (n + 2) ⟨(ND.vec (fins [1])).data, (ND.vec (fins [1])).data, XR.pinf, XR.pinf,
      XR.pinf, []⟩ = .ok ⟨[XR.nan], [XR.nan], XR.fin 0, XR.nan, XR.nan, [p, q]⟩ := hl
  rw [hl']
  refine ⟨_, rfl, ?_, rfl, rfl, by simp [hpk, hqk]⟩
  simp only [decide_eq_true_eq]
  rintro (⟨-, h⟩ | h)
  · have h : (XR.fin 1e-6 : XR) < XR.fin 0 := h
    norm_num at h
  · simp at h

/-- **C41 fails** also for a negative `maxiter`: nothing is done and success is reported. -/
theorem C41_negative_maxiter (F : FPI) (c e : List XR) (o : FPIOpts)
    (hc : (c.length : ℤ) = F.model.nbasis) (he : (e.length : ℤ) = F.model.nbasis) (hm : o.maxiter < 0) :
    F.run (.arr (ND.vec c)) (.arr (ND.vec e)) o = .ok ⟨c, e, [], true, []⟩ := by
  have h1 : (ND.vec c).shape.map Int.ofNat = [F.model.nbasis] := by simp [ND.vec, hc]
  have h2 : (ND.vec e).shape.map Int.ofNat = [F.model.nbasis] := by simp [ND.vec, he]
  have hn : o.maxiter.toNat = 0 := by omega
  unfold FPI.run
  simp only
  rw [if_neg (by rw [h1]; simp), if_neg (by rw [h2]; simp), hn]
  simp only [FPI.loop, ND.vec, List.map_nil, Except.ok.injEq]
  congr 1
  simp only [decide_eq_true_eq]
  rintro (⟨h, -⟩ | h)
  · simp at h; omega
  · cases h

/-- What a reported success means in terms of the greatest changes. -/
theorem success_changes (F : FPI) (c0 e0 : ND XR) (o : FPIOpts) (r : FPIResult) (cT eT dT : ℝ)
    (hcT : o.cThr = XR.fin cT) (heT : o.eThr = XR.fin eT) (hdT : o.dThr = XR.fin dT)
    (hm : 0 ≤ o.maxiter) (h : F.run (.arr c0) (.arr e0) o = .ok r) (hs : r.success = true) :
    ∃ n tr, RunTrace F c0 e0 o r (n + 1) tr ∧ n + 1 ≤ o.maxiter.toNat ∧
      ((∃ pre a b, r.performance = pre ++ [a, b] ∧ ¬ (b.kl - a.kl).abs > XR.fin dT ∧
          (b.kl - a.kl).abs ≠ XR.nan) ∨
       (∃ dc de, maxChange (tr (n + 1)).1 (tr n).1 = .ok dc ∧ maxChange (tr (n + 1)).2 (tr n).2 = .ok de ∧
          ¬ dc > XR.fin cT ∧ ¬ de > XR.fin eT)) := by
  unfold FPI.run at h
  simp only at h
  split at h
  · simp [raise] at h
  split at h
  · simp [raise] at h
  split at h
  · simp at h
  rename_i s hl
  simp only [Except.ok.injEq] at h
  obtain ⟨k, tr, new, h1, h2, h3, h4, h5, h6, h7, h8, h9, h9', h10⟩ := loop_trace F o _ _ _ hl
  simp only [List.nil_append] at h3
  subst h
  simp only [decide_eq_true_eq] at hs
  have hsk : s.performance.length = k := by rw [h3, h2]
  have hinf : ∀ x : ℝ, XR.pinf > XR.fin x := fun _ => trivial
  -- at least one update
  have hk : 0 < k := by
    by_contra hk0
    have hk0 : k = 0 := by omega
    have hss := h9' hk0
    by_cases hmz : o.maxiter.toNat = 0
    · apply hs
      left
      rw [hsk, hk0, hss, hdT]
      exact ⟨by simp; omega, hinf _⟩
    · apply h8 (by omega)
      rw [hss]
      unfold FPIState.notConverged
      rw [heT, hdT]
      exact ⟨Or.inl (hinf _), hinf _⟩
  obtain ⟨n, rfl⟩ : ∃ n, k = n + 1 := ⟨k - 1, by omega⟩
  obtain ⟨g1, g2, g3, g4⟩ := h10 (by omega)
  refine ⟨n, tr, ⟨h4, h5, h6, by simpa using hsk, ?_, rfl⟩, h1, ?_⟩
  · intro j hj
    simp only [h3] at hj ⊢
    exact h7 j hj
  -- the divergence did not change, or the loop stopped by the other criterion
  have hdiv : ¬ s.diffDiv > o.dThr → ∃ pre a b, s.performance = pre ++ [a, b] ∧
      ¬ (b.kl - a.kl).abs > XR.fin dT ∧ (b.kl - a.kl).abs ≠ XR.nan := by
    intro hd
    rcases hp : s.performance.reverse with _ | ⟨b, _ | ⟨a, pre⟩⟩
    · have := congrArg List.length hp
      simp [hsk] at this
    · exfalso
      have hlen : s.performance.length = 1 := by
        have := congrArg List.length hp
        simpa using this
      apply hd
      rw [g3 hlen, hdT]
      exact hinf _
    · have hpp : s.performance = pre.reverse ++ [a, b] := by
        have := congrArg List.reverse hp
        simpa using this
      have hdd := g4 _ _ _ hpp
      refine ⟨_, _, _, hpp, ?_, ?_⟩
      · rw [← hdd, ← hdT]; exact hd
      · rw [← hdd]; exact fun hnan => hs (Or.inr hnan)
  by_cases hd : s.diffDiv > o.dThr
  · right
    have hlt : n + 1 < o.maxiter.toNat := by
      rcases Nat.lt_or_ge (n + 1) o.maxiter.toNat with hlt | hge
      · exact hlt
      · exfalso
        apply hs
        left
        refine ⟨?_, hd⟩
        rw [hsk]; omega
    have hnc := h8 hlt
    unfold FPIState.notConverged at hnc
    rw [not_and_or] at hnc
    rcases hnc with hnc | hnc
    · rw [not_or] at hnc
      rw [← hcT, ← heT]
      exact ⟨_, _, g1, g2, hnc.2, hnc.1⟩
    · exact absurd hd hnc
  · left
    exact hdiv hd

theorem foldl_max2_nan (l : List XR) : l.foldl XR.max2 XR.nan = XR.nan := by
  induction l with
  | nil => rfl
  | cons x l ih => exact ih

theorem foldl_max2_bound (t : ℝ) (l : List XR) (a : XR) (h : ¬ l.foldl XR.max2 a > XR.fin t) :
    (∃ x ∈ a :: l, x = XR.nan) ∨ ∀ x ∈ a :: l, x ≤ XR.fin t := by
  induction l generalizing a with
  | nil =>
    cases a with
    | fin y => exact .inr (by simpa using not_lt.mp h)
    | pinf => exact absurd trivial h
    | ninf => exact .inr (by simp)
    | nan => exact .inl ⟨_, by simp, rfl⟩
  | cons b l ih =>
    rcases ih _ h with ⟨x, hx, rfl⟩ | hall
    · rcases List.mem_cons.mp hx with hx | hx
      · left
        cases a with
        | nan => exact ⟨_, by simp, rfl⟩
        | _ =>
          cases b with
          | nan => exact ⟨_, by simp, rfl⟩
          | _ =>
            simp only [XR.max2] at hx
            split at hx <;> simp at hx
      · exact .inl ⟨_, by simp [hx], rfl⟩
    · by_cases ha : a = XR.nan
      · exact .inl ⟨_, by simp, ha⟩
      by_cases hb : b = XR.nan
      · exact .inl ⟨_, by simp, hb⟩
      right
      have hab : a ≤ XR.fin t ∧ b ≤ XR.fin t := by
        have := hall (XR.max2 a b) (by simp)
        clear h hall ih
        revert this ha hb
        cases a with
        | fin y =>
          cases b with
          | fin z =>
            intro _ _ h3
            simp only [XR.max2, XR.le_fin] at h3
            split at h3 <;> simp only [XR.le_fin] at h3 ⊢ <;> constructor <;> linarith
          | _ => simp [XR.max2]
        | _ => cases b <;> simp [XR.max2]
      intro x hx
      simp only [List.mem_cons] at hx
      rcases hx with rfl | rfl | hx
      exacts [hab.1, hab.2, hall x (by simp [hx])]

theorem maxChange_bound {new old : List XR} {x : XR} {t : ℝ} (h : maxChange new old = .ok x)
    (hx : ¬ x > XR.fin t) :
    (∃ p ∈ new.zip old, (p.1 - p.2).abs = XR.nan) ∨ ∀ p ∈ new.zip old, (p.1 - p.2).abs ≤ XR.fin t := by
  unfold maxChange at h
  rw [← List.map_uncurry_zip_eq_zipWith, List.map_map] at h
  rcases hz : (new.zip old).map (XR.abs ∘ Function.uncurry fun a b => a - b) with _ | ⟨a, l⟩
  · rw [hz] at h
    simp [npMax, raise] at h
  · rw [hz] at h
    simp only [npMax, Except.ok.injEq] at h
    rcases foldl_max2_bound t l a (h ▸ hx) with ⟨y, hy, rfl⟩ | hall
    · rw [← hz, List.mem_map] at hy
      obtain ⟨p, hp, e⟩ := hy
      exact .inl ⟨p, hp, e⟩
    · rw [← hz] at hall
      exact .inr fun p hp => hall _ (List.mem_map.mpr ⟨p, hp, rfl⟩)

/-- **C41** (partial).  For `maxiter ≥ 0` and finite thresholds, success means that at least one update
was made and that either the last change of the divergence is a number not above its threshold, or no
coefficient and no exponent changed by more than its threshold in the last update -- unless one of these
changes is NaN.  Missing: a NaN change passes (`C41_nan_success`); see `C41_finite_partial` for finite
values. -/
theorem C41_success_partial (F : FPI) (c0 e0 : ND XR) (o : FPIOpts) (r : FPIResult) (cT eT dT : ℝ)
    (hcT : o.cThr = XR.fin cT) (heT : o.eThr = XR.fin eT) (hdT : o.dThr = XR.fin dT)
    (hm : 0 ≤ o.maxiter) (h : F.run (.arr c0) (.arr e0) o = .ok r) (hs : r.success = true) :
    ∃ n tr, RunTrace F c0 e0 o r (n + 1) tr ∧ n + 1 ≤ o.maxiter.toNat ∧
      ((∃ pre a b, r.fun_ = pre ++ [a, b] ∧ (b - a).abs ≤ XR.fin dT) ∨
       (((∃ p ∈ (tr (n + 1)).1.zip (tr n).1, (p.1 - p.2).abs = XR.nan) ∨
          ∀ p ∈ (tr (n + 1)).1.zip (tr n).1, (p.1 - p.2).abs ≤ XR.fin cT) ∧
        ((∃ p ∈ (tr (n + 1)).2.zip (tr n).2, (p.1 - p.2).abs = XR.nan) ∨
          ∀ p ∈ (tr (n + 1)).2.zip (tr n).2, (p.1 - p.2).abs ≤ XR.fin eT))) := by
  obtain ⟨n, tr, ht, hn, hor⟩ := success_changes F c0 e0 o r cT eT dT hcT heT hdT hm h hs
  refine ⟨n, tr, ht, hn, ?_⟩
  rcases hor with ⟨pre, a, b, hp, hgt, hnan⟩ | ⟨dc, de, k1, k2, k3, k4⟩
  · left
    refine ⟨pre.map (·.kl), a.kl, b.kl, by rw [ht.fun_, hp]; simp, ?_⟩
    generalize hz : (b.kl - a.kl).abs = z at *
    cases z with
    | fin x => exact (not_lt.mp hgt : x ≤ dT)
    | pinf => exact absurd trivial hgt
    | ninf => trivial
    | nan => exact absurd rfl hnan
  · exact .inr ⟨maxChange_bound k1 k3, maxChange_bound k2 k4⟩

theorem maxChange_fins {a b : List ℝ} {x : XR} (h : maxChange (fins a) (fins b) = .ok x)
    (hl : a.length = b.length) :
    ∃ M, x = XR.fin M ∧ ∀ k < a.length, |vec a k - vec b k| ≤ M := by
  unfold maxChange at h
  rw [zipWith_fins (g := fun u v => u - v) (by simp)] at h
  have hm : (fins (List.zipWith (fun u v => u - v) a b)).map XR.abs =
      fins ((List.zipWith (fun u v => u - v) a b).map fun z => |z|) := by
    simp [fins]
  rw [hm] at h
  have hne : (List.zipWith (fun u v => u - v) a b).map (fun z => |z|) ≠ [] := by
    intro h0
    rw [h0] at h
    simp [npMax, raise] at h
  obtain ⟨M, -, hM2, hM3⟩ := npMax_fins hne
  rw [hM2] at h
  injection h with h
  refine ⟨M, h.symm, ?_⟩
  intro k hk
  apply hM3
  have hk' : k < b.length := hl ▸ hk
  have e1 : vec a k = a[k] := by simp [vec, List.getD_eq_getElem?_getD, hk]
  have e2 : vec b k = b[k] := by simp [vec, List.getD_eq_getElem?_getD, hk']
  rw [e1, e2, List.mem_map]
  refine ⟨a[k] - b[k], ?_, rfl⟩
  rw [List.mem_iff_getElem]
  exact ⟨k, by simp [hk, hk'], by simp⟩

/-- **C41** (partial, finite iterates).  If the last two sets of parameters are finite, a reported
success means convergence: the last change of the divergence is a number at most `d_threshold`, or
each coefficient and each exponent changed by at most its threshold in the last update.  Missing:
infinite and NaN parameters. -/
theorem C41_finite_partial (F : FPI) (c0 e0 : ND XR) (o : FPIOpts) (r : FPIResult) (cT eT dT : ℝ)
    (hcT : o.cThr = XR.fin cT) (heT : o.eThr = XR.fin eT) (hdT : o.dThr = XR.fin dT)
    (hm : 0 ≤ o.maxiter) (h : F.run (.arr c0) (.arr e0) o = .ok r) (hs : r.success = true) :
    ∃ n tr, RunTrace F c0 e0 o r (n + 1) tr ∧ n + 1 ≤ o.maxiter.toNat ∧
      ∀ c e c' e' : List ℝ, tr n = (fins c, fins e) → tr (n + 1) = (fins c', fins e') →
        c.length = c'.length → e.length = e'.length →
        (∃ pre a b x, r.fun_ = pre ++ [a, b] ∧ (b - a).abs = XR.fin x ∧ x ≤ dT) ∨
        ((∀ k < c'.length, |vec c' k - vec c k| ≤ cT) ∧ ∀ k < e'.length, |vec e' k - vec e k| ≤ eT) := by
  obtain ⟨n, tr, ht, hn, hor⟩ := success_changes F c0 e0 o r cT eT dT hcT heT hdT hm h hs
  refine ⟨n, tr, ht, hn, ?_⟩
  intro c e c' e' h1 h2 hc he
  rcases hor with ⟨pre, a, b, hp, hgt, hnan⟩ | ⟨dc, de, k1, k2, k3, k4⟩
  · left
    refine ⟨pre.map (·.kl), a.kl, b.kl, ?_⟩
    have hf : r.fun_ = pre.map (·.kl) ++ [a.kl, b.kl] := by rw [ht.fun_, hp]; simp
    generalize hz : (b.kl - a.kl).abs = z at *
    cases z with
    | fin x => exact ⟨x, hf, rfl, not_lt.mp hgt⟩
    | pinf => exact absurd trivial hgt
    | ninf => exfalso; generalize b.kl - a.kl = w at hz; cases w <;> simp [XR.abs] at hz
    | nan => exact absurd rfl hnan
  · right
    rw [h1, h2] at k1 k2
    obtain ⟨M, rfl, hM⟩ := maxChange_fins k1 hc.symm
    obtain ⟨M', rfl, hM'⟩ := maxChange_fins k2 he.symm
    exact ⟨fun k hk => (hM k hk).trans (not_lt.mp k3), fun k hk => (hM' k hk).trans (not_lt.mp k4)⟩

end
end BFit
