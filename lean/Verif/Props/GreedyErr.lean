import Verif.Props.GreedyRepeat
import Verif.Props.GreedyStartKL
import Verif.Props.FPIHistory

/-! Property C92: the objective of the greedy classes and their optimisation step. -/

namespace BFit

open Real Finset

noncomputable section

/-- The squared error computed by `goodness_of_fit` is the objective of `GreedyLeastSquares`, the
Kullback-Leibler value that of `GreedyKLFPI`. -/
theorem evalObj_goodness (F : Fit) (p : List XR) (e : Perf)
    (h : F.goodness (firstHalf p) (secondHalf p) = .ok e) :
    evalObj F .sq p = .ok e.ls ∧ evalObj F (.kl F.klError) p = .ok e.kl := by
  unfold Fit.goodness at h
  unfold evalObj
  rcases hm : F.model.evaluate (firstHalf p) (secondHalf p) false with err | ⟨m, d⟩
  · rw [hm] at h; simp at h
  · rw [hm] at h
    simp only at h ⊢
    rcases h1 : bcast (· - ·) F.density m with err | d'
    · rw [h1] at h; simp at h
    rw [h1] at h
    simp only at h
    rcases h2 : F.integrate m with err | i
    · rw [h2] at h; simp at h
    rw [h2] at h
    simp only at h
    rcases h3 : F.integrate (d'.map XR.abs) with err | l1
    · rw [h3] at h; simp at h
    rw [h3] at h
    simp only at h
    rcases h4 : npMax (d'.map XR.abs) with err | linf
    · rw [h4] at h; simp at h
    rw [h4] at h
    simp only at h
    rcases h5 : sqEvaluate (.arr (ND.vec F.density)) (.arr (ND.vec m)) (.bool false) with err | ⟨s, s'⟩
    · rw [h5] at h; simp at h
    rw [h5] at h
    simp only at h
    rcases h6 : F.integrate s with err | ls
    · rw [h6] at h; simp at h
    rw [h6] at h
    simp only at h
    rcases h7 : F.klError.evaluate (.arr (ND.vec F.density)) (.arr (ND.vec m)) (.bool false) with err | ⟨k, k'⟩
    · rw [h7] at h; simp at h
    rw [h7] at h
    simp only at h
    rcases h8 : F.integrate k with err | kl
    · rw [h8] at h; simp at h
    rw [h8] at h
    simp only [Except.ok.injEq] at h
    subst h
    simp only [Meas.evaluate, h5, h7, h6, h8, and_self]

/-- What the constructor of `GreedyLeastSquares` stores. -/
theorem lsInit_fields {points density : List XR} {choice method : String} {norm : Bool} {T : Option XR}
    {sph : Bool} {S : SFit} {c : Choice} (h : lsInit points density choice method norm T sph = .ok (S, c)) :
    S.measure = .sq ∧ S.weights = List.replicate density.length (XR.fin 1) ∧
      ∃ m : Atomic, S.model = .atom m ∧
        Atomic.init (.arr (.one points)) .none (.int 1) (.int 0) norm = .ok m := by
  unfold lsInit at h
  split at h
  · simp at h
  rename_i m hm
  split at h
  · simp at h
  rename_i S' hS
  split at h
  · simp at h
  simp only [Except.ok.injEq, Prod.mk.injEq] at h
  obtain ⟨rfl, -⟩ := h
  unfold SFit.init at hS
  split at hS
  · simp [raise] at hS
  · simp [raise] at hS
  split at hS
  · simp [raise] at hS
  split at hS
  · simp [raise] at hS
  simp only at hS
  split at hS
  · simp at hS
  rename_i F hF
  simp only [Except.ok.injEq] at hS
  subst hS
  refine ⟨rfl, rfl, m, ?_, hm⟩
  unfold Fit.init at hF
  split at hF
  · simp [raise] at hF
  split at hF
  · simp [raise] at hF
  split at hF
  · simp only [Except.ok.injEq] at hF
    rw [← hF]
  · split at hF
    · simp at hF
    · simp only [Except.ok.injEq] at hF
      rw [← hF]

/-- What the constructor of `GreedyKLFPI` stores. -/
theorem klInit_fields {points density : List XR} {choice : String} {mask : XR} {T : Option XR}
    {sph : Bool} {F : FPI} {c : Choice} (h : klInit points density choice mask T sph = .ok (F, c)) :
    ∃ m : Atomic, F.model = .atom m ∧
      Atomic.init (.arr (.one points)) .none (.int 1) (.int 0) true = .ok m := by
  unfold klInit at h
  split at h
  · simp at h
  rename_i m hm
  split at h
  · simp at h
  rename_i S' hS
  split at h
  · simp at h
  simp only [Except.ok.injEq, Prod.mk.injEq] at h
  obtain ⟨rfl, -⟩ := h
  unfold FPI.init at hS
  split at hS
  · simp at hS
  rename_i F hF
  split at hS
  · simp at hS
  simp only at hS
  split at hS
  · simp [raise] at hS
  simp only [Except.ok.injEq] at hS
  subst hS
  refine ⟨m, ?_, hm⟩
  unfold Fit.init at hF
  split at hF
  · simp [raise] at hF
  split at hF
  · simp [raise] at hF
  split at hF
  · simp only [Except.ok.injEq] at hF
    rw [← hF]
  · split at hF
    · simp at hF
    · simp only [Except.ok.injEq] at hF
      rw [← hF]

/-- The measure of a run: the chosen column of `performance` never increases and ends in `fun`. -/
theorem run_column {E : GEnv} (hE : E.SizeChecked) (col : Perf → XR)
    (hcol : ∀ ns np p e, E.gof ns np p = .ok e → E.obj ns np p = .ok (col e)) {factor : PyObj} {o : GOpts}
    {r : GResult} {ob' : GObj} (h : E.run GObj.fresh factor o = .ok (r, ob')) :
    (r.performance.map col).getLast? = some r.fun_ ∧ (r.performance.map col).Pairwise (fun a b => b ≤ a) := by
  obtain ⟨hist, last, s, H, hf, -, -, -, -, -, hfun, -⟩ := run_history hE rfl rfl h
  obtain ⟨info, v, -, -, -, hres⟩ := finish_ok hf
  have hperf : r.performance.map col = hist.map Accepted.value := by
    rw [hres, H.errs]
    simp only [GObj.fresh, List.nil_append, List.map_map]
    apply List.map_congr_left
    intro a ha
    obtain ⟨h1, h2⟩ := H.valid a ha
    have := hcol _ _ _ _ h2
    rw [h1] at this
    injection this with this
    exact this.symm
  rw [hperf]
  refine ⟨?_, ?_⟩
  · rw [List.getLast?_map, H.isLast, hfun]
    rfl
  · exact List.pairwise_map.mpr H.noWorse

/-- **C92** (least squares).  In every successful run of `GreedyLeastSquares` the squared errors reported in
`performance` never increase and the last one is `fun`. -/
theorem C92_least_squares (points density : List XR) (choice method : String) (norm : Bool) (T : Option XR)
    (sph : Bool) (S : SFit) (c : Choice) (hS : lsInit points density choice method norm T sph = .ok (S, c))
    (o : LSOpts) (nnls : ℕ → ℕ → List (List XR) → List XR → Py (List XR)) (mini : ℕ → ℕ → SProblem → Py SRes)
    (rnd : ℕ → ℕ → ℕ → ℝ) (factor : PyObj) (g : GOpts) (r : GResult) (ob' : GObj)
    (h : (lsEnv S points c o nnls mini rnd).run GObj.fresh factor g = .ok (r, ob')) :
    (r.performance.map Perf.ls).getLast? = some r.fun_ ∧
      (r.performance.map Perf.ls).Pairwise (fun a b => b ≤ a) := by
  obtain ⟨hm, -, m, hmod, -⟩ := lsInit_fields hS
  refine run_column (lsEnv_sizeChecked S m hmod points c o nnls mini rnd) Perf.ls ?_ h
  intro ns np p e he
  have := (evalObj_goodness (S.withCounts ns np).toFit p e he).1
  simp only [lsEnv, hm]
  exact this

/-- **C92** (Kullback-Leibler).  In every successful run of `GreedyKLFPI` the Kullback-Leibler divergences
reported in `performance` never increase and the last one is `fun`. -/
theorem C92_kullback_leibler (points density : List XR) (choice : String) (mask : XR) (T : Option XR)
    (sph : Bool) (F : FPI) (c : Choice) (hF : klInit points density choice mask T sph = .ok (F, c))
    (ol og : FPIOpts) (rnd : ℕ → ℕ → ℕ → ℝ) (factor : PyObj) (g : GOpts) (r : GResult) (ob' : GObj)
    (h : (klEnv F points c ol og rnd).run GObj.fresh factor g = .ok (r, ob')) :
    (r.performance.map Perf.kl).getLast? = some r.fun_ ∧
      (r.performance.map Perf.kl).Pairwise (fun a b => b ≤ a) := by
  obtain ⟨m, hmod, -⟩ := klInit_fields hF
  refine run_column (klEnv_sizeChecked F m hmod points c ol og rnd) Perf.kl ?_ h
  intro ns np p e he
  exact (evalObj_goodness (F.withCounts ns np).toFit p e he).2

/-- **C92** (arguments).  A factor that is not positive raises ValueError and one that is not a float
TypeError, before anything is computed. -/
theorem C92_factor (E : GEnv) (ob : GObj) (o : GOpts) :
    (∀ f, f ≤ XR.fin 0 → E.run ob (.float f) o = .error .valueError) ∧
      (∀ x, (∀ f, x ≠ .float f) → E.run ob x o = .error .typeError) := by
  refine ⟨fun f hf => ?_, fun x hx => ?_⟩
  · simp [GEnv.run, hf, raise]
  · cases x with
    | float f => exact absurd rfl (hx f)
    | _ => rfl

/-- The optimisation step of `GreedyLeastSquares`, for the quick and the full optimisation alike. -/
theorem lsOptimise_ok {S : SFit} {points params q : List XR} {ns np : ℕ}
    {nnls : List (List XR) → List XR → Py (List XR)} {mini : SProblem → Py SRes} {tol : XR} {maxiter : ℤ}
    {con : Bool} {m : Atomic} (hmod : S.model = .atom m)
    (h : lsOptimise S points ns np nnls mini tol maxiter con params = .ok q) :
    ∃ c P R, nnls (cofactorMatrix points ns np (secondHalf params)) S.density = .ok c ∧
      mini P = .ok R ∧ q = R.x ∧ P.x0 = c ++ secondHalf params ∧ P.tol = tol ∧ P.maxiter = maxiter ∧
      (∀ y, P.objective y = (S.withCounts ns np).func y .none) ∧
      P.bounds = List.replicate (2 * (ns + np)) (XR.fin 1e-12, XR.pinf) ∧ (con = false → P.constraints = []) := by
  unfold lsOptimise at h
  simp only at h
  rcases hc : nnls (cofactorMatrix points ns np (secondHalf params)) S.density with err | c
  · rw [hc] at h; simp at h
  rw [hc] at h
  simp only at h
  rcases hr : (S.withCounts ns np).run mini c (secondHalf params) ⟨true, true, maxiter, tol, con⟩ with err | r
  · rw [hr] at h; simp at h
  rw [hr] at h
  simp only [Except.ok.injEq] at h
  have hnb : (S.withCounts ns np).model.nbasis = ((ns + np : ℕ) : ℤ) := by
    simp [SFit.withCounts, hmod, GModel.withCounts, GModel.nbasis, Atomic.nbasis]
  obtain ⟨P, R, h1, h2, h3, -⟩ := C44_run _ _ _ _ _ _ _ hnb hr
  obtain ⟨h4, h5, -⟩ := h3 rfl rfl
  refine ⟨c, P, R, rfl, h2, by rw [h5, h], h4, ?_⟩
  unfold SFit.problem SFit.setup at h1
  simp only [Bool.and_self, if_true, Except.ok.injEq] at h1
  subst h1
  refine ⟨rfl, rfl, fun _ => rfl, ?_, ?_⟩
  · show List.replicate (2 * (S.withCounts ns np).model.nbasis).toNat _ = _
    rw [hnb]
    congr 1
  · rintro rfl
    rfl

/-- What an optimisation step of `GreedyLeastSquares` with `ns + np` functions does with the vector
`params`: it hands the coefficients of a non-negative least-squares problem and the unchanged exponents to
the minimiser, with the objective of the greedy search as objective, and returns the minimiser's answer. -/
structure LSStep (x : List ℝ) (f : ℕ → ℝ) (norm : Bool) (ns np : ℕ) (params q : List XR)
    (nnls : List (List XR) → List XR → Py (List XR)) (mini : SProblem → Py SRes) (tol : XR) (maxiter : ℤ)
    (obj : List XR → Py XR) : Prop where
  ex : ∃ c P R, nnls (cofactorMatrix (fins x) ns np (params.drop (params.length / 2)))
      (fins (tab x.length f)) = .ok c ∧
    mini P = .ok R ∧ q = R.x ∧ P.x0 = c ++ params.drop (params.length / 2) ∧ P.tol = tol ∧
    P.maxiter = maxiter ∧ P.bounds = List.replicate (2 * (ns + np)) (XR.fin 1e-12, XR.pinf) ∧
    ∀ c e : List ℝ, c.length = ns + np → e.length = ns + np → (norm = true → ∀ a ∈ e, 0 ≤ a) →
      ∃ v g, P.objective (fins (c ++ e)) = .ok (XR.fin v, g) ∧ obj (fins (c ++ e)) = .ok (XR.fin v)

/-- **C92** (the optimisation step of `GreedyLeastSquares`). -/
theorem C92_least_squares_step (x : List ℝ) (f : ℕ → ℝ) (hf : ∀ i < x.length, 0 ≤ f i) (norm : Bool)
    (T : Option XR) (sph : Bool) :
    ∃ S, lsInit (fins x) (fins (tab x.length f)) "pick-one" "SLSQP" norm T sph = .ok (S, .pickOne) ∧
      ∀ (o : LSOpts) (nnls : ℕ → ℕ → List (List XR) → List XR → Py (List XR))
        (mini : ℕ → ℕ → SProblem → Py SRes) (rnd : ℕ → ℕ → ℕ → ℝ) (ns np t : ℕ) (params q : List XR),
        ns + np ≠ 0 →
        (∀ i, (lsEnv S (fins x) .pickOne o nnls mini rnd).optLocal t i ns np params = .ok q →
          LSStep x f norm ns np params q (nnls t (i + 1)) (mini t (i + 1)) o.localTol o.lMaxiter
            ((lsEnv S (fins x) .pickOne o nnls mini rnd).obj ns np)) ∧
        ((lsEnv S (fins x) .pickOne o nnls mini rnd).optGlobal t ns np params = .ok q →
          LSStep x f norm ns np params q (nnls t 0) (mini t 0) o.globalTol o.gMaxiter
            ((lsEnv S (fins x) .pickOne o nnls mini rnd).obj ns np)) := by
  obtain ⟨S, h1, h2, h3, h4, h5, h6⟩ := lsInit_data x f hf norm T sph
  obtain ⟨-, hw, -⟩ := lsInit_fields h1
  refine ⟨S, h1, ?_⟩
  intro o nnls mini rnd ns np t params q hsp
  have hw1 : S.weights = fins (tab x.length fun _ => 1) := by
    rw [hw]
    refine List.ext_getElem (by simp) ?_
    intro i _ _
    simp [fins, tab]
  obtain ⟨W, hW⟩ : ∃ W, Quad S.grid S.spherical x.length W := by
    rw [h2, h4]
    cases sph with
    | true => exact ⟨_, quad_spherical x⟩
    | false =>
      have := quad_plain (hasWeights_radial x)
      rw [trapW_length] at this
      exact ⟨_, this⟩
  have hm : IsModel (S.withCounts ns np).model norm (atomShape (x.map fun r => |r|) ns np) x.length := by
    have := atom_isModel
      (m := ⟨.one (fins x), [XR.fin 0], fins (x.map fun r => |r|), ns, np, norm⟩)
      (rs := x.map fun r => |r|) (ns := ns) (np := np) ⟨rfl, rfl, rfl⟩ hsp
    simpa [SFit.withCounts, h5, GModel.withCounts] using this
  have hD : FitData (S.withCounts ns np).toFit norm (atomShape (x.map fun r => |r|) ns np) x.length W f :=
    ⟨hm, h3, hW⟩
  have key : ∀ c e : List ℝ, c.length = ns + np → e.length = ns + np → (norm = true → ∀ a ∈ e, 0 ≤ a) →
      ∃ v g, (S.withCounts ns np).func (fins (c ++ e)) .none = .ok (XR.fin v, g) ∧
        evalObj (S.withCounts ns np).toFit S.measure (fins (c ++ e)) = .ok (XR.fin v) := by
    intro c e hc he hpos
    have hfun := func_fins (S := S.withCounts ns np) hD (w := fun _ => 1) hw1
      (by show MeasAt S.measure _ _ _ _ _; rw [h6]; exact measAt_sq _ f)
      (Params.both c e hc he) hpos (fun _ _ => trivial)
    refine ⟨_, _, hfun, ?_⟩
    · unfold evalObj
      have hl : c.length = e.length := by rw [hc, he]
      have h1 : firstHalf (fins (c ++ e)) = fins c := by
        rw [firstHalf, fins_length, List.length_append, ← hl, ← two_mul, Nat.mul_div_cancel_left _ two_pos]
        simp [fins]
      have h2 : secondHalf (fins (c ++ e)) = fins e := by
        rw [secondHalf, fins_length, List.length_append, ← hl, ← two_mul, Nat.mul_div_cancel_left _ two_pos]
        simp [fins]
      rw [h1, h2, hD.model.eval c e false hc he hpos, h6]
      simp only [Meas.evaluate]
      rw [hD.dens, sq_evaluate_vec _ _ (by simp), sq_core_tab]
      simp only [Fit.integrate, one_mul]
      rw [hD.quad.fin]
  constructor
  · intro i h
    obtain ⟨c, P, R, g1, g2, g3, g4, g5, g6, g7, g8, -⟩ := lsOptimise_ok h5 h
    rw [h3] at g1
    refine ⟨c, P, R, g1, g2, g3, g4, g5, g6, g8, fun c e hc he hp => ?_⟩
    rw [g7]
    exact key c e hc he hp
  · intro h
    obtain ⟨c, P, R, g1, g2, g3, g4, g5, g6, g7, g8, -⟩ := lsOptimise_ok h5 h
    rw [h3] at g1
    refine ⟨c, P, R, g1, g2, g3, g4, g5, g6, g8, fun c e hc he hp => ?_⟩
    rw [g7]
    exact key c e hc he hp

/-- **C92** (the optimisation step of `GreedyKLFPI`).  It is a run of the fixed-point iteration from the
two halves of the guess, with the options of the quick or of the full optimisation. -/
theorem C92_kullback_leibler_step (F : FPI) (points : List XR) (c : Choice) (ol og : FPIOpts)
    (rnd : ℕ → ℕ → ℕ → ℝ) (t i ns np : ℕ) (c0 e0 q : List XR) (hl : c0.length = e0.length) :
    ((klEnv F points c ol og rnd).optLocal t i ns np (c0 ++ e0) = .ok q ↔
      ∃ r, (F.withCounts ns np).run (.arr (ND.vec c0)) (.arr (ND.vec e0)) ol = .ok r ∧
        q = r.coeffs ++ r.exps) ∧
    ((klEnv F points c ol og rnd).optGlobal t ns np (c0 ++ e0) = .ok q ↔
      ∃ r, (F.withCounts ns np).run (.arr (ND.vec c0)) (.arr (ND.vec e0)) og = .ok r ∧
        q = r.coeffs ++ r.exps) := by
  have h1 : firstHalf (c0 ++ e0) = c0 := by
    simp only [firstHalf, List.length_append, ← hl, ← two_mul, Nat.mul_div_cancel_left _ two_pos]
    simp
  have h2 : secondHalf (c0 ++ e0) = e0 := by
    simp only [secondHalf, List.length_append, ← hl, ← two_mul, Nat.mul_div_cancel_left _ two_pos]
    simp
  have key : ∀ o, klOptimise (F.withCounts ns np) o (c0 ++ e0) = .ok q ↔
      ∃ r, (F.withCounts ns np).run (.arr (ND.vec c0)) (.arr (ND.vec e0)) o = .ok r ∧
        q = r.coeffs ++ r.exps := by
    intro o
    unfold klOptimise
    rw [h1, h2]
    rcases (F.withCounts ns np).run (.arr (ND.vec c0)) (.arr (ND.vec e0)) o with err | r
    · simp
    · simp [eq_comm]
  exact ⟨key ol, key og⟩

/-- C92: a run of `GreedyLeastSquares` for `7 exp(-3 r²)` on the grid `0, 1` with one function succeeds and
reports the squared error 0. -/
example (o : LSOpts) (nnls : ℕ → ℕ → List (List XR) → List XR → Py (List XR))
    (mini : ℕ → ℕ → SProblem → Py SRes) (rnd : ℕ → ℕ → ℕ → ℝ) :
    ∃ S r ob', lsInit (fins [0, 1]) (fins [7, 7 * exp (-3)]) "pick-one" "SLSQP" false none true =
        .ok (S, .pickOne) ∧
      (lsEnv S (fins [0, 1]) .pickOne o nnls mini rnd).run GObj.fresh (.float (XR.fin 2)) ⟨XR.fin 1, 1, none⟩ =
        .ok (r, ob') ∧ r.performance.map Perf.ls = [XR.fin 0] ∧ r.fun_ = XR.fin 0 := by
  obtain ⟨S, h1, h2, h3⟩ := C59_recovers [0, 1] 7 3 (by norm_num) none true
    ⟨0, by simp, 1, by simp, by norm_num [vec]⟩ o nnls mini rnd
  have h1' : lsInit (fins [0, 1]) (fins [7, 7 * exp (-3)]) "pick-one" "SLSQP" false none true =
      .ok (S, .pickOne) := by simpa using h1
  obtain ⟨S', g1, g2, g3, g4, g5, g6⟩ := lsInit_data [0, 1] (vec [7, 7 * exp (-3)])
    (by intro i hi
        have hi : i < 2 := hi
        interval_cases i <;> simp [vec, exp_nonneg]) false none true
  have ht : tab [(0 : ℝ), 1].length (vec [7, 7 * exp (-3)]) = [7, 7 * exp (-3)] := by
    simp [tab, vec, List.range_succ]
  rw [ht, h1'] at g1
  simp only [Except.ok.injEq, Prod.mk.injEq, and_true] at g1
  subst g1
  have hwc : S.withCounts 1 0 = S := by
    have : S.model.withCounts 1 0 = S.model := by rw [g5]; rfl
    unfold SFit.withCounts
    rw [this]
  have hm : IsModel S.model false (atomShape ([0, 1].map fun r => |r|) 1 0) 2 := by
    rw [g5]
    exact atom_isModel
      (m := ⟨.one (fins [0, 1]), [XR.fin 0], fins ([0, 1].map fun r => |r|), 1, 0, false⟩)
      (rs := [0, 1].map fun r => |r|) (ns := 1) (np := 0) ⟨rfl, rfl, rfl⟩ (by simp)
  have hD : FitData S.toFit false (atomShape ([0, 1].map fun r => |r|) 1 0) 2 (sphW [0, 1])
      (vec [7, 7 * exp (-3)]) := ⟨hm, g3, by rw [g2, g4]; exact quad_spherical [0, 1]⟩
  obtain ⟨M, kl, hg, -⟩ := goodness_fins hD two_pos [7] [3] rfl rfl (by simp)
  generalize hp : (Perf.mk _ _ _ _ _) = p at hg
  have hls := (evalObj_goodness S.toFit (fins [7, 3]) p hg).1
  have h3' : evalObj S.toFit .sq (fins [7, 3]) = .ok (XR.fin 0) := by
    have : evalObj (S.withCounts 1 0).toFit S.measure (fins [7, 3]) = .ok (XR.fin 0) := h3
    rwa [hwc, g6] at this
  rw [h3'] at hls
  injection hls with hls
  have hgof : (lsEnv S (fins [0, 1]) .pickOne o nnls mini rnd).gof 1 0 (fins [7, 3]) = .ok p := by
    show (S.withCounts 1 0).goodness (firstHalf (fins [7, 3])) (secondHalf (fins [7, 3])) = .ok p
    rw [hwc]
    exact hg
  refine ⟨S, ⟨fins [7], fins [3], 1, 0, XR.fin 0, true, [fins [7, 3]], [p], .maxReached⟩, ⟨1, 0, 1, 0, [p]⟩,
    h1', ?_, by simp [← hls], rfl⟩
  simp only [GEnv.run, GEnv.start, GObj.fresh, h2, h3, hgof]
  rw [if_neg (by simp)]
  simp only [sub_self, Int.toNat_zero, mul_zero, GEnv.loop, GEnv.finish]
  simp only [fins, List.map_cons, List.map_nil] at h3 ⊢
  simp [finalExitInfo, h3, splitParams]

end
end BFit
