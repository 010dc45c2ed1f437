import Verif.Model.GreedyCubic
import Verif.Lemmas.Greedy
import Verif.Props.CubicGrid
import Verif.Props.ScipyFit

/-! Property C83: greedy fits on a cubic grid. -/

namespace BFit

open Classical

noncomputable section

theorem pointsDiffer_cubic (g : CubicGrid) (h : ∀ p ∈ g.points, ∀ d, ∃ x, p d = XR.fin x) :
    pointsDiffer (Grid.cubic g).pts (.two 3 (cubicRows g.points)) = some false := by
  unfold pointsDiffer Grid.pts cubicRows Pts.mat
  simp only [true_or, and_self, if_true, List.zipWith_self, List.mem_map, Option.some.injEq,
    decide_eq_false_iff_not, subRow]
  rintro ⟨row, ⟨q, ⟨p, hp, rfl⟩, rfl⟩, x, hx, hlt⟩
  obtain ⟨a0, h0⟩ := h p hp 0
  obtain ⟨a1, h1⟩ := h p hp 1
  obtain ⟨a2, h2⟩ := h p hp 2
  simp only [List.map_cons, List.map_nil, h0, h1, h2, XR.sub_fin, sub_self,
    List.mem_cons, List.not_mem_nil, or_false, or_self] at hx
  subst hx
  simp only [XR.abs_fin, abs_zero, gt_iff_lt, XR.lt_fin] at hlt
  norm_num at hlt

/-- **C83** (construction).  On every cubic grid with linearly independent axes and for every non-negative
density on it that is not zero, both greedy classes can be constructed. -/
theorem C83_constructs (o : Fin 3 → ℝ) (a : Fin 3 → Fin 3 → ℝ) (nx ny nz : ℕ) (f : List ℝ)
    (hf : f.length = nx * ny * nz) (hdet : (Matrix.of a).det ≠ 0) (hnn : ∀ x ∈ f, 0 ≤ x)
    (hne : f.sum ≠ 0) (norm : Bool) (mask : XR) :
    ∃ g F S, cubicGrid (v3 o) (m3 a) (sh nx ny nz) = .ok g ∧
      klInitCubic g (fins f) "pick-one" mask none false = .ok (F, .pickOne) ∧
      lsInitCubic g (fins f) "pick-one" "SLSQP" norm none false = .ok (S, .pickOne) := by
  obtain ⟨g, hg, hint⟩ := C07_integrate_value (v3 o) a nx ny nz f hf
  have hg' := hg
  rw [cubicGrid_sh] at hg'
  injection hg' with hg'
  have hpts : ∀ p ∈ g.points, ∀ d, ∃ x, p d = XR.fin x := by
    rw [← hg']
    intro p hp d
    simp only [List.mem_map, List.mem_range] at hp
    obtain ⟨n, -, rfl⟩ := hp
    simp only [rowDot, m3, v3, Fin.sum_univ_three, Matrix.cons_val_zero, Matrix.cons_val_one, Matrix.cons_val,
      XR.mul_fin, XR.add_fin]
    exact ⟨_, rfl⟩
  have hlen : g.points.length = f.length := by rw [← hg', hf]; simp
  have hnn' : ¬ ∃ x ∈ fins f, x < XR.fin 0 := by
    rintro ⟨x, hx, hlt⟩
    simp only [fins, List.mem_map] at hx
    obtain ⟨y, hy, rfl⟩ := hx
    rw [XR.lt_fin] at hlt
    exact absurd (hnn y hy) (not_le.mpr hlt)
  have hI : |(Matrix.of a).det| * f.sum ≠ 0 := mul_ne_zero (abs_ne_zero.mpr hdet) hne
  have hintg : integrateOn (.cubic g) false (fins f) = .ok (XR.fin (|(Matrix.of a).det| * f.sum)) := hint
  have hinit : ∀ m mk, Fit.init (.cubic g) (fins f) m none false mk =
      .ok ⟨.cubic g, fins f, m, XR.fin (|(Matrix.of a).det| * f.sum), false, mk⟩ := by
    intro m mk
    unfold Fit.init
    rw [if_neg hnn', if_neg (by simp)]
    simp only [hintg]
  have hc : Choice.parse "pick-one" = .ok .pickOne := by simp [Choice.parse]
  obtain ⟨m, hm, hmp⟩ : ∃ m, Atomic.init (.arr (.two 3 (cubicRows g.points))) .none (.int 1) (.int 0) true =
    .ok m ∧ m.points = .two 3 (cubicRows g.points) := ⟨_, rfl, rfl⟩
  obtain ⟨m', hm', hmp'⟩ : ∃ m, Atomic.init (.arr (.two 3 (cubicRows g.points))) .none (.int 1) (.int 0) norm =
    .ok m ∧ m.points = .two 3 (cubicRows g.points) := ⟨_, rfl, rfl⟩
  have e1 : ∃ F, klInitCubic g (fins f) "pick-one" mask none false = .ok (F, .pickOne) := by
    unfold klInitCubic
    rw [hm]
    simp only
    unfold FPI.init
    rw [hinit]
    simp only [Fit.integrate, hintg, XR.div_fin_of_ne _ hI, div_self hI]
    rw [if_neg (by simp), hc]
    exact ⟨_, rfl⟩
  have e2 : ∃ S, lsInitCubic g (fins f) "pick-one" "SLSQP" norm none false = .ok (S, .pickOne) := by
    unfold lsInitCubic
    rw [hm']
    simp only
    unfold SFit.init
    simp only [GModel.points]
    rw [hmp', pointsDiffer_cubic g hpts]
    simp only
    rw [if_neg (by simp [Grid.len, hlen]), parse_names.1]
    simp only [hinit, hc]
    exact ⟨_, rfl⟩
  obtain ⟨F, hF⟩ := e1
  obtain ⟨S, hS⟩ := e2
  exact ⟨g, F, S, hg, hF, hS⟩

theorem klOneFunCubic_raises (g : CubicGrid) (d : List XR) (T : XR) :
    klOneFunCubic g d T = .error .valueError := by
  unfold klOneFunCubic
  have hb : ∀ h : List (List XR), g.integrate (ND.mat 3 h) = .error .valueError := by
    intro h
    unfold CubicGrid.integrate ND.mat raise
    simp
  unfold bcastRows
  split <;> rename_i h <;> split at h
  · simp at h
  · split at h
    · simp at h
    · simp only [raise, Except.error.injEq] at h
      rw [h]
  · rw [hb]
  · split at h
    · rw [hb]
    · simp [raise] at h

/-- **C83** (Kullback-Leibler).  On a cubic grid the constructor of `GreedyKLFPI` works, but `run` raises
ValueError for every float factor and TypeError for anything else. -/
theorem C83_kullback_leibler (g : CubicGrid) (F : FPI) (c : Choice) (ol og : FPIOpts)
    (rnd : ℕ → ℕ → ℕ → ℝ) (ob : GObj) (factor : PyObj) (o : GOpts) :
    (klEnvCubic F g c ol og rnd).run ob factor o =
      .error (if ∃ f, factor = .float f then .valueError else .typeError) := by
  unfold GEnv.run
  cases factor with
  | float f =>
    simp only
    split
    · simp [raise]
    · unfold GEnv.start
      rw [show (klEnvCubic F g c ol og rnd).oneFun ob.modelS ob.modelP = .error .valueError from
        klOneFunCubic_raises _ _ _]
      simp
  | _ => simp [raise]

theorem solveOneWeightCubic_raises (g : List V3) (d w : List XR) (h1 : w.length ≠ 1) (h3 : w.length ≠ 3) :
    solveOneWeightCubic g d w = .error .valueError := by
  unfold solveOneWeightCubic bcastRows
  simp [h1, h3, raise]

/-- **C83** (least squares).  `run` raises ValueError unless the cubic grid has exactly one or three
points; even then a run that returns has added no basis function. -/
theorem C83_least_squares (g : CubicGrid) (S : SFit) (c : Choice) (lo : LSOpts)
    (nnls : ℕ → ℕ → List (List XR) → List XR → Py (List XR)) (minimize : ℕ → ℕ → SProblem → Py SRes)
    (rnd : ℕ → ℕ → ℕ → ℝ) (factor : PyObj) (o : GOpts) :
    (g.points.length ≠ 1 → g.points.length ≠ 3 →
      (lsEnvCubic S g c lo nnls minimize rnd).run .fresh factor o =
        .error (if ∃ f, factor = .float f then .valueError else .typeError)) ∧
    ∀ r ob, (lsEnvCubic S g c lo nnls minimize rnd).run .fresh factor o = .ok (r, ob) →
      r.numS = 1 ∧ r.numP = 0 ∧ ∃ p, r.parametersIteration = [p] := by
  have hE : g.points.length ≠ 1 → g.points.length ≠ 3 → ∀ ns np,
      (lsEnvCubic S g c lo nnls minimize rnd).oneFun ns np = .error .valueError := by
    intro h1 h3 ns np
    change lsOneFunCubic _ _ _ = _
    unfold lsOneFunCubic
    rw [solveOneWeightCubic_raises _ _ _ (by simpa using h1) (by simpa using h3)]
  refine ⟨?_, ?_⟩
  · intro h1 h3
    unfold GEnv.run
    cases factor with
    | float f =>
      simp only
      split
      · simp [raise]
      · unfold GEnv.start
        rw [hE h1 h3]
        simp
    | _ => simp [raise]
  · intro r ob hr
    obtain ⟨f, s0, n, s, -, -, hs0, hrounds, -, hfin⟩ := run_ok hr
    obtain ⟨p, err, v, hone, -, -, hs⟩ := start_ok hs0
    have hlen : g.points.length ≠ 0 := by
      intro h0
      rw [hE (by omega) (by omega)] at hone
      exact absurd hone (by simp)
    have hopt : ∀ t i ns np q,
        (lsEnvCubic S g c lo nnls minimize rnd).optLocal t i ns np q = .error .valueError := by
      intro t i ns np q
      change lsOptimiseCubic _ _ _ _ _ _ _ _ _ _ = _
      unfold lsOptimiseCubic
      rw [if_pos (by omega)]
      rfl
    have hstep : ∀ s', (lsEnvCubic S g c lo nnls minimize rnd).step o f s0 ≠ .ok s' := by
      intro s' hst
      unfold GEnv.step at hst
      split at hst
      · exact absurd hst (by simp)
      · rename_i total _
        have hP : 0 < ((lsEnvCubic S g c lo nnls minimize rnd).choicesP s0).length := by
          unfold GEnv.choicesP
          rw [hs]
          simp [GObj.fresh]
        obtain ⟨k, hk⟩ : ∃ k, ((lsEnvCubic S g c lo nnls minimize rnd).choicesS s0).length +
            ((lsEnvCubic S g c lo nnls minimize rnd).choicesP s0).length = k + 1 :=
          ⟨_, (Nat.succ_pred_eq_of_pos (by omega)).symm⟩
        have hfb : ∃ e, (lsEnvCubic S g c lo nnls minimize rnd).findBest s0.round s0.numS s0.numP total
            ((lsEnvCubic S g c lo nnls minimize rnd).choicesS s0).length
            ((lsEnvCubic S g c lo nnls minimize rnd).choicesP s0).length = .error e := by
          unfold GEnv.findBest
          rw [hk, List.range_succ_eq_map]
          rw [GEnv.findBestLoop]
          split
          · exact ⟨_, rfl⟩
          · simp only [hopt]
            exact ⟨_, rfl⟩
        obtain ⟨e, he⟩ := hfb
        rw [he] at hst
        exact absurd hst (by simp)
    have hss : s = s0 := by
      have key : ∀ m s', Rounds (lsEnvCubic S g c lo nnls minimize rnd) o f s0 m s' → s' = s0 := by
        intro m s' hm
        induction hm with
        | refl => rfl
        | step _ _ h3 ih =>
          rw [ih] at h3
          exact absurd h3 (hstep _)
      exact key n s hrounds
    obtain ⟨info, v', -, -, -, hr'⟩ := finish_ok hfin
    rw [hr', hss, hs]
    exact ⟨rfl, rfl, p, rfl⟩

/-- C83 on a cubic grid with four points. -/
example : ∃ g F S, cubicGrid (v3 ![0, 0, 0]) (m3 ![![2, 0, 0], ![0, 1, 0], ![0, 0, 1]]) (sh 2 2 1) = .ok g ∧
    klInitCubic g (fins [3, 4, 1, 0]) "pick-one" (XR.fin 1e-12) none false = .ok (F, .pickOne) ∧
    lsInitCubic g (fins [3, 4, 1, 0]) "pick-one" "SLSQP" false none false = .ok (S, .pickOne) ∧
    (∀ ol og rnd o, (klEnvCubic F g .pickOne ol og rnd).run .fresh (.float (XR.fin 2)) o =
      .error .valueError) ∧
    ∀ lo nnls minimize rnd o, (lsEnvCubic S g .pickOne lo nnls minimize rnd).run .fresh
      (.float (XR.fin 2)) o = .error .valueError := by
  obtain ⟨g, F, S, h1, h2, h3⟩ := C83_constructs ![0, 0, 0] ![![2, 0, 0], ![0, 1, 0], ![0, 0, 1]] 2 2 1
    [3, 4, 1, 0] rfl (by rw [Matrix.det_fin_three]; simp) (by simp) (by norm_num) false (XR.fin 1e-12)
  have hl : g.points.length = 4 := by
    rw [cubicGrid_sh] at h1
    injection h1 with h1
    rw [← h1]
    simp
  refine ⟨g, F, S, h1, h2, h3, ?_, ?_⟩
  · intro ol og rnd o
    rw [C83_kullback_leibler]
    simp
  · intro lo nnls minimize rnd o
    rw [(C83_least_squares g S .pickOne lo nnls minimize rnd _ o).1 (by omega) (by omega)]
    simp

end
end BFit
