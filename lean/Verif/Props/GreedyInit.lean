import Verif.Props.GreedyChoices
import Verif.Props.GreedyStart
import Verif.Props.ScipyInit

/-! Property C109: construction of the greedy objects and the strategy belonging to each name. -/

namespace BFit

open Classical Finset

noncomputable section

/-- The names of the strategies. -/
def StrategyName (name : String) : Prop := name = "pick-one" ∨ name = "pick-two" ∨ name = "pick-two-lose-one"

/-- What the strategy with a given name does: how many functions it adds and its guesses for `n` present
functions.  `next` are the guesses made from a factor, coefficients and exponents. -/
structure Strategy (name : String) (inc : ℕ) (next : XR → List XR → List XR → List (List XR)) : Prop where
  one : name = "pick-one" → inc = 1 ∧ ∀ (f : XR) (cs es : List XR), next f cs es = getNextChoices f cs es (XR.fin 100)
  two : name = "pick-two" → inc = 2 ∧
    ∀ (f : XR) (cs es : List XR), next f cs es = getTwoNextChoices f cs es (XR.fin 100)
  lose : name = "pick-two-lose-one" → inc = 1 ∧
    ∀ (f : XR) (cs es : List XR), next f cs es = pickTwoLoseOne f cs es (XR.fin 100)
  sizes : ∀ (f : XR) (cs es : List XR), cs.length = es.length → es ≠ [] → ∀ x ∈ next f cs es,
    x.length = 2 * (es.length + inc)
  count : ∀ (f : XR) (cs es : List XR), cs.length = es.length → es ≠ [] →
    (name = "pick-one" → (next f cs es).length = es.length + 1) ∧
    (name = "pick-two" → 2 * (next f cs es).length = es.length ^ 2 + 5 * es.length + 4) ∧
    (name = "pick-two-lose-one" →
      2 * (next f cs es).length = (es.length ^ 2 + 5 * es.length + 4) * (es.length + 2))

theorem parse_strategy (name : String) :
    (StrategyName name → ∃ c, Choice.parse name = .ok c ∧ Strategy name c.inc c.next) ∧
    (¬ StrategyName name → Choice.parse name = .error .valueError) := by
  constructor
  · rintro (rfl | rfl | rfl)
    · refine ⟨.pickOne, by simp [Choice.parse], fun _ => ⟨rfl, fun _ _ _ => rfl⟩, by simp, by simp, ?_, ?_⟩
      · intro f cs es h he x hx
        exact (C46_sizes f _ cs es h he).2 x hx
      · intro f cs es h he
        exact ⟨fun _ => (C46_sizes f _ cs es h he).1, by simp, by simp⟩
    · refine ⟨.pickTwo, by simp [Choice.parse], by simp, fun _ => ⟨rfl, fun _ _ _ => rfl⟩, by simp, ?_, ?_⟩
      · intro f cs es h he x hx
        obtain ⟨_, _, c, e, rfl, h1, h2, -⟩ := C47_guess f _ cs es h he x hx
        rw [List.length_append, h1, h2, Choice.inc]
        omega
      · intro f cs es h he
        exact ⟨by simp, fun _ => C47_count f _ cs es h he, by simp⟩
    · refine ⟨.pickTwoLoseOne, by simp [Choice.parse], by simp, by simp, fun _ => ⟨rfl, fun _ _ _ => rfl⟩, ?_, ?_⟩
      · intro f cs es h he x hx
        exact (C48_sizes f _ cs es h he).2 x hx
      · intro f cs es h he
        exact ⟨by simp, by simp, fun _ => (C48_sizes f _ cs es h he).1⟩
  · intro h
    unfold StrategyName at h
    push Not at h
    simp [Choice.parse, h.1, h.2.1, h.2.2, raise]

/-- The model of a greedy object: one s-type function on the grid points, centred at the origin. -/
theorem greedy_model (x : List ℝ) (norm : Bool) :
    ∃ m, Atomic.init (.arr (.one (fins x))) .none (.int 1) (.int 0) norm = .ok m ∧
      IsAtom m (x.map fun x => |x|) 1 0 ∧ m.normalized = norm ∧ m.points = .one (fins x) := by
  obtain ⟨m, hm, h1, h2⟩ := (C18_radii_1d x 0 1 0 (by norm_num) norm).2
  refine ⟨m, hm, h1, h2, ?_⟩
  obtain ⟨pts, coord, radii, s, p, hpts, -, -, -, -, -, -, -, rfl⟩ := init_inv hm
  injection hpts with hpts
  exact hpts.symm

theorem samePoints_self (x : List ℝ) : SamePoints x x :=
  ⟨.inl rfl, fun i j _ _ h => by rw [h rfl]; simp; norm_num⟩

/-- **C109** (least squares).  `GreedyLeastSquares` on a radial grid accepts exactly densities with one
non-negative value per point, the two optimisation methods (in any case) and the three strategies; everything
else raises ValueError.  The object fits the squared difference with unit weights and starts from one s-type
function, normalised as requested; its strategy is the one named. -/
theorem C109_least_squares (x density : List ℝ) (name method : String) (norm : Bool) (T : Option XR) (sph : Bool) :
    (density.length = x.length ∧ (∀ v ∈ density, 0 ≤ v) ∧ MethodName method ∧ StrategyName name →
      ∃ S c, lsInit (fins x) (fins density) name method norm T sph = .ok (S, c) ∧
        Strategy name c.inc c.next ∧ S.measure = .sq ∧ S.weights = List.replicate x.length (XR.fin 1) ∧
        S.density = fins density ∧ S.spherical = sph ∧ S.grid = .radial ⟨fins x⟩ ∧
        ∃ m, S.model = .atom m ∧ m.normalized = norm ∧ IsAtom m (x.map fun x => |x|) 1 0) ∧
    (¬ (density.length = x.length ∧ (∀ v ∈ density, 0 ≤ v) ∧ MethodName method ∧ StrategyName name) →
      lsInit (fins x) (fins density) name method norm T sph = .error .valueError) := by
  obtain ⟨m, hm, hm1, hm2, hm3⟩ := greedy_model x norm
  obtain ⟨k1, k2⟩ := C104_radial x x density (.atom m) hm3 .sq method none T sph (XR.fin 1e-18)
  obtain ⟨p1, p2⟩ := parse_strategy name
  unfold lsInit
  simp only [hm]
  constructor
  · rintro ⟨h1, h2, h3, h4⟩
    obtain ⟨S, hS⟩ := k1 ⟨samePoints_self x, h1, h3, h2⟩
    obtain ⟨c, hc, hc'⟩ := p1 h4
    refine ⟨S, c, by simp only [hS, hc], hc', ?_⟩
    unfold SFit.init raise at hS
    split at hS
    · simp at hS
    · simp at hS
    split at hS
    · simp at hS
    split at hS
    · simp at hS
    simp only at hS
    rcases hF : Fit.init (.radial ⟨fins x⟩) (fins density) (.atom m) T sph (XR.fin 1e-18) with err | F
    · rw [hF] at hS; simp at hS
    rw [hF] at hS
    injection hS with hS
    subst hS
    have hF' : F.density = fins density ∧ F.spherical = sph ∧ F.grid = .radial ⟨fins x⟩ ∧ F.model = .atom m := by
      unfold Fit.init raise at hF
      repeat' split at hF
      all_goals first
        | (simp at hF; done)
        | (injection hF with hF; subst hF; exact ⟨rfl, rfl, rfl, rfl⟩)
    exact ⟨rfl, by simp [h1], hF'.1, hF'.2.1, hF'.2.2.1, m, hF'.2.2.2, hm2, hm1⟩
  · intro h
    by_cases h' : density.length = x.length ∧ MethodName method ∧ ∀ v ∈ density, 0 ≤ v
    · obtain ⟨S, hS⟩ := k1 ⟨samePoints_self x, h'⟩
      have hn : ¬ StrategyName name := fun hn => h ⟨h'.1, h'.2.2, h'.2.1, hn⟩
      simp only [hS, p2 hn]
    · rw [k2 (fun hk => h' hk.2)]

/-- **C109** (Kullback-Leibler).  `GreedyKLFPI` on a radial grid and a density with one value per point: a
negative value raises ValueError, a quotient of the integral of the density and the given integral that is zero
or nan RuntimeError (before the strategy is looked at), an unknown strategy ValueError; otherwise the object
fits one normalised s-type function and its strategy is the one named. -/
theorem C109_kl (x density : List ℝ) (hl : density.length = x.length) (name : String) (mask : XR) (T : Option XR)
    (sph : Bool) :
    ∃ v, integrateOn (.radial ⟨fins x⟩) sph (fins density) = .ok v ∧
    ((∃ a ∈ density, a < 0) →
      klInit (fins x) (fins density) name mask T sph = .error .valueError) ∧
    ((∀ a ∈ density, 0 ≤ a) → (v / T.getD v = XR.fin 0 ∨ v / T.getD v = XR.nan) →
      klInit (fins x) (fins density) name mask T sph = .error .runtimeError) ∧
    ((∀ a ∈ density, 0 ≤ a) → ¬ (v / T.getD v = XR.fin 0 ∨ v / T.getD v = XR.nan) →
      (¬ StrategyName name → klInit (fins x) (fins density) name mask T sph = .error .valueError) ∧
      (StrategyName name → ∃ F c, klInit (fins x) (fins density) name mask T sph = .ok (F, c) ∧
        Strategy name c.inc c.next ∧ F.density = fins density ∧ F.spherical = sph ∧
        F.grid = .radial ⟨fins x⟩ ∧ F.maskValue = mask ∧ F.lm = v / T.getD v ∧ F.integralDens = T.getD v ∧
        ∃ m, F.model = .atom m ∧ m.normalized = true ∧ IsAtom m (x.map fun x => |x|) 1 0)) := by
  obtain ⟨m, hm, hm1, hm2, hm3⟩ := greedy_model x true
  obtain ⟨p1, p2⟩ := parse_strategy name
  have hneg : (∀ v ∈ density, 0 ≤ v) ↔ ∀ v ∈ fins density, ¬ v < XR.fin 0 := by simp [fins]
  have hint : ∃ v, integrateOn (.radial ⟨fins x⟩) sph (fins density) = .ok v := by
    cases sph
    · exact ⟨_, by simp [integrateOn, Grid.integrate, RadialGrid.integrate, ND.vec, hl]; rfl⟩
    · exact ⟨_, by simp [integrateOn, bcast, Grid.integrate, RadialGrid.integrate, ND.vec, hl]; rfl⟩
  obtain ⟨v, hv⟩ := hint
  refine ⟨v, hv, ?_, ?_, ?_⟩
  · rintro ⟨a, ha, ha0⟩
    unfold klInit
    simp only [hm]
    have : Fit.init (.radial ⟨fins x⟩) (fins density) (.atom m) T sph mask = .error .valueError := by
      unfold Fit.init
      rw [if_pos ⟨XR.fin a, List.mem_map_of_mem ha, by simpa using ha0⟩]
      rfl
    simp only [FPI.init, this]
  all_goals
    intro hp hvT
    obtain ⟨v', hv', h1, h2⟩ := C34_lagrange (.radial ⟨fins x⟩) (fins density) (.atom m) T sph mask (hneg.1 hp)
      (fun _ => ⟨_, rfl⟩) (by simpa [Grid.len] using hl) trivial
    rw [hv] at hv'
    injection hv' with hv'
    subst hv'
    unfold klInit
    simp only [hm]
  · rw [h1.2 hvT]
  · obtain ⟨F, hF, g1, g2, g3, g4, g5, g6, g7⟩ := h2 hvT
    simp only [hF]
    constructor
    · intro hn
      simp only [p2 hn]
    · intro hn
      obtain ⟨c, hc, hc'⟩ := p1 hn
      exact ⟨F, c, by simp only [hc], hc', g4, g6, g3, g7, g1, g2, m, g5, hm2, hm1⟩

/-- Example: objects for the strategies, and a misspelt one. -/
example : (∃ S c, lsInit (fins [0, 1, 2]) (fins [3, 2, 1]) "pick-two" "Slsqp" true none true = .ok (S, c) ∧
      Strategy "pick-two" c.inc c.next) ∧
    lsInit (fins [0, 1, 2]) (fins [3, 2, 1]) "pick-three" "Slsqp" true none true = .error .valueError ∧
    lsInit (fins [0, 1, 2]) (fins [3, -2, 1]) "pick-one" "Slsqp" true none true = .error .valueError ∧
    klInit (fins [0, 1, 2]) (fins [0, 0, 0]) "pick-three" (XR.fin 0) none false = .error .runtimeError ∧
    (∃ F c, klInit (fins [0, 1, 2]) (fins [2, 2, 2]) "pick-two-lose-one" (XR.fin 0) (some (XR.fin 8)) false =
      .ok (F, c) ∧ F.lm = XR.fin (1 / 2) ∧ Strategy "pick-two-lose-one" c.inc c.next) := by
  have hmeth : MethodName "Slsqp" := by
    left
    decide
  refine ⟨?_, ?_, ?_, ?_, ?_⟩
  · obtain ⟨S, c, h1, h2, -⟩ := (C109_least_squares [0, 1, 2] [3, 2, 1] "pick-two" "Slsqp" true none true).1
      ⟨rfl, by simp, hmeth, .inr (.inl rfl)⟩
    exact ⟨S, c, h1, h2⟩
  · exact (C109_least_squares [0, 1, 2] [3, 2, 1] "pick-three" "Slsqp" true none true).2
      (by rintro ⟨-, -, -, h⟩; simp [StrategyName] at h)
  · refine (C109_least_squares [0, 1, 2] [3, -2, 1] "pick-one" "Slsqp" true none true).2 ?_
    rintro ⟨-, h, -⟩
    have := h (-2) (by simp)
    norm_num at this
  · obtain ⟨v, hv, -, h, -⟩ := C109_kl [0, 1, 2] [0, 0, 0] rfl "pick-three" (XR.fin 0) none false
    apply h (by simp)
    have : v = XR.fin 0 := by
      simp [integrateOn, Grid.integrate, RadialGrid.integrate, ND.vec, trapz, XR.div_fin] at hv
      exact hv.symm
    right
    simp [this, XR.div_fin, XR.sgnInf]
  · obtain ⟨v, hv, -, -, h⟩ := C109_kl [0, 1, 2] [2, 2, 2] rfl "pick-two-lose-one" (XR.fin 0) (some (XR.fin 8)) false
    have : v = XR.fin 4 := by
      simp [integrateOn, Grid.integrate, RadialGrid.integrate, ND.vec, trapz, XR.div_fin] at hv
      rw [← hv]
      norm_num
    subst this
    have hd : XR.fin 4 / (some (XR.fin 8)).getD (XR.fin 4) = XR.fin (1 / 2) := by
      simp only [Option.getD_some, XR.div_fin_of_ne 4 (show (8 : ℝ) ≠ 0 by norm_num)]
      norm_num
    obtain ⟨F, c, h1, h2, -, -, -, -, h3, -⟩ := (h (by simp) (by rw [hd]; simp)).2 (.inr (.inr rfl))
    exact ⟨F, c, h1, h3.trans hd, h2⟩

end
end BFit
