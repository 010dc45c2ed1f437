import Verif.Lemmas.Gauss
import Verif.Spec.Py
import Mathlib.Data.List.GetD

/-! Properties C10, C11, C13, C17 (atomic), C18, C19: `AtomicGaussianDensity`. -/

namespace BFit

open Real

noncomputable section

/-- An atomic model object whose distances are the finite numbers `rs` and which currently has `ns`
s-type and `np` p-type functions. -/
structure IsAtom (m : Atomic) (rs : List ℝ) (ns np : ℕ) : Prop where
  radii : m.radii = fins rs
  hs : m.ns = ns
  hp : m.np = np

theorem evaluate_fins {m : Atomic} {rs : List ℝ} {ns np : ℕ} (hm : IsAtom m rs ns np)
    (c e : List ℝ) (hc : c.length = ns + np) (hel : e.length = ns + np)
    (he : m.normalized = true → ∀ a ∈ e, 0 ≤ a) (deriv : Bool) :
    m.evaluate (ND.vec (fins c)) (ND.vec (fins e)) deriv =
      .ok (fins (rs.map (atomDensity ns np m.normalized c e)),
        if deriv then some (rs.map fun r =>
          fins (basisRow ns m.normalized e r ++ dexpRow ns m.normalized c e r)) else none) := by
  unfold Atomic.evaluate
  rw [if_neg (by simp [ND.ndim, ND.vec]), if_neg (by simp [ND.size, ND.vec, hc, hel]),
    if_neg (by simp [ND.size, ND.vec, hc, Atomic.nbasis, hm.hs, hm.hp])]
  simp only [ND.vec, hm.radii, fins, List.map_map]
  have key : ∀ r ∈ rs, m.evalRow (XR.fin r) (fins c) (fins e) =
      (XR.fin (atomDensity ns np m.normalized c e r),
        fins (basisRow ns m.normalized e r ++ dexpRow ns m.normalized c e r)) := by
    intro r _
    rw [evalRow_fins m ns np hm.hs hm.hp r c e hc hel he, wsum_basisRow _ _ _ _ _ _ hc hel]
  congr 2
  · apply List.map_congr_left
    intro r hr
    simp only [Function.comp]
    exact congrArg Prod.fst (key r hr)
  · split
    · congr 1
      apply List.map_congr_left
      intro r hr
      simp only [Function.comp]
      exact congrArg Prod.snd (key r hr)
    · rfl

/-- **C10**.  At every point `evaluate` returns `Σ_i c_i exp(-a_i r²) + Σ_j d_j r² exp(-b_j r²)`
(with the normalisation factors when `normalize=True`), s-type parameters first. -/
theorem C10_formula {m : Atomic} {rs : List ℝ} {ns np : ℕ} (hm : IsAtom m rs ns np)
    (cs es cp ep : List ℝ) (h1 : cs.length = ns) (h2 : es.length = ns) (h3 : cp.length = np)
    (h4 : ep.length = np) (he : m.normalized = true → ∀ a ∈ es ++ ep, 0 ≤ a) (deriv : Bool) :
    ∃ d, m.evaluate (ND.vec (fins (cs ++ cp))) (ND.vec (fins (es ++ ep))) deriv =
      .ok (fins (rs.map fun r =>
        ∑ i ∈ Finset.range ns, cs.getD i 0 * sBasis m.normalized (es.getD i 0) r +
        ∑ j ∈ Finset.range np, cp.getD j 0 * pBasis m.normalized (ep.getD j 0) r), d) := by
  have := evaluate_fins hm (cs ++ cp) (es ++ ep) (by simp [h1, h3]) (by simp [h2, h4]) he deriv
  refine ⟨_, (this.trans ?_ : _ = Except.ok (_, if deriv then some (rs.map fun r =>
    fins (basisRow ns m.normalized (es ++ ep) r ++
      dexpRow ns m.normalized (cs ++ cp) (es ++ ep) r)) else none))⟩
  congr 3
  apply List.map_congr_left
  intro r _
  unfold atomDensity
  rw [Finset.sum_range_add]
  congr 1
  · apply Finset.sum_congr rfl
    intro i hi
    have hi' := Finset.mem_range.mp hi
    rw [List.getD_append _ _ _ _ (by omega), List.getD_append _ _ _ _ (by omega), basisFn,
      if_pos hi']
  · apply Finset.sum_congr rfl
    intro j hj
    rw [List.getD_append_right _ _ _ _ (by omega), List.getD_append_right _ _ _ _ (by omega), basisFn,
      if_neg (by omega), h1, h2, Nat.add_sub_cancel_left]

/-- A concrete atom with one s- and one p-type function. -/
def demoAtom (norm : Bool) : Atomic :=
  { points := .one (fins [0, 1]), coord := fins [0], radii := fins [0, 1], ns := 1, np := 1,
    normalized := norm }

example (norm : Bool) : IsAtom (demoAtom norm) [0, 1] 1 1 := ⟨rfl, rfl, rfl⟩

/-- The value really is the closed form: at `r = 1` with coefficients 2, 3 and exponents 1, 0. -/
example : ∃ d, (demoAtom false).evaluate (ND.vec (fins [2, 3])) (ND.vec (fins [1, 0])) false =
    .ok (fins [2, 2 * exp (-1) + 3], d) := by
  obtain ⟨d, h⟩ := C10_formula (m := demoAtom false) (rs := [0, 1]) (ns := 1) (np := 1)
    ⟨rfl, rfl, rfl⟩ [2] [1] [3] [0] rfl rfl rfl rfl (by simp [demoAtom]) false
  refine ⟨d, h.trans ?_⟩
  simp [demoAtom, sBasis, pBasis]

theorem getD_set (l : List ℝ) (k j : ℕ) (t : ℝ) (hk : k < l.length) :
    (l.set k t).getD j 0 = if j = k then t else l.getD j 0 := by
  simp only [List.getD_eq_getElem?_getD, List.getElem?_set]
  by_cases h : k = j
  · subst h; simp [hk]
  · simp [h, Ne.symm h]

/-- Partial derivative in one coefficient. -/
theorem hasDerivAt_coeff (ns np : ℕ) (norm : Bool) (c e : List ℝ) (r : ℝ) (k : ℕ)
    (hk : k < ns + np) (hc : c.length = ns + np) (t : ℝ) :
    HasDerivAt (fun t => atomDensity ns np norm (c.set k t) e r)
      (basisFn ns norm k (e.getD k 0) r) t := by
  have h : HasDerivAt (fun t => ∑ j ∈ Finset.range (ns + np),
      (if j = k then t else c.getD j 0) * basisFn ns norm j (e.getD j 0) r)
      (∑ j ∈ Finset.range (ns + np), (if j = k then 1 else 0) * basisFn ns norm j (e.getD j 0) r) t := by
    apply HasDerivAt.fun_sum
    intro j _
    by_cases hj : j = k
    · simp only [hj, if_true]; exact (hasDerivAt_id t).mul_const _
    · simp only [hj, if_false, zero_mul]; exact hasDerivAt_const _ _
  have h2 : (∑ j ∈ Finset.range (ns + np), (if j = k then 1 else 0) *
      basisFn ns norm j (e.getD j 0) r) = basisFn ns norm k (e.getD k 0) r := by
    simp [hk]
  rw [h2] at h
  refine h.congr_of_eventuallyEq (Filter.Eventually.of_forall ?_)
  intro t
  unfold atomDensity
  apply Finset.sum_congr rfl
  intro j _
  rw [getD_set c k j t (by omega)]

/-- Partial derivative in one exponent. -/
theorem hasDerivAt_expon (ns np : ℕ) (norm : Bool) (c e : List ℝ) (r : ℝ) (k : ℕ)
    (hk : k < ns + np) (he : e.length = ns + np) (hpos : norm = true → 0 < e.getD k 0) :
    HasDerivAt (fun t => atomDensity ns np norm c (e.set k t) r)
      (c.getD k 0 * if k < ns then dsBasis norm (e.getD k 0) r else dpBasis norm (e.getD k 0) r)
      (e.getD k 0) := by
  set D := if k < ns then dsBasis norm (e.getD k 0) r else dpBasis norm (e.getD k 0) r with hD
  have hb : HasDerivAt (fun t => basisFn ns norm k t r) D (e.getD k 0) := by
    unfold basisFn
    by_cases h : k < ns
    · simp only [h, if_true] at hD ⊢; rw [hD]; exact hasDerivAt_sBasis norm _ r hpos
    · simp only [h, if_false] at hD ⊢; rw [hD]; exact hasDerivAt_pBasis norm _ r hpos
  have h : HasDerivAt (fun t => ∑ j ∈ Finset.range (ns + np),
      c.getD j 0 * basisFn ns norm j (if j = k then t else e.getD j 0) r)
      (∑ j ∈ Finset.range (ns + np), (if j = k then c.getD j 0 * D else 0)) (e.getD k 0) := by
    apply HasDerivAt.fun_sum
    intro j _
    by_cases hj : j = k
    · subst hj; simp only [if_true]; exact hb.const_mul _
    · simp only [hj, if_false]; exact hasDerivAt_const _ _
  have h2 : (∑ j ∈ Finset.range (ns + np), (if j = k then c.getD j 0 * D else 0)) =
      c.getD k 0 * D := by simp [hk]
  rw [h2] at h
  refine h.congr_of_eventuallyEq (Filter.Eventually.of_forall ?_)
  intro t
  unfold atomDensity
  apply Finset.sum_congr rfl
  intro j _
  rw [getD_set e k j t (by omega)]

theorem getElem?_fins_append_left (a b : List ℝ) (k : ℕ) (hk : k < a.length) :
    (fins (a ++ b))[k]? = some (XR.fin (a.getD k 0)) := by
  simp [fins, List.getElem?_append, hk]

theorem getElem?_fins_append_right (a b : List ℝ) (k : ℕ) (hk : k < b.length) :
    (fins (a ++ b))[a.length + k]? = some (XR.fin (b.getD k 0)) := by
  simp [fins, hk]

/-- **C11**.  With `deriv=True` the second array has one row per point and `2*nbasis` columns;
column `k < nbasis` holds the partial derivative of the density w.r.t. coefficient `k`, column
`nbasis + k` the one w.r.t. exponent `k`. -/
theorem C11_derivatives {m : Atomic} {rs : List ℝ} {ns np : ℕ} (hm : IsAtom m rs ns np)
    (c e : List ℝ) (hc : c.length = ns + np) (hel : e.length = ns + np)
    (he : m.normalized = true → ∀ a ∈ e, 0 < a) :
    ∃ (g : List XR) (dg : List (List XR)),
      m.evaluate (ND.vec (fins c)) (ND.vec (fins e)) true = .ok (g, some dg) ∧
      dg.length = rs.length ∧
      ∀ (i : ℕ) (r : ℝ), rs[i]? = some r → ∃ row : List XR, dg[i]? = some row ∧ row.length = 2 * (ns + np) ∧
        ∀ k, k < ns + np →
          (∃ d, row[k]? = some (XR.fin d) ∧
            HasDerivAt (fun t => atomDensity ns np m.normalized (c.set k t) e r) d (c.getD k 0)) ∧
          (∃ d, row[ns + np + k]? = some (XR.fin d) ∧
            HasDerivAt (fun t => atomDensity ns np m.normalized c (e.set k t) r) d (e.getD k 0)) := by
  refine ⟨_, _, evaluate_fins hm c e hc hel (fun h a ha => (he h a ha).le) true, by simp, ?_⟩
  intro i r hi
  refine ⟨_, by rw [List.getElem?_map, hi]; rfl, ?_, ?_⟩
  · rw [fins_length, List.length_append, basisRow_length, dexpRow_length _ _ _ _ _ (by omega)]; omega
  · intro k hk
    constructor
    · refine ⟨_, getElem?_fins_append_left _ _ k (by rw [basisRow_length]; omega), ?_⟩
      rw [basisRow_getD _ _ _ _ _ (by omega)]
      exact hasDerivAt_coeff ns np _ c e r k hk hc _
    · have hl := basisRow_length ns m.normalized e r
      refine ⟨_, by
        rw [← hel, ← hl]
        exact getElem?_fins_append_right _ _ k (by
          rw [dexpRow_length _ _ _ _ _ (by omega)]; omega), ?_⟩
      rw [dexpRow_getD _ _ _ _ _ _ (by omega) (by omega)]
      refine hasDerivAt_expon ns np _ c e r k hk hel ?_
      intro hn
      rw [List.getD_eq_getElem _ _ (by omega)]
      exact he hn _ (List.getElem_mem _)

/-- The hypotheses of C11 are met by the demo atom with positive exponents. -/
example : ∀ a ∈ ([1, 2] : List ℝ), 0 < a := by simp

/-! ### C13 -/

theorem sBasis_nonneg (norm : Bool) (a r : ℝ) (h : norm = true → 0 ≤ a) : 0 ≤ sBasis norm a r := by
  unfold sBasis
  cases norm with
  | false => simp [exp_nonneg]
  | true =>
    have := h rfl
    have : 0 ≤ a / π := div_nonneg this pi_pos.le
    simp only [if_true]
    positivity

theorem pBasis_nonneg (norm : Bool) (a r : ℝ) (h : norm = true → 0 ≤ a) : 0 ≤ pBasis norm a r := by
  unfold pBasis
  cases norm with
  | false => simp only [Bool.false_eq_true, if_false, one_mul]; positivity
  | true =>
    have := h rfl
    simp only [if_true]
    positivity

theorem basisFn_nonneg (ns : ℕ) (norm : Bool) (k : ℕ) (a r : ℝ) (h : norm = true → 0 ≤ a) :
    0 ≤ basisFn ns norm k a r := by
  unfold basisFn
  split
  · exact sBasis_nonneg norm a r h
  · exact pBasis_nonneg norm a r h

theorem getD_nonneg {l : List ℝ} (h : ∀ x ∈ l, 0 ≤ x) (k : ℕ) : 0 ≤ l.getD k 0 := by
  by_cases hk : k < l.length
  · rw [List.getD_eq_getElem _ _ hk]; exact h _ (List.getElem_mem _)
  · rw [List.getD_eq_default _ _ (by omega)]

theorem atomDensity_nonneg (ns np : ℕ) (norm : Bool) (c e : List ℝ) (r : ℝ)
    (he : norm = true → ∀ a ∈ e, 0 ≤ a) (hc : ∀ x ∈ c, 0 ≤ x) :
    0 ≤ atomDensity ns np norm c e r :=
  Finset.sum_nonneg fun k _ => mul_nonneg (getD_nonneg hc k)
    (basisFn_nonneg _ _ _ _ _ fun hn => getD_nonneg (he hn) k)

/-- **C13**.  For fixed exponents the returned values are linear in the coefficients, and
non-negative coefficients give non-negative values. -/
theorem C13_linear_nonneg {m : Atomic} {rs : List ℝ} {ns np : ℕ} (hm : IsAtom m rs ns np)
    (e : List ℝ) (hel : e.length = ns + np) (he : m.normalized = true → ∀ a ∈ e, 0 ≤ a) :
    ∃ F : List ℝ → ℝ → ℝ,
      (∀ c : List ℝ, c.length = ns + np → ∃ d,
        m.evaluate (ND.vec (fins c)) (ND.vec (fins e)) false = .ok (fins (rs.map (F c)), d)) ∧
      (∀ (c c' : List ℝ) (s t r : ℝ), c.length = ns + np → c'.length = ns + np →
        F (List.zipWith (fun x y => s * x + t * y) c c') r = s * F c r + t * F c' r) ∧
      (∀ (c : List ℝ) (r : ℝ), (∀ x ∈ c, 0 ≤ x) → 0 ≤ F c r) := by
  refine ⟨fun c r => atomDensity ns np m.normalized c e r, ?_, ?_, ?_⟩
  · intro c hc
    exact ⟨_, evaluate_fins hm c e hc hel he false⟩
  · intro c c' s t r hc hc'
    unfold atomDensity
    rw [Finset.mul_sum, Finset.mul_sum, ← Finset.sum_add_distrib]
    apply Finset.sum_congr rfl
    intro k hk
    have hk' := Finset.mem_range.mp hk
    have h1 : k < c.length := by omega
    have h2 : k < c'.length := by omega
    simp only [List.getD_eq_getElem?_getD, List.getElem?_zipWith, List.getElem?_eq_getElem h1,
      List.getElem?_eq_getElem h2, Option.getD_some]
    ring
  · intro c r hcn
    exact atomDensity_nonneg _ _ _ _ _ _ he hcn

/-- **C13** is about a genuinely signed model: a negative coefficient can make the density negative,
so the sign hypothesis is needed. -/
example : atomDensity 1 0 false [-1] [0] 0 < 0 := by
  simp [atomDensity, basisFn, sBasis]

/-! ### C17 -/

/-- **C17** (atomic).  `prefactor` has one entry per basis function: 1.5 for s-type and 2.5 for
p-type ones, in parameter order. -/
theorem C17_prefactor {m : Atomic} {rs : List ℝ} {ns np : ℕ} (hm : IsAtom m rs ns np) :
    m.prefactor.length = ns + np ∧
    ∀ k, k < ns + np → m.prefactor[k]? = some (XR.fin (if k < ns then 1.5 else 2.5)) := by
  unfold Atomic.prefactor
  rw [hm.hs, hm.hp]
  constructor
  · simp
  · intro k hk
    rw [List.getElem?_append]
    by_cases h : k < ns
    · simp [h]
    · rw [if_neg (by simpa using h), if_neg h, List.getElem?_replicate, if_pos (by simp; omega)]

/-! ### C18 -/

/-- Euclidean distance of two coordinate tuples. -/
def distL (x y : List ℝ) : ℝ := Real.sqrt (List.zipWith (fun u v => (u - v) ^ 2) x y).sum

theorem sum_sq_nonneg (x y : List ℝ) : 0 ≤ (List.zipWith (fun u v => (u - v) ^ 2) x y).sum := by
  apply List.sum_nonneg
  intro z hz
  obtain ⟨i, hi, rfl⟩ := List.mem_iff_getElem.mp hz
  rw [List.getElem_zipWith]
  positivity

theorem normDiff_fins (x y : List ℝ) : normDiff (fins x) (fins y) = XR.fin (distL x y) := by
  unfold normDiff
  rw [zipWith_fins (g := fun u v => (u - v) ^ 2) (by intro a b; simp; ring), sum_fins,
    XR.sqrt_fin_of_nonneg (sum_sq_nonneg x y)]
  rfl

theorem sum_sq_eq_zero (x y : List ℝ) (h : x.length = y.length) :
    (List.zipWith (fun u v => (u - v) ^ 2) x y).sum = 0 ↔ x = y := by
  induction x generalizing y with
  | nil => cases y with
    | nil => simp
    | cons _ _ => simp at h
  | cons a x ih => cases y with
    | nil => simp at h
    | cons b y =>
      simp only [List.zipWith_cons_cons, List.sum_cons, List.cons.injEq]
      have h1 := sum_sq_nonneg x y
      rw [← ih y (by simpa using h)]
      constructor
      · intro h0
        have : (a - b) ^ 2 = 0 := by nlinarith [sq_nonneg (a - b)]
        refine ⟨by nlinarith [pow_eq_zero_iff (two_ne_zero) |>.mp this], by nlinarith⟩
      · rintro ⟨rfl, h0⟩; rw [h0]; ring

/-- Successful construction, from its parts. -/
theorem init_ok (pts : Pts) (center : PyObj) (numS : PyObj) (s p : ℕ) (norm : Bool) (numP : PyObj)
    (coord radii : List XR) (hsp : s + p ≠ 0) (hs : numS.asInt? = some (s : ℤ))
    (hp : numP.asInt? = some (p : ℤ)) (h1 : atomCoord pts center = .ok coord)
    (h2 : atomRadii pts coord = .ok radii) :
    Atomic.init (.arr pts) center numS numP norm = .ok ⟨pts, coord, radii, s, p, norm⟩ := by
  have h0 : ¬ ((s : ℤ) + p = 0) := by omega
  have h3 : ¬ ((s : ℤ) < 0) := by omega
  have h4 : ¬ ((p : ℤ) < 0) := by omega
  simp only [Atomic.init, hs, hp, h0, h3, h4, if_false, h1, h2]

/-- Inversion of a successful construction. -/
theorem init_inv {points : PtsArg} {center numS numP : PyObj} {norm : Bool} {m : Atomic}
    (h : Atomic.init points center numS numP norm = .ok m) :
    ∃ pts coord radii s p, points = .arr pts ∧ numS.asInt? = some s ∧ numP.asInt? = some p ∧
      0 ≤ s ∧ 0 ≤ p ∧ s + p ≠ 0 ∧ atomCoord pts center = .ok coord ∧
      atomRadii pts coord = .ok radii ∧ m = ⟨pts, coord, radii, s, p, norm⟩ := by
  unfold Atomic.init raise at h
  cases points with
  | notArray => simp at h
  | arr pts =>
    rcases hs : numS.asInt? with _ | s
    · simp [hs] at h
    by_cases hs0 : s < 0
    · simp [hs, hs0] at h
    rcases hp : numP.asInt? with _ | p
    · simp [hs, hs0, hp] at h
    by_cases hp0 : p < 0
    · simp [hs, hs0, hp, hp0] at h
    by_cases h0 : s + p = 0
    · simp [hs, hs0, hp, hp0, h0] at h
    rcases hc : atomCoord pts center with err | coord
    · simp [hs, hs0, hp, hp0, h0, hc] at h
    rcases hr : atomRadii pts coord with err | radii
    · simp [hs, hs0, hp, hp0, h0, hc, hr] at h
    simp only [hs, hs0, hp, hp0, h0, hc, hr, if_false] at h
    injection h with h
    exact ⟨pts, coord, radii, s, p, rfl, rfl, rfl, by omega, by omega, h0, hc, hr, h.symm⟩

/-- **C18** (multi-dimensional points).  The stored radii are the Euclidean distances of the points
to the centre (the origin when no centre is given). -/
theorem C18_radii (cols : ℕ) (xs : List (List ℝ)) (ctr : List ℝ) (hctr : ctr.length = cols)
    (s p : ℕ) (hsp : s + p ≠ 0) (norm : Bool) :
    (∃ m, Atomic.init (.arr (.two cols (xs.map fins))) (.arr (ND.vec (fins ctr))) (.int s) (.int p)
        norm = .ok m ∧ IsAtom m (xs.map fun x => distL x ctr) s p ∧ m.normalized = norm) ∧
    (∃ m, Atomic.init (.arr (.two cols (xs.map fins))) .none (.int s) (.int p) norm = .ok m ∧
      IsAtom m (xs.map fun x => distL x (List.replicate cols 0)) s p ∧ m.normalized = norm) := by
  constructor
  · refine ⟨_, init_ok _ _ _ s p norm _ (fins ctr) (fins (xs.map fun x => distL x ctr)) hsp rfl rfl
      (by simp [atomCoord, ND.ndim, ND.vec, ND.size, hctr]) ?_, ⟨rfl, rfl, rfl⟩, rfl⟩
    simp [atomRadii, Function.comp_def, normDiff_fins]
  · refine ⟨_, init_ok _ _ _ s p norm _ (fins (List.replicate cols 0))
      (fins (xs.map fun x => distL x (List.replicate cols 0))) hsp rfl rfl
      (by simp [atomCoord, fins]) ?_, ⟨rfl, rfl, rfl⟩, rfl⟩
    simp only [atomRadii, List.map_map, Function.comp_def, normDiff_fins, fins]

/-- **C18** (radial points).  For one-dimensional points the radii are `|x - centre|`. -/
theorem C18_radii_1d (xs : List ℝ) (ctr : ℝ) (s p : ℕ) (hsp : s + p ≠ 0) (norm : Bool) :
    (∃ m, Atomic.init (.arr (.one (fins xs))) (.arr (ND.vec [XR.fin ctr])) (.int s) (.int p)
        norm = .ok m ∧ IsAtom m (xs.map fun x => |x - ctr|) s p ∧ m.normalized = norm) ∧
    (∃ m, Atomic.init (.arr (.one (fins xs))) .none (.int s) (.int p) norm = .ok m ∧
      IsAtom m (xs.map fun x => |x|) s p ∧ m.normalized = norm) := by
  constructor
  · refine ⟨_, init_ok _ _ _ s p norm _ [XR.fin ctr] (fins (xs.map fun x => |x - ctr|)) hsp rfl rfl
      (by simp [atomCoord, ND.ndim, ND.vec]) ?_, ⟨rfl, rfl, rfl⟩, rfl⟩
    simp [atomRadii, subBroadcast, Function.comp_def]
  · refine ⟨_, init_ok _ _ _ s p norm _ [XR.fin 0] (fins (xs.map fun x => |x|)) hsp rfl rfl
      (by simp [atomCoord]) ?_, ⟨rfl, rfl, rfl⟩, rfl⟩
    simp [atomRadii, subBroadcast, Function.comp_def]

/-- Distances are non-negative, zero exactly at the centre, and unchanged when point and centre are
translated together. -/
theorem distL_laws (x y t : List ℝ) (h : x.length = y.length) (ht : t.length = x.length) :
    0 ≤ distL x y ∧ (distL x y = 0 ↔ x = y) ∧
    distL (List.zipWith (· + ·) x t) (List.zipWith (· + ·) y t) = distL x y := by
  refine ⟨Real.sqrt_nonneg _, ?_, ?_⟩
  · unfold distL
    rw [Real.sqrt_eq_zero (sum_sq_nonneg x y), sum_sq_eq_zero x y h]
  · unfold distL
    congr 2
    induction x generalizing y t with
    | nil => cases y with
      | nil => simp
      | cons _ _ => simp at h
    | cons a x ih => cases y with
      | nil => simp at h
      | cons b y => cases t with
        | nil => simp at ht
        | cons c t =>
          simp only [List.zipWith_cons_cons, ih y t (by simpa using h) (by simpa using ht)]
          congr 1
          ring

/-- **C18** (dependence).  The density depends on points and centre only through the radii. -/
theorem C18_only_radii (m m' : Atomic) (hr : m.radii = m'.radii) (hs : m.ns = m'.ns)
    (hp : m.np = m'.np) (hn : m.normalized = m'.normalized) (c e : ND XR) (d : Bool) :
    m.evaluate c e d = m'.evaluate c e d := by
  have : ∀ r, m.evalRow r c.data e.data = m'.evalRow r c.data e.data := by
    intro r; simp only [Atomic.evalRow, hs, hp, hn]
  simp only [Atomic.evaluate, Atomic.nbasis, hr, hs, hp, this]; congr

/-- **C18** (geometry).  The radii of a model with a centre are never negative, zero exactly for points at
the centre, and the model built from translated points and the translated centre has the same radii. -/
theorem C18_distance_laws (cols : ℕ) (xs : List (List ℝ)) (hxs : ∀ x ∈ xs, x.length = cols)
    (ctr : List ℝ) (hctr : ctr.length = cols) (t : List ℝ) (ht : t.length = cols) (s p : ℕ)
    (hsp : s + p ≠ 0) (norm : Bool) :
    ∃ (m m' : Atomic) (rs : List ℝ),
      Atomic.init (.arr (.two cols (xs.map fins))) (.arr (ND.vec (fins ctr))) (.int s) (.int p)
        norm = .ok m ∧
      m.radii = fins rs ∧ rs.length = xs.length ∧ (∀ r ∈ rs, 0 ≤ r) ∧
      (∀ (i : ℕ) x r, xs[i]? = some x → rs[i]? = some r → (r = 0 ↔ x = ctr)) ∧
      Atomic.init (.arr (.two cols (xs.map fun x => fins (List.zipWith (· + ·) x t))))
        (.arr (ND.vec (fins (List.zipWith (· + ·) ctr t)))) (.int s) (.int p) norm = .ok m' ∧
      m'.radii = m.radii := by
  obtain ⟨⟨m, h1, ⟨h2, _, _⟩, _⟩, _⟩ := C18_radii cols xs ctr hctr s p hsp norm
  obtain ⟨⟨m', h3, ⟨h4, _, _⟩, _⟩, _⟩ := C18_radii cols (xs.map fun x => List.zipWith (· + ·) x t)
    (List.zipWith (· + ·) ctr t) (by simp [hctr, ht]) s p hsp norm
  refine ⟨m, m', _, h1, h2, by simp, ?_, ?_, ?_, ?_⟩
  · intro r hr
    obtain ⟨x, _, rfl⟩ := List.mem_map.mp hr
    exact Real.sqrt_nonneg _
  · intro i x r hx hr
    rw [List.getElem?_map, hx, Option.map_some, Option.some_inj] at hr
    subst hr
    exact (distL_laws x ctr t (by rw [hxs x (List.mem_of_getElem? hx), hctr])
      (by rw [hxs x (List.mem_of_getElem? hx), ht])).2.1
  · rw [← h3, List.map_map]
    rfl
  · rw [h4, h2, List.map_map]
    congr 1
    refine List.map_congr_left fun x hx => ?_
    exact (distL_laws x ctr t (by rw [hxs x hx, hctr]) (by rw [hxs x hx, ht])).2.2

example := C18_distance_laws 2 [[1, 2], [4, 6]] (by simp) [4, 6] rfl [10, -3] rfl 1 2 (by norm_num) true

example : distL [1, 2] [4, 6] = 5 := by
  unfold distL
  rw [show (List.zipWith (fun u v => (u - v) ^ 2) [(1 : ℝ), 2] [4, 6]).sum = 5 ^ 2 by norm_num]
  exact Real.sqrt_sq (by norm_num)

/-! ### C19 -/

/-- **C19** (construction).  Non-array points, non-integer or negative counts raise TypeError; no
basis function at all raises ValueError. -/
theorem C19_construction (points : PtsArg) (center numS numP : PyObj) (norm : Bool) :
    (points = .notArray ∨ (∀ s, numS.IsInt s → s < 0) ∨ (∀ p, numP.IsInt p → p < 0) →
      Atomic.init points center numS numP norm = .error .typeError) ∧
    (points ≠ .notArray → numS.IsInt 0 → numP.IsInt 0 →
      Atomic.init points center numS numP norm = .error .valueError) ∧
    (∀ m, Atomic.init points center numS numP norm = .ok m → 0 ≤ m.ns ∧ 0 ≤ m.np ∧ 1 ≤ m.nbasis) := by
  simp only [isInt_iff]
  refine ⟨?_, ?_, ?_⟩
  · intro h
    unfold Atomic.init raise
    cases points with
    | notArray => rfl
    | arr pts =>
      rcases hs : numS.asInt? with _ | s
      · rfl
      by_cases hs0 : s < 0
      · simp [hs0]
      rcases hp : numP.asInt? with _ | p
      · simp [hs0]
      by_cases hp0 : p < 0
      · simp [hs0, hp0]
      rcases h with h | h | h
      · simp at h
      · exact absurd (h s hs) hs0
      · exact absurd (h p hp) hp0
  · intro hpt hs hp
    unfold Atomic.init raise
    cases points with
    | notArray => exact absurd rfl hpt
    | arr pts => simp [hs, hp]
  · intro m hm
    obtain ⟨pts, coord, radii, s, p, _, _, _, hs, hp, h0, _, _, rfl⟩ := init_inv hm
    simp only [Atomic.nbasis]
    omega

/-- **C19** (evaluation).  `evaluate` raises ValueError exactly when the parameters are not two 1-D
arrays of `nbasis` entries, raises nothing else, and otherwise returns one value per radius. -/
theorem C19_evaluate (m : Atomic) (c e : ND XR) (d : Bool) :
    (m.evaluate c e d = .error .valueError ↔
      ¬ (c.ndim = 1 ∧ e.ndim = 1 ∧ (c.size : ℤ) = m.nbasis ∧ (e.size : ℤ) = m.nbasis)) ∧
    (∀ err, m.evaluate c e d = .error err → err = .valueError) ∧
    (∀ g dg, m.evaluate c e d = .ok (g, dg) → g.length = m.radii.length ∧
      (d = true → ∃ rows, dg = some rows ∧ rows.length = m.radii.length) ∧ (d = false → dg = none)) := by
  unfold Atomic.evaluate raise
  refine ⟨?_, ?_, ?_⟩
  · by_cases h1 : c.ndim ≠ 1 ∨ e.ndim ≠ 1
    · rw [if_pos h1]; simp only [true_iff]; omega
    rw [if_neg h1]
    by_cases h2 : c.size ≠ e.size
    · rw [if_pos h2]; simp only [true_iff]; omega
    rw [if_neg h2]
    by_cases h3 : (c.size : ℤ) ≠ m.nbasis
    · rw [if_pos h3]; simp only [true_iff]; omega
    rw [if_neg h3]
    refine ⟨fun h => by simp at h, fun h => absurd ?_ h⟩
    omega
  · intro err h
    split at h
    · injection h with h; exact h.symm
    · split at h
      · injection h with h; exact h.symm
      · split at h
        · injection h with h; exact h.symm
        · simp at h
  · intro g dg h
    split at h
    · simp at h
    · split at h
      · simp at h
      · split at h
        · simp at h
        · injection h with h
          injection h with hg hd
          subst hg hd
          refine ⟨by simp, ?_, ?_⟩
          · rintro rfl; exact ⟨_, rfl, by simp⟩
          · rintro rfl; rfl

/-- **C19** (one value per point, partial).  For points of any dimension and a centre of matching dimension
there is one radius per point.  Missing: centres with several entries for points on a line, for which the claim is
false (`C19_several_values`). -/
theorem C19_one_radius_per_point_partial (pts : Pts) (center numS numP : PyObj) (norm : Bool) (m : Atomic)
    (hc : center = .none ∨ (∃ cols rows, pts = .two cols rows) ∨
      ∃ x, center = .arr (ND.vec [x]))
    (h : Atomic.init (.arr pts) center numS numP norm = .ok m) : m.radii.length = pts.len := by
  obtain ⟨pts', coord, radii, s, p, hpts, _, _, _, _, _, hco, hra, rfl⟩ := init_inv h
  injection hpts with hpts
  subst hpts
  simp only
  cases pts with
  | two cols rows =>
    simp only [atomRadii] at hra
    injection hra with hra
    subst hra
    simp [Pts.len]
  | one l =>
    have h1 : coord.length = 1 := by
      rcases hc with rfl | ⟨_, _, hc⟩ | ⟨x, rfl⟩
      · simp [atomCoord] at hco; subst hco; rfl
      · simp at hc
      · simp [atomCoord, ND.ndim, ND.vec] at hco; subst hco; rfl
    simp only [atomRadii, subBroadcast, h1, if_true] at hra
    injection hra with hra
    subst hra
    simp [Pts.len]

end
end BFit
