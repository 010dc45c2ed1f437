import Verif.Lemmas.Molecular

/-! Properties C14, C15, C16, C17: `MolecularGaussianDensity`. -/

namespace BFit

open Real

noncomputable section

/-- Distance of point `x` to centre number `a`. -/
def centreDist (coords : List (List ℝ)) (a : ℕ) (x : List ℝ) : ℝ := distL x (coords.getD a [])

theorem mapM_centres (cols : ℕ) (xs : List (List ℝ)) (norm : Bool) (coords : List (List ℝ))
    (ats : List (ℕ × ℕ)) (hlen : coords.length = ats.length) (hcols : ∀ q ∈ coords, q.length = cols)
    (hats : ∀ b ∈ ats, b.1 + b.2 ≠ 0) :
    ∃ ms, ((coords.map fins).zip (ats.map fun b => ((b.1 : ℤ), (b.2 : ℤ)))).mapM (fun cb =>
      Atomic.init (.arr (.two cols (xs.map fins))) (.arr (ND.vec cb.1)) (.int cb.2.1) (.int cb.2.2)
        norm) = (.ok ms : Py (List Atomic)) ∧ AreCentres xs norm ms ats (centreDist coords) := by
  induction coords generalizing ats with
  | nil =>
    cases ats with
    | nil => exact ⟨[], rfl, .nil _⟩
    | cons _ _ => simp at hlen
  | cons q coords ih =>
    cases ats with
    | nil => simp at hlen
    | cons b ats =>
      obtain ⟨ms, h1, h2⟩ := ih ats (by simpa using hlen) (fun q hq => hcols q (by simp [hq]))
        (fun b hb => hats b (by simp [hb]))
      obtain ⟨⟨m, hm1, hm2, hm3⟩, _⟩ := C18_radii cols xs q (hcols q (by simp)) b.1 b.2
        (hats b (by simp)) norm
      refine ⟨m :: ms, ?_, .cons ⟨hm2, hm3⟩ h2⟩
      simp only [List.map_cons, List.zip_cons_cons, List.mapM_cons, hm1, h1, bind, Except.bind, pure,
        Except.pure]

/-- A molecular model can be built from every list of centres with at least one basis function
each. -/
theorem mol_init (cols : ℕ) (xs : List (List ℝ)) (norm : Bool) (coords : List (List ℝ))
    (ats : List (ℕ × ℕ)) (hlen : coords.length = ats.length) (hcols : ∀ q ∈ coords, q.length = cols)
    (hats : ∀ b ∈ ats, b.1 + b.2 ≠ 0) :
    ∃ m, Molecular.init (.two cols (xs.map fins)) cols (coords.map fins)
        (ats.map fun b => ((b.1 : ℤ), (b.2 : ℤ))) norm = .ok m ∧
      IsMol m xs norm ats (centreDist coords) := by
  obtain ⟨ms, h1, h2⟩ := mapM_centres cols xs norm coords ats hlen hcols hats
  refine ⟨⟨.two cols (xs.map fins), ats.map fun b => ((b.1 : ℤ), (b.2 : ℤ)), ms⟩, ?_,
    ⟨h2, rfl, by simp [Pts.len]⟩⟩
  unfold Molecular.init
  rw [if_neg (by simp [hlen]), if_neg (by simp [Pts.colsMismatch]), h1]
  rfl

/-- **C14**.  The molecular density at every point is the sum over the centres of the atomic
densities at the distance to that centre, with consecutive blocks of the parameter vectors. -/
theorem C14_sum_of_atoms (cols : ℕ) (xs : List (List ℝ)) (norm : Bool) (coords : List (List ℝ))
    (ats : List (ℕ × ℕ)) (hlen : coords.length = ats.length) (hcols : ∀ q ∈ coords, q.length = cols)
    (hats : ∀ b ∈ ats, b.1 + b.2 ≠ 0) (C E : List ℝ)
    (hC : C.length = molOffset ats ats.length) (hE : E.length = molOffset ats ats.length)
    (hpos : norm = true → ∀ a ∈ E, 0 ≤ a) (deriv : Bool) :
    ∃ m d, Molecular.init (.two cols (xs.map fins)) cols (coords.map fins)
        (ats.map fun b => ((b.1 : ℤ), (b.2 : ℤ))) norm = .ok m ∧
      m.evaluate (ND.vec (fins C)) (ND.vec (fins E)) deriv =
        .ok (fins (xs.map fun x => molDensity norm ats (fun a => distL x (coords.getD a [])) C E), d) := by
  obtain ⟨m, h1, h2⟩ := mol_init cols xs norm coords ats hlen hcols hats
  have hn : molNb ats = molOffset ats ats.length := by simp [molNb, molOffset]
  exact ⟨m, _, h1, mol_evaluate_fins h2 C E (by rw [hC, hn]) (by rw [hE, hn]) hpos deriv⟩

/-- Two centres with one s-type function each: the parameters are used in order. -/
example : ∃ m d, Molecular.init (.two 1 [fins [0]]) 1 [fins [0], fins [3]] [(1, 0), (1, 0)] false =
      .ok m ∧ m.evaluate (ND.vec (fins [5, 7])) (ND.vec (fins [1, 2])) false =
        .ok (fins [5 + 7 * exp (-18)], d) := by
  obtain ⟨m, d, h1, h2⟩ := C14_sum_of_atoms 1 [[0]] false [[0], [3]] [(1, 0), (1, 0)] rfl (by simp)
    (by simp) [5, 7] [1, 2] rfl rfl (by simp) false
  refine ⟨m, d, h1, h2.trans ?_⟩
  have h3 : √(3 ^ 2 : ℝ) = 3 := Real.sqrt_sq (by norm_num)
  simp [molDensity, molOffset, atomDensity, basisFn, sBasis, Finset.sum_range_succ, distL, h3]
  norm_num

/-- **C14** (one centre).  With a single centre the molecular model equals the atomic model. -/
theorem C14_single_centre (pts : Pts) (cols : ℕ) (coord : List XR) (b : ℤ × ℤ) (norm : Bool)
    (m : Molecular) (hm : Molecular.init pts cols [coord] [b] norm = .ok m) (C E : List ℝ)
    (rs : List ℝ) (ns np : ℕ) (hb : b = (↑ns, ↑np)) (hC : C.length = ns + np)
    (hE : E.length = ns + np) (hpos : norm = true → ∀ a ∈ E, 0 ≤ a) (deriv : Bool) :
    ∃ a, Atomic.init (.arr pts) (.arr (ND.vec coord)) (.int b.1) (.int b.2) norm = .ok a ∧
      (IsAtom a rs ns np → rs.length = pts.len →
        m.evaluate (ND.vec (fins C)) (ND.vec (fins E)) deriv =
          a.evaluate (ND.vec (fins C)) (ND.vec (fins E)) deriv) := by
  subst hb
  unfold Molecular.init at hm
  rw [if_neg (by simp)] at hm
  by_cases hcond : pts.colsMismatch cols
  · rw [if_pos hcond] at hm; simp [raise] at hm
  rw [if_neg hcond] at hm
  rcases ha : Atomic.init (.arr pts) (.arr (ND.vec coord)) (.int (ns : ℤ)) (.int (np : ℤ)) norm with
    err | a
  · simp only [List.zip_cons_cons, List.zip_nil_right, List.mapM_cons, ha, bind, Except.bind] at hm
    simp at hm
  · simp only [List.zip_cons_cons, List.zip_nil_right, List.mapM_cons, List.mapM_nil, ha, bind,
      Except.bind, pure, Except.pure] at hm
    injection hm with hm
    subst hm
    refine ⟨a, rfl, ?_⟩
    intro hatom hlen
    obtain ⟨_, _, _, _, _, _, _, _, _, _, _, _, _, hform⟩ := init_inv ha
    have hnorm : a.normalized = norm := by rw [hform]
    have hmol : IsMol (P := ℝ) ⟨pts, [((ns : ℤ), (np : ℤ))], [a]⟩ rs norm [(ns, np)] (fun _ r => r) :=
      ⟨.cons ⟨by simpa using hatom, hnorm⟩ (.nil _), rfl, by simp [hlen]⟩
    rw [mol_evaluate_fins hmol C E (by simp [molNb, hC]) (by simp [molNb, hE]) hpos deriv,
      evaluate_fins hatom C E hC hE (hnorm ▸ hpos) deriv, hnorm]
    have ht : C.take (ns + np) = C := List.take_of_length_le (by omega)
    have ht' : E.take (ns + np) = E := List.take_of_length_le (by omega)
    simp [molDensity_cons, molDensity_nil, molBasis, molDexp, ht, ht']

/-! ### C15 -/

theorem set_getD_self (l : List ℝ) (k : ℕ) (hk : k < l.length) : l.set k (l.getD k 0) = l := by
  rw [List.getD_eq_getElem _ _ hk, List.set_getElem_self]

theorem molDensity_hasDerivAt_coeff (norm : Bool) (ats : List (ℕ × ℕ)) (ρ : ℕ → ℝ) (C E : List ℝ)
    (hC : C.length = molNb ats) (hE : E.length = molNb ats) (k : ℕ) (hk : k < molNb ats) :
    HasDerivAt (fun t => molDensity norm ats ρ (C.set k t) E) ((molBasis norm ats ρ E).getD k 0)
      (C.getD k 0) := by
  induction ats generalizing ρ C E k with
  | nil => simp [molNb] at hk
  | cons b ats ih =>
    rw [molNb_cons] at hC hE hk
    simp only [molDensity_cons, molBasis]
    have hlB : (basisRow b.1 norm (E.take (b.1 + b.2)) (ρ 0)).length = b.1 + b.2 := by
      rw [basisRow_length]; simp [hE]
    by_cases h : k < b.1 + b.2
    · rw [List.getD_append _ _ _ _ (by omega), basisRow_getD _ _ _ _ _ (by simp [hE]; omega)]
      have h1 := hasDerivAt_coeff b.1 b.2 norm (C.take (b.1 + b.2)) (E.take (b.1 + b.2)) (ρ 0) k h
        (by simp [hC]) (C.getD k 0)
      have h2 := h1.add_const (molDensity norm ats (fun a => ρ (a + 1)) (C.drop (b.1 + b.2))
        (E.drop (b.1 + b.2)))
      refine h2.congr_of_eventuallyEq (Filter.Eventually.of_forall ?_)
      intro t
      simp only [List.take_set]
      rw [List.drop_set_of_lt h]
    · have hlen : b.1 + b.2 ≤ k := by omega
      rw [List.getD_append_right _ _ _ _ (by omega), hlB]
      have h1 := ih (fun a => ρ (a + 1)) (C.drop (b.1 + b.2)) (E.drop (b.1 + b.2)) (by simp [hC])
        (by simp [hE]) (k - (b.1 + b.2)) (by omega)
      have hg : (C.drop (b.1 + b.2)).getD (k - (b.1 + b.2)) 0 = C.getD k 0 := by
        simp only [List.getD_eq_getElem?_getD, List.getElem?_drop]
        congr 2; omega
      rw [hg] at h1
      have h2 := h1.const_add (atomDensity b.1 b.2 norm (C.take (b.1 + b.2)) (E.take (b.1 + b.2)) (ρ 0))
      refine h2.congr_of_eventuallyEq (Filter.Eventually.of_forall ?_)
      intro t
      simp only []
      rw [List.take_set_of_le hlen, List.drop_set, if_neg (by omega)]

theorem molDensity_hasDerivAt_expon (norm : Bool) (ats : List (ℕ × ℕ)) (ρ : ℕ → ℝ) (C E : List ℝ)
    (hC : C.length = molNb ats) (hE : E.length = molNb ats) (hpos : norm = true → ∀ a ∈ E, 0 < a)
    (k : ℕ) (hk : k < molNb ats) :
    HasDerivAt (fun t => molDensity norm ats ρ C (E.set k t)) ((molDexp norm ats ρ C E).getD k 0)
      (E.getD k 0) := by
  induction ats generalizing ρ C E k with
  | nil => simp [molNb] at hk
  | cons b ats ih =>
    rw [molNb_cons] at hC hE hk
    simp only [molDensity_cons, molDexp]
    have hlB : (dexpRow b.1 norm (C.take (b.1 + b.2)) (E.take (b.1 + b.2)) (ρ 0)).length =
        b.1 + b.2 := by
      rw [dexpRow_length _ _ _ _ _ (by simp [hC, hE])]; simp [hE]
    by_cases h : k < b.1 + b.2
    · rw [List.getD_append _ _ _ _ (by omega),
        dexpRow_getD _ _ _ _ _ _ (by simp [hE]; omega) (by simp [hC]; omega)]
      have hg : (E.take (b.1 + b.2)).getD k 0 = E.getD k 0 := by
        simp [List.getD_eq_getElem?_getD, h]
      have h1 := hasDerivAt_expon b.1 b.2 norm (C.take (b.1 + b.2)) (E.take (b.1 + b.2)) (ρ 0) k h
        (by simp [hE]) (by
          intro hn
          rw [hg, List.getD_eq_getElem _ _ (by omega)]
          exact hpos hn _ (List.getElem_mem _))
      have h2 := h1.add_const (molDensity norm ats (fun a => ρ (a + 1)) (C.drop (b.1 + b.2))
        (E.drop (b.1 + b.2)))
      rw [← hg]
      refine h2.congr_of_eventuallyEq (Filter.Eventually.of_forall ?_)
      intro t
      simp only [List.take_set]
      rw [List.drop_set_of_lt h]
    · have hlen : b.1 + b.2 ≤ k := by omega
      rw [List.getD_append_right _ _ _ _ (by omega), hlB]
      have h1 := ih (fun a => ρ (a + 1)) (C.drop (b.1 + b.2)) (E.drop (b.1 + b.2)) (by simp [hC])
        (by simp [hE]) (fun hn a ha => hpos hn a (List.mem_of_mem_drop ha)) (k - (b.1 + b.2)) (by omega)
      have hg : (E.drop (b.1 + b.2)).getD (k - (b.1 + b.2)) 0 = E.getD k 0 := by
        simp only [List.getD_eq_getElem?_getD, List.getElem?_drop]
        congr 2; omega
      rw [hg] at h1
      have h2 := h1.const_add (atomDensity b.1 b.2 norm (C.take (b.1 + b.2)) (E.take (b.1 + b.2)) (ρ 0))
      refine h2.congr_of_eventuallyEq (Filter.Eventually.of_forall ?_)
      intro t
      simp only []
      rw [List.take_set_of_le hlen, List.drop_set, if_neg (by omega)]

/-- **C15**.  The derivative array of a molecular model has one row per point and `2*nbasis`
columns; column `k` is the partial derivative of the whole molecular density w.r.t. coefficient `k`
and column `nbasis + k` the one w.r.t. exponent `k`. -/
theorem C15_derivative_layout (cols : ℕ) (xs : List (List ℝ)) (norm : Bool)
    (coords : List (List ℝ)) (ats : List (ℕ × ℕ)) (hlen : coords.length = ats.length)
    (hcols : ∀ q ∈ coords, q.length = cols) (hats : ∀ b ∈ ats, b.1 + b.2 ≠ 0) (C E : List ℝ)
    (n : ℕ) (hn : n = molOffset ats ats.length) (hC : C.length = n) (hE : E.length = n)
    (hpos : norm = true → ∀ a ∈ E, 0 < a) :
    ∃ (m : Molecular) (g : List XR) (dg : List (List XR)),
      Molecular.init (.two cols (xs.map fins)) cols (coords.map fins)
        (ats.map fun b => ((b.1 : ℤ), (b.2 : ℤ))) norm = .ok m ∧
      m.nbasis = n ∧
      m.evaluate (ND.vec (fins C)) (ND.vec (fins E)) true = .ok (g, some dg) ∧
      dg.length = xs.length ∧
      ∀ (i : ℕ) (x : List ℝ), xs[i]? = some x → ∃ row : List XR, dg[i]? = some row ∧
        row.length = 2 * n ∧ ∀ k, k < n →
          (∃ d, row[k]? = some (XR.fin d) ∧ HasDerivAt (fun t =>
            molDensity norm ats (fun a => distL x (coords.getD a [])) (C.set k t) E) d (C.getD k 0)) ∧
          (∃ d, row[n + k]? = some (XR.fin d) ∧ HasDerivAt (fun t =>
            molDensity norm ats (fun a => distL x (coords.getD a [])) C (E.set k t)) d (E.getD k 0)) := by
  obtain ⟨m, h1, h2⟩ := mol_init cols xs norm coords ats hlen hcols hats
  have hn' : n = molNb ats := by rw [hn]; simp [molNb, molOffset]
  have hev := mol_evaluate_fins h2 C E (by rw [hC, hn']) (by rw [hE, hn'])
    (fun h a ha => (hpos h a ha).le) true
  refine ⟨m, _, _, h1, by rw [mol_nbasis h2, hn'], hev, by simp, ?_⟩
  intro i x hi
  have hlb := molBasis_length norm ats (fun a => centreDist coords a x) E (by rw [hE, hn'])
  have hld := molDexp_length norm ats (fun a => centreDist coords a x) C E (by rw [hC, hn'])
    (by rw [hE, hn'])
  refine ⟨_, by rw [List.getElem?_map, hi]; rfl, ?_, ?_⟩
  · rw [fins_length, List.length_append, hlb, hld, hn']; omega
  · intro k hk
    constructor
    · exact ⟨_, getElem?_fins_append_left _ _ k (by omega),
        molDensity_hasDerivAt_coeff norm ats _ C E (by omega) (by omega) k (by omega)⟩
    · refine ⟨_, by
        rw [hn', ← hlb]
        exact getElem?_fins_append_right _ _ k (by omega),
        molDensity_hasDerivAt_expon norm ats _ C E (by omega) (by omega) hpos k (by omega)⟩

/-- The hypotheses of C15 are met by a diatomic with different numbers of functions per centre. -/
example : molOffset [(2, 1), (0, 3)] 2 = 6 ∧ ∀ b ∈ [(2, 1), (0, 3)], b.1 + b.2 ≠ 0 := by
  decide

/-! ### C16 -/

theorem cumsum_getElem? (acc : ℤ) (l : List ℤ) (i : ℕ) (hi : i < l.length) :
    (cumsum acc l)[i]? = some (acc + (l.take (i + 1)).sum) := by
  induction l generalizing acc i with
  | nil => simp at hi
  | cons x l ih =>
    cases i with
    | zero => simp [cumsum]
    | succ i =>
      rw [cumsum, List.getElem?_cons_succ, ih _ _ (by simpa using hi)]
      simp [add_assoc]

theorem cumsum_length (acc : ℤ) (l : List ℤ) : (cumsum acc l).length = l.length := by
  induction l generalizing acc with
  | nil => rfl
  | cons x l ih => simp [cumsum, ih]

theorem intSum_take_eq (ats : List (ℕ × ℕ)) (a : ℕ) :
    (((ats.map fun b => ((b.1 : ℤ), (b.2 : ℤ))).map (fun b => b.1 + b.2)).take a).sum =
      (molOffset ats a : ℤ) := by
  unfold molOffset
  rw [List.map_map, ← List.map_take]
  induction (List.take a ats) with
  | nil => rfl
  | cons b l ih => simp only [List.map_cons, List.sum_cons, ih, Function.comp]; push_cast; rfl

theorem molOffset_mono (ats : List (ℕ × ℕ)) {a b : ℕ} (h : a ≤ b) :
    molOffset ats a ≤ molOffset ats b := by
  unfold molOffset
  have : ats.take a = (ats.take b).take a := by rw [List.take_take, min_eq_left h]
  rw [this]
  clear this h
  generalize ats.take b = l
  induction l generalizing a with
  | nil => simp
  | cons x l ih =>
    cases a with
    | zero => simp
    | succ a =>
      simp only [List.take_succ_cons, List.map_cons, List.sum_cons]
      have := ih (a := a)
      omega

/-- **C16**.  For a valid index the returned centre is the unique one whose parameter block contains
the index; an index `≥ nbasis` raises ValueError. -/
theorem C16_assign (m : Molecular) (ats : List (ℕ × ℕ))
    (hb : m.basis = ats.map fun b => ((b.1 : ℤ), (b.2 : ℤ))) (index : ℕ) :
    (index < molOffset ats ats.length → ∃ k, m.assignBasis index = .ok k ∧ k < ats.length ∧
      molOffset ats k ≤ index ∧ index < molOffset ats (k + 1) ∧
      ∀ j, molOffset ats j ≤ index → index < molOffset ats (j + 1) → j = k) ∧
    (molOffset ats ats.length ≤ index → m.assignBasis index = .error .valueError) := by
  have hnb : m.nbasis = (molOffset ats ats.length : ℤ) := by
    rw [← intSum_take_eq, List.take_of_length_le (by simp), ← hb]
    rfl
  have huniq : ∀ j k, molOffset ats k ≤ index → index < molOffset ats (k + 1) →
      molOffset ats j ≤ index → index < molOffset ats (j + 1) → j = k := by
    intro j k h1 h2 h3 h4
    rcases lt_trichotomy j k with h | h | h
    · have := molOffset_mono ats (show j + 1 ≤ k by omega); omega
    · exact h
    · have := molOffset_mono ats (show k + 1 ≤ j by omega); omega
  constructor
  · intro hi
    unfold Molecular.assignBasis
    rw [if_neg (by rw [hnb]; exact_mod_cast not_le.mpr hi)]
    simp only []
    rcases hf : (cumsum 0 (m.basis.map fun b => b.1 + b.2)).findIdx?
        (fun c => decide ((index : ℤ) + 1 ≤ c)) with _ | k
    · exfalso
      rw [List.findIdx?_eq_none_iff] at hf
      have hpos : 0 < ats.length := by
        rcases Nat.eq_zero_or_pos ats.length with h | h
        · rw [h] at hi; simp [molOffset] at hi
        · exact h
      have hl := cumsum_getElem? 0 (m.basis.map fun b => b.1 + b.2) (ats.length - 1)
        (by simp [hb]; omega)
      have := hf _ (List.mem_of_getElem? hl)
      simp only [decide_eq_false_iff_not, zero_add] at this
      rw [hb, intSum_take_eq, show ats.length - 1 + 1 = ats.length by omega] at this
      omega
    · have hf' := hf
      rw [List.findIdx?_eq_some_iff_getElem] at hf
      obtain ⟨hk, h1, h2⟩ := hf
      have hk' : k < ats.length := by rw [cumsum_length] at hk; simpa [hb] using hk
      have hv : ∀ i, i < ats.length → (cumsum 0 (m.basis.map fun b => b.1 + b.2))[i]? =
          some ((molOffset ats (i + 1) : ℤ)) := by
        intro i hi
        rw [cumsum_getElem? _ _ _ (by simpa [hb] using hi), zero_add, hb, intSum_take_eq]
      have hvk := hv k hk'
      rw [List.getElem?_eq_getElem hk] at hvk
      have hvk' := Option.some.inj hvk
      rw [hvk'] at h1
      have h1' : index < molOffset ats (k + 1) := by simp at h1; omega
      have h0 : molOffset ats k ≤ index := by
        cases k with
        | zero => simp [molOffset]
        | succ k =>
          have h3 := h2 k (by omega)
          have hvk2 := hv k (by omega)
          rw [List.getElem?_eq_getElem (by omega)] at hvk2
          rw [Option.some.inj hvk2] at h3
          simp at h3
          omega
      exact ⟨k, by rw [hf'], hk', h0, h1', fun j h3 h4 => huniq j k h0 h1' h3 h4⟩
  · intro hi
    unfold Molecular.assignBasis
    rw [if_pos (by rw [hnb]; exact_mod_cast hi)]
    rfl

/-- C16 on a concrete molecule: functions 0..2 belong to centre 0, functions 3..5 to centre 1. -/
example (m : Molecular) (h : m.basis = [(2, 1), (0, 3)]) : m.assignBasis (2 : ℕ) = .ok 0 ∧
    m.assignBasis (3 : ℕ) = .ok 1 ∧ m.assignBasis (6 : ℕ) = .error .valueError := by
  simp [Molecular.assignBasis, Molecular.nbasis, h, cumsum, raise, List.findIdx?_cons]

/-- **C16** (negative index).  A negative index is not rejected: it is assigned to centre 0
whenever there is one. -/
theorem C16_negative_index (m : Molecular) (ats : List (ℕ × ℕ)) (hne : ats ≠ [])
    (hb : m.basis = ats.map fun b => ((b.1 : ℤ), (b.2 : ℤ))) (index : ℤ) (hneg : index < 0) :
    m.assignBasis index = .ok 0 := by
  obtain ⟨b, ats, rfl⟩ := List.exists_cons_of_ne_nil hne
  have h0 : 0 ≤ m.nbasis := by
    unfold Molecular.nbasis
    apply List.sum_nonneg
    intro x hx
    simp [hb] at hx
    obtain rfl | ⟨p, q, _, rfl⟩ := hx <;> omega
  unfold Molecular.assignBasis
  rw [if_neg (by omega)]
  simp only [hb, List.map_cons, cumsum, List.findIdx?_cons]
  rw [if_pos (by simp; omega)]

/-! ### C17 -/

/-- **C17** (molecular).  The molecular `prefactor` has one entry per basis function, in parameter
order: entry `molOffset a + k` belongs to function `k` of centre `a` and is 1.5 when that function is
s-type, 2.5 when it is p-type. -/
theorem C17_molecular {P : Type} {m : Molecular} {X : List P} {norm : Bool} {ats : List (ℕ × ℕ)}
    {ρ : ℕ → P → ℝ} (hm : IsMol m X norm ats ρ) :
    m.prefactor.length = molOffset ats ats.length ∧
    ∀ (a k : ℕ) (b : ℕ × ℕ), ats[a]? = some b → k < b.1 + b.2 →
      m.prefactor[molOffset ats a + k]? = some (XR.fin (if k < b.1 then 1.5 else 2.5)) := by
  obtain ⟨pts, basis, centers⟩ := m
  have hc := hm.centres
  simp only [Molecular.prefactor] at hc ⊢
  clear hm
  induction hc with
  | nil => simp [molOffset]
  | @cons at' ms b ats ρ h hs ih =>
    obtain ⟨hl, hk⟩ := C17_prefactor h.1
    constructor
    · rw [List.map_cons, List.flatten_cons, List.length_append, hl, ih.1, List.length_cons,
        molOffset_cons]
    · intro a k b' ha hkb
      cases a with
      | zero =>
        simp at ha
        subst ha
        rw [molOffset_zero, zero_add, List.map_cons, List.flatten_cons,
          List.getElem?_append_left (by omega)]
        exact hk k hkb
      | succ a =>
        rw [molOffset_cons, List.map_cons, List.flatten_cons,
          List.getElem?_append_right (by omega), hl]
        rw [show b.1 + b.2 + molOffset ats a + k - (b.1 + b.2) = molOffset ats a + k by omega]
        exact ih.2 a k b' (by simpa using ha) hkb

end
end BFit
