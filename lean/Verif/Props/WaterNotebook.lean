import Verif.Props.Notebooks
import Verif.Props.MolFit

/-! C136: basis functions with equal starting values, and the notebook about the water molecule. -/

namespace BFit

open Real Classical

noncomputable section

/-! ### Equal functions stay equal -/

/-- Two basis functions of the same type at the same distances from all points. -/
structure Shape.Same (S : Shape) (N k l : ℕ) : Prop where
  left : k < S.nb
  right : l < S.nb
  type : S.isS k = S.isS l
  rad : ∀ i < N, S.rad k i = S.rad l i

/-- Both have the same coefficient and exponent. -/
def SameAt (k l : ℕ) (c e : List ℝ) : Prop := vec c k = vec c l ∧ vec e k = vec e l

theorem same_update {F : FPI} {S : Shape} {N : ℕ} {W f : ℕ → ℝ} {μ T : ℝ} (h : IsFPI F true S N W f μ T)
    {k l : ℕ} (hkl : S.Same N k l) {c e c' e' : List ℝ} (hg : S.Good c e) (hs : SameAt k l c e) {uc ue : Bool}
    (hu : uc = true ∨ ue = true) (h' : F.updateParams (fins c) (fins e) uc ue = .ok (fins c', fins e')) :
    SameAt k l c' e' := by
  have hcv := vec_of_mem hg.clen hg.cnn
  have hev : ∀ k < S.nb, 0 ≤ vec e k := fun k hk => (vec_of_mem hg.elen hg.epos k hk).le
  rw [updateParams_gen h.data h.mask h.lm h.lm_ne h.f_nonneg c e hg.clen hg.elen (fun _ a ha => (hg.epos a ha).le)
    (fun i _ => dens_nonneg hcv hev i) uc ue hu] at h'
  simp only [Except.ok.injEq, Prod.mk.injEq] at h'
  have hA : ∀ q : ℕ → ℝ, fpiA S true N W q (vec e) k = fpiA S true N W q (vec e) l := fun q => by
    unfold fpiA
    exact Finset.sum_congr rfl fun i hi => by rw [hkl.type, hs.2, hkl.rad i (Finset.mem_range.mp hi)]
  have hA2 : ∀ q : ℕ → ℝ, fpiA2 S true N W q (vec e) k = fpiA2 S true N W q (vec e) l := fun q => by
    unfold fpiA2
    exact Finset.sum_congr rfl fun i hi => by rw [hkl.type, hs.2, hkl.rad i (Finset.mem_range.mp hi)]
  have hp : S.pref k = S.pref l := by unfold Shape.pref; rw [hkl.type]
  constructor
  · rw [← fins_inj h'.1, vec, vec, tab_getD _ _ _ hkl.left, tab_getD _ _ _ hkl.right, hA, hs.1]
  · have h2 := h'.2
    have hv : ∀ j < S.nb, (fins e')[j]? = some (if ue then
        XR.fin (S.pref j * fpiA S true N W (S.ratio true μ f (vec c) (vec e)) (vec e) j) /
          XR.fin (fpiA2 S true N W (S.ratio true μ f (vec c) (vec e)) (vec e) j) else XR.fin (vec e j)) := by
      intro j hj
      rw [← h2]
      simp [hj]
    have e1 : (fins e')[k]? = (fins e')[l]? := by
      rw [hv k hkl.left, hv l hkl.right, hA, hA2, hp, hs.2]
    have e2 : e'[k]? = e'[l]? := by
      simp only [fins, List.getElem?_map] at e1
      exact Option.map_injective (fun a b hab => by simpa using hab) e1
    simp only [vec, List.getD_eq_getElem?_getD, e2]

/-- **C136** (equal functions).  Two basis functions of the same type on the same centre that start with equal
coefficients and equal exponents have equal coefficients and equal exponents in the result of `run`: the fit uses fewer
functions than the model has. -/
theorem C136_equal {F : FPI} {S : Shape} {N : ℕ} {W f : ℕ → ℝ} {μ T : ℝ} (h : IsFPI F true S N W f μ T)
    (hW : ∀ i < N, 0 ≤ W i) (hT : 0 < T) (hs : S.Sees N W f) (o : FPIOpts)
    (huc : o.optCoeffs = true ∨ o.optExpons = true) (c e : List ℝ) (hg : S.Good c e) {k l : ℕ} (hkl : S.Same N k l)
    (h0 : SameAt k l c e) :
    ∃ r c' e', F.run (.arr (ND.vec (fins c))) (.arr (ND.vec (fins e))) o = .ok r ∧ r.coeffs = fins c' ∧
      r.exps = fins e' ∧ SameAt k l c' e' := by
  obtain ⟨r, n, cs, es, h1, -, h3, h4⟩ := C39_total h hW hT hs o huc c e hg
  have hst := h3.start
  simp only [ND.vec, Prod.mk.injEq] at hst
  have hl := h3.last
  simp only [Prod.mk.injEq] at hl
  have key : ∀ j ≤ n, SameAt k l (cs j) (es j) := by
    intro j
    induction j with
    | zero => intro _; rw [fins_inj hst.1, fins_inj hst.2]; exact h0
    | succ j ih =>
      intro hj
      exact same_update h hkl (h4 j (by omega)) (ih (by omega)) huc (h3.step j (by omega))
  exact ⟨r, cs n, es n, h1, hl.1.symm, hl.2.symm, key n le_rfl⟩

/-! ### Grids of other packages -/

theorem weighted_quad {g : CubicGrid} {w : List ℝ} (hw : g.weights = fins w) (hl : g.points.length = w.length) :
    Quad (.cubic g) false w.length (vec w) := by
  refine quad_plain ⟨by simp [Grid.len, hl], fun f hf => ?_⟩
  show CubicGrid.integrate g _ = _
  unfold CubicGrid.integrate
  rw [if_neg (by simp [ND.vec, hl, hf]), if_pos (by rw [hw, fins_length, hl]), hw]
  congr 1
  simp only [ND.vec, fins, List.zipWith_map]
  have : (List.zipWith (fun a b => XR.fin a * XR.fin b) w f) = fins (List.zipWith (· * ·) w f) := by
    rw [fins, List.map_zipWith]
    rfl
  rw [this, sum_fins]
  rfl

/-- The functions of the water molecule: seven s-type and three p-type ones on oxygen, three s-type ones on each
hydrogen. -/
def waterAts : List (ℕ × ℕ) := [(7, 3), (3, 0), (3, 0)]

/-- The density of a model of the water molecule at the point `x`. -/
def waterDensity (ats : List (ℕ × ℕ)) (coords : List (List ℝ)) (c e x : List ℝ) : ℝ :=
  molDensity true ats (fun a => distL x (coords.getD a [])) c e

theorem water_merge (coords : List (List ℝ)) (x : List ℝ) {c e : List ℝ} (hc : c.length = 16) (he : e.length = 16)
    (a1 : SameAt 10 11 c e) (a2 : SameAt 10 12 c e) (a3 : SameAt 13 14 c e) (a4 : SameAt 13 15 c e) :
    waterDensity [(7, 3), (3, 0), (3, 0)] coords c e x =
      waterDensity [(7, 3), (1, 0), (1, 0)] coords (c.take 10 ++ [3 * vec c 10, 3 * vec c 13])
        (e.take 10 ++ [vec e 10, vec e 13]) x := by
  unfold waterDensity
  rw [molDensity_flat, molDensity_flat]
  have e1 : molNb [(7, 3), (3, 0), (3, 0)] = 10 + 6 := by decide
  have e2 : molNb [(7, 3), (1, 0), (1, 0)] = 10 + 2 := by decide
  rw [e1, e2, Finset.sum_range_add, Finset.sum_range_add]
  congr 1
  · refine Finset.sum_congr rfl fun k hk => ?_
    have hk := Finset.mem_range.mp hk
    have f1 : ∀ k < 10, flatTy [(7, 3), (3, 0), (3, 0)] k = flatTy [(7, 3), (1, 0), (1, 0)] k := by decide
    have f2 : ∀ l : List ℝ, l.length = 16 → ∀ t : List ℝ, vec (l.take 10 ++ t) k = vec l k := by
      intro l hl t
      simp only [vec, List.getD_eq_getElem?_getD]
      rw [List.getElem?_append_left (by simp; omega), List.getElem?_take_of_lt hk]
    rw [f1 k hk, f2 c hc, f2 e he]
  · have f3 : ∀ l : List ℝ, l.length = 16 → ∀ a b : ℝ, vec (l.take 10 ++ [a, b]) (10 + 0) = a ∧
        vec (l.take 10 ++ [a, b]) (10 + 1) = b := by
      intro l hl a b
      simp only [vec, List.getD_eq_getElem?_getD]
      rw [List.getElem?_append_right (by simp), List.getElem?_append_right (by simp)]
      simp [hl]
    have t0 : flatTy [(7, 3), (3, 0), (3, 0)] (10 + 0) = (true, 1) := by decide
    have t1 : flatTy [(7, 3), (3, 0), (3, 0)] (10 + 1) = (true, 1) := by decide
    have t2 : flatTy [(7, 3), (3, 0), (3, 0)] (10 + 2) = (true, 1) := by decide
    have t3 : flatTy [(7, 3), (3, 0), (3, 0)] (10 + 3) = (true, 2) := by decide
    have t4 : flatTy [(7, 3), (3, 0), (3, 0)] (10 + 4) = (true, 2) := by decide
    have t5 : flatTy [(7, 3), (3, 0), (3, 0)] (10 + 5) = (true, 2) := by decide
    have u0 : flatTy [(7, 3), (1, 0), (1, 0)] (10 + 0) = (true, 1) := by decide
    have u1 : flatTy [(7, 3), (1, 0), (1, 0)] (10 + 1) = (true, 2) := by decide
    simp only [Finset.sum_range_succ, Finset.sum_range_zero, t0, t1, t2, t3, t4, t5, u0, u1, (f3 c hc _ _).1,
      (f3 c hc _ _).2, (f3 e he _ _).1, (f3 e he _ _).2]
    have b1 := a1.1; have b2 := a2.1; have b3 := a3.1; have b4 := a4.1
    have d1 := a1.2; have d2 := a2.2; have d3 := a3.2; have d4 := a4.2
    norm_num
    rw [← b1, ← b2, ← b3, ← b4, ← d1, ← d2, ← d3, ← d4]
    ring

/-- **C136** (notebook).  For any finite points, non-negative weights and density (not negative, and for each atom
positive at a point of positive weight that is not the position of the atom) the notebook `molecular_density.ipynb` runs
to its end.  After each of the `n` updates, `1 ≤ n ≤ 15`, there are sixteen positive coefficients and exponents, and the
coefficients add up to at most the integral of the density.  Because the coefficients of the hydrogen atoms take the
place of their exponents, the three functions of each hydrogen start equal and stay equal: the fitted model is the one
with a single function on each hydrogen.  The plotted curves are the integral of the model, the integral of the absolute
value and the maximum of the residual, and -- under the title "Kullback-Leibler value" -- the integral of the squared
residual. -/
theorem C136_water (grid : CubicGrid) (xs : List (List ℝ)) (hx : cubicRows grid.points = xs.map fins) (w : List ℝ)
    (hw : grid.weights = fins w) (hwl : w.length = xs.length) (hw0 : ∀ a ∈ w, 0 ≤ a) (f : List ℝ)
    (hfl : f.length = xs.length) (hf0 : ∀ a ∈ f, 0 ≤ a) (coords : List (List ℝ)) (hcl : coords.length = 3)
    (hc3 : ∀ q ∈ coords, q.length = 3)
    (hsee : ∀ q ∈ coords, ∃ i < xs.length, 0 < vec w i ∧ 0 < vec f i ∧
      distL (xs.getD i []) q ≠ 0) :
    ∃ (r : FPIResult) (p0 p1 p2 p3 : List XR) (n : ℕ) (cs es : ℕ → List ℝ) (m : Molecular) (F : FPI),
      waterBook grid (fins f) (coords.map fins) = .ok (r, p0, p1, p2, p3) ∧ 1 ≤ n ∧ n ≤ 15 ∧
      Molecular.init (.two 3 (xs.map fins)) 3 (coords.map fins) [(7, 3), (3, 0), (3, 0)] true = .ok m ∧
      FPI.init (.cubic grid) (fins f) (.mol m) (XR.fin 0) none false = .ok F ∧
      (∀ j < n, F.updateParams (fins (cs j)) (fins (es j)) true true = .ok (fins (cs (j + 1)), fins (es (j + 1)))) ∧
      r.coeffs = fins (cs n) ∧ r.exps = fins (es n) ∧
      cs 0 = List.replicate 16 1 ∧
      es 0 = [0.001, 0.1, 1, 10, 100, 1000, 2000, 0.01, 1, 10] ++ List.replicate 6 1 ∧
      (∀ j ≤ n, (cs j).length = 16 ∧ (es j).length = 16 ∧ (∀ a ∈ cs j, 0 < a) ∧ (∀ a ∈ es j, 0 < a) ∧
        SameAt 10 11 (cs j) (es j) ∧ SameAt 10 12 (cs j) (es j) ∧ SameAt 13 14 (cs j) (es j) ∧
        SameAt 13 15 (cs j) (es j) ∧ ∀ x, waterDensity [(7, 3), (3, 0), (3, 0)] coords (cs j) (es j) x =
          waterDensity [(7, 3), (1, 0), (1, 0)] coords ((cs j).take 10 ++ [3 * vec (cs j) 10, 3 * vec (cs j) 13])
            ((es j).take 10 ++ [vec (es j) 10, vec (es j) 13]) x) ∧
      (∀ j < n, (cs (j + 1)).sum ≤ ∑ i ∈ Finset.range xs.length, vec w i * vec f i) ∧
      p0.length = n ∧ p1.length = n ∧ p2.length = n ∧ p3.length = n ∧
      ∀ j < n, ∀ g : ℕ → ℝ,
        (g = fun i => waterDensity [(7, 3), (3, 0), (3, 0)] coords (cs (j + 1)) (es (j + 1)) (xs.getD i [])) →
        p0[j]? = some (XR.fin (∑ i ∈ Finset.range xs.length, vec w i * g i)) ∧
        p1[j]? = some (XR.fin (∑ i ∈ Finset.range xs.length, vec w i * |vec f i - g i|)) ∧
        (∃ M, p2[j]? = some (XR.fin M) ∧ (∃ i < xs.length, |vec f i - g i| = M) ∧
          ∀ i < xs.length, |vec f i - g i| ≤ M) ∧
        p3[j]? = some (XR.fin (∑ i ∈ Finset.range xs.length, vec w i * (vec f i - g i) ^ 2)) := by
  have hpl : grid.points.length = w.length := by
    have := congrArg List.length hx
    simp [cubicRows] at this
    omega
  have hq := weighted_quad hw hpl
  obtain ⟨m, hm, hmol⟩ := mol_init 3 xs true coords waterAts (by simp [hcl, waterAts]) hc3 (by decide)
  have hM := mol_isModel hmol (by decide)
  rw [hwl] at hq
  have hW : ∀ i < xs.length, 0 ≤ vec w i := fun i _ => vec_nonneg hw0 i
  have hfn : ∀ i < xs.length, 0 ≤ vec f i := fun i _ => vec_nonneg hf0 i
  have hsees : (molShape xs waterAts (centreDist coords)).Sees xs.length (vec w) (vec f) := by
    intro k hk
    obtain ⟨a1, -, -⟩ := flatTy_spec waterAts k hk
    have hal : (flatTy waterAts k).2 < coords.length := by rw [hcl]; exact a1
    obtain ⟨i, hi, b1, b2, b3⟩ := hsee (coords[(flatTy waterAts k).2]) (List.getElem_mem hal)
    refine ⟨i, hi, b1, b2, ?_⟩
    have : (molShape xs waterAts (centreDist coords)).rad k i =
        distL (xs.getD i []) (coords[(flatTy waterAts k).2]) := by
      simp [molShape, List.getD_eq_getElem?_getD, hi, centreDist, hal]
    rw [this]
    exact b3
  have hI : 0 < ∑ i ∈ Finset.range xs.length, vec w i * vec f i := by
    obtain ⟨i, hi, b1, b2, -⟩ := hsees 0 (show 0 < molNb waterAts by decide)
    exact Finset.sum_pos' (fun j hj => mul_nonneg (hW j (Finset.mem_range.mp hj)) (hfn j (Finset.mem_range.mp hj)))
      ⟨i, Finset.mem_range.mpr hi, mul_pos b1 b2⟩
  obtain ⟨F, hF, hfpi, -⟩ := (C34_finite 0 none hM hq (by simp) hfn).1 hI.ne' (by simp)
  simp only [Option.getD_none] at hfpi
  obtain ⟨r, n, cs, es, r1, r2, r3, r4, r5, r6, r7⟩ := fit_history hfpi hW hI hsees hfn
    ⟨true, true, 15, XR.fin 1e-3, XR.fin 1e-4, XR.fin 1e-6⟩ rfl waterC0 waterE0 rfl rfl (by simp [waterC0])
    (by norm_num [waterE0])
  have hne := run_updates r1 (by norm_num) rfl rfl
  have hlast := r3.last
  simp only [Prod.mk.injEq] at hlast
  have hlen := r3.len
  have hn : 1 ≤ n := by
    have := List.length_pos_of_ne_nil hne
    omega
  have hN : 0 < xs.length := by
    obtain ⟨i, hi, -⟩ := hsees 0 (show 0 < molNb waterAts by decide)
    omega
  have hgood : ∀ j ≤ n, (molShape xs waterAts (centreDist coords)).Good (cs j) (es j) := fun j hj =>
    ⟨(r6 j hj).1, (r6 j hj).2.1, fun a ha => ((r6 j hj).2.2.1 a ha).le, (r6 j hj).2.2.2⟩
  have hsame : ∀ k l, k < 16 → l < 16 → flatTy waterAts k = flatTy waterAts l → SameAt k l waterC0 waterE0 →
      ∀ j ≤ n, SameAt k l (cs j) (es j) := by
    intro k l hk hl hty h0 j
    have hS : (molShape xs waterAts (centreDist coords)).Same xs.length k l :=
      ⟨hk, hl, by simp [molShape, hty], fun i _ => by simp [molShape, hty]⟩
    induction j with
    | zero => intro _; rw [r4, r5]; exact h0
    | succ j ih =>
      intro hj
      exact same_update hfpi hS (hgood j (by omega)) (ih (by omega)) (.inl rfl) (r3.step j (by omega))
  have hdens : ∀ c e : List ℝ, ∀ i < xs.length,
      (molShape xs waterAts (centreDist coords)).dens true (vec c) (vec e) i =
        waterDensity waterAts coords c e (xs.getD i []) := by
    intro c e i hi
    unfold waterDensity
    rw [molDensity_flat]
    refine Finset.sum_congr rfl fun k _ => ?_
    simp [molShape, List.getD_eq_getElem?_getD, hi, centreDist]
  have hm' : Molecular.init (.two 3 (xs.map fins)) 3 (coords.map fins) [(7, 3), (3, 0), (3, 0)] true = .ok m := hm
  have hf' : fins f = fins (tab xs.length (vec f)) := by
    congr 1
    apply List.ext_getElem
    · simp [hfl]
    · intro i h1 h2
      simp [tab, vec, List.getD_eq_getElem?_getD, h1]
  have hF' : FPI.init (.cubic grid) (fins f) (.mol m) (XR.fin 0) none false = .ok F := by
    rw [hf']
    exact hF
  refine ⟨r, r.performance.map Perf.integral, r.performance.map Perf.l1, r.performance.map Perf.linf,
    r.performance.map Perf.ls, n, cs, es, m, F, ?_, hn, by simpa using r2, hm', hF', r3.step, hlast.1.symm,
    hlast.2.symm, ?_, ?_, ?_, ?_, by simpa using hlen, by simpa using hlen, by simpa using hlen, by simpa using hlen, ?_⟩
  · unfold waterBook
    rw [hx]
    rw [hm']
    simp only [inScript]
    rw [hF']
    simp only
    rw [r1]
    simp only
    rw [perfColumn_ok _ hne, perfColumn_ok _ hne, perfColumn_ok _ hne, perfColumn_ok _ hne]
  · rw [r4]
    rfl
  · rw [r5]
    rfl
  · intro j hj
    obtain ⟨g1, g2, g3, g4⟩ := r6 j hj
    have a1 := hsame 10 11 (by norm_num) (by norm_num) (by decide) (by constructor <;> rfl) j hj
    have a2 := hsame 10 12 (by norm_num) (by norm_num) (by decide) (by constructor <;> rfl) j hj
    have a3 := hsame 13 14 (by norm_num) (by norm_num) (by decide) (by constructor <;> rfl) j hj
    have a4 := hsame 13 15 (by norm_num) (by norm_num) (by decide) (by constructor <;> rfl) j hj
    refine ⟨g1, g2, g3, g4, a1, a2, a3, a4, fun x => ?_⟩
    exact water_merge coords x g1 g2 a1 a2 a3 a4
  · intro j hj
    exact r7 j hj
  · rintro j hj g rfl
    obtain ⟨p, M, p0, p1, p2, p3, p4, p5, p6, -⟩ := fit_columns hfpi hN r3 r6
      (g := fun c e i => waterDensity waterAts coords c e (xs.getD i [])) hdens j hj
    simp only [List.getElem?_map, p0, Option.map_some, p1, p2, p3, p6]
    exact ⟨rfl, rfl, ⟨M, rfl, p4, p5⟩, rfl⟩

/-! ### Examples -/

/-- Two functions with coefficient 1 and exponent 3 on a radial grid of two points. -/
example : ∃ m F r c' e', Atomic.init (.arr (.one (fins [1, 2]))) .none (.int 2) (.int 0) true = .ok m ∧
    FPI.init (.radial ⟨fins [1, 2]⟩) (fins [1, 1]) (.atom m) (XR.fin 0) (some (XR.fin 5)) true = .ok F ∧
    F.run (.arr (ND.vec (fins [1, 1]))) (.arr (ND.vec (fins [3, 3])))
      ⟨true, true, 7, XR.fin 1e-6, XR.fin 1e-6, XR.fin 1e-6⟩ = .ok r ∧
    r.coeffs = fins c' ∧ r.exps = fins e' ∧ vec c' 0 = vec c' 1 ∧ vec e' 0 = vec e' 1 := by
  have h3 : ([1, 2] : List ℝ).Pairwise (· ≤ ·) := by norm_num
  have hi := radial_index_of (t := fun _ => (1 : ℝ)) h3 (fun _ => zero_le_one) (z := 1) (by simp) one_ne_zero one_ne_zero
    ⟨2, by simp, by norm_num⟩ true
  obtain ⟨m, F, I, J, q1, q2, q3, q4, q5, q6, q7, -⟩ := radial_fit_masked h3 (fun _ => zero_le_one) hi 2 0 (by norm_num) 0
    (some 5) (by rintro a h; cases h; norm_num)
  obtain ⟨r, c', e', k1, k2, k3, k4⟩ := C136_equal q6 (fun i _ => radW_nonneg h3 true i) (by norm_num) q7
    ⟨true, true, 7, XR.fin 1e-6, XR.fin 1e-6, XR.fin 1e-6⟩ (.inl rfl) [1, 1] [3, 3] ⟨rfl, rfl, by simp, by simp⟩
    (k := 0) (l := 1) ⟨by simp [atomShape], by simp [atomShape], by simp [atomShape], by simp [atomShape]⟩ ⟨rfl, rfl⟩
  exact ⟨m, F, r, c', e', q1, q2, k1, k2, k3, k4.1, k4.2⟩

/-- The notebook on two points. -/
example : ∃ r p0 p1 p2 p3, waterBook ⟨fun _ => XR.fin 0, fun _ _ => XR.fin 0,
      [fun _ => XR.fin 1, fun _ => XR.fin 2], fins [1, 2]⟩ (fins [3, 0])
      [fins [0, 0, 0], fins [0, 0, 2], fins [0, 2, 0]] = .ok (r, p0, p1, p2, p3) ∧ p3.length ≤ 15 := by
  obtain ⟨r, p0, p1, p2, p3, n, cs, es, m, F, h1, -, h2, -, -, -, -, -, -, -, -, -, -, -, -, h3, -⟩ := C136_water
    ⟨fun _ => XR.fin 0, fun _ _ => XR.fin 0, [fun _ => XR.fin 1, fun _ => XR.fin 2], fins [1, 2]⟩
    [[1, 1, 1], [2, 2, 2]] rfl [1, 2] rfl rfl (by simp) [3, 0] rfl (by simp) [[0, 0, 0], [0, 0, 2], [0, 2, 0]] rfl
    (by simp) (by
      intro q hq
      refine ⟨0, by simp, by simp [vec], by simp [vec], ?_⟩
      simp only [List.mem_cons, List.not_mem_nil, or_false] at hq
      have h3 : Real.sqrt 3 ≠ 0 := by simp
      rcases hq with rfl | rfl | rfl <;> norm_num [distL])
  exact ⟨r, p0, p1, p2, p3, h1, by omega⟩

end
end BFit
