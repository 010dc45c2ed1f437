import Verif.Props.FPIHistory
import Verif.Props.FPIStationary
import Verif.Props.ScipyFit
import Verif.Props.Molecular
import Verif.Props.GreedyCubic

/-! Property C93: fits of molecular models on cubic grids, from the constructors to the update. -/

namespace BFit

open Real Finset

noncomputable section

/-- Point number `i` of a cubic grid in row-major order. -/
def latticePoint (o : Fin 3 → ℝ) (a : Fin 3 → Fin 3 → ℝ) (ny nz i : ℕ) : List ℝ :=
  let x := fun d => o d + (i / (ny * nz) : ℕ) * a 0 d + (i / nz % ny : ℕ) * a 1 d + (i % nz : ℕ) * a 2 d
  [x 0, x 1, x 2]

theorem cubicRows_lattice (o : Fin 3 → ℝ) (a : Fin 3 → Fin 3 → ℝ) (nx ny nz : ℕ) :
    ∃ g, cubicGrid (v3 o) (m3 a) (sh nx ny nz) = .ok g ∧
      cubicRows g.points = ((List.range (nx * ny * nz)).map (latticePoint o a ny nz)).map fins := by
  refine ⟨_, cubicGrid_sh _ _ _ _ _, ?_⟩
  simp only [cubicRows, List.map_map]
  apply List.map_congr_left
  intro n _
  simp only [Function.comp, latticePoint, rowDot, v3, m3, Fin.sum_univ_three, Matrix.cons_val_zero,
    Matrix.cons_val_one, Matrix.cons_val, XR.mul_fin, XR.add_fin, fins, List.map_cons, List.map_nil]
  simp only [List.cons.injEq, XR.fin_inj, and_true]
  exact ⟨by ring, by ring, by ring⟩

/-- The grid, the molecular model on its points and their description. -/
theorem mol_objects (o : Fin 3 → ℝ) (a : Fin 3 → Fin 3 → ℝ) (nx ny nz : ℕ) (norm : Bool)
    (coords : List (List ℝ)) (ats : List (ℕ × ℕ)) (hlen : coords.length = ats.length)
    (hcols : ∀ q ∈ coords, q.length = 3) (hats : ∀ b ∈ ats, b.1 + b.2 ≠ 0) (hne : ats ≠ []) :
    ∃ g m, cubicGrid (v3 o) (m3 a) (sh nx ny nz) = .ok g ∧
      Molecular.init (.two 3 (cubicRows g.points)) 3 (coords.map fins)
        (ats.map fun b => ((b.1 : ℤ), (b.2 : ℤ))) norm = .ok m ∧
      IsModel (.mol m) norm (molShape ((List.range (nx * ny * nz)).map (latticePoint o a ny nz)) ats
        (centreDist coords)) (nx * ny * nz) ∧
      Quad (.cubic g) false (nx * ny * nz) (fun _ => |(Matrix.of a).det|) ∧
      (Grid.cubic g).len = nx * ny * nz ∧ m.points = .two 3 (cubicRows g.points) ∧
      (∀ p ∈ g.points, ∀ d, ∃ x, p d = XR.fin x) := by
  obtain ⟨g, hg, hrows⟩ := cubicRows_lattice o a nx ny nz
  obtain ⟨g', hg', hw⟩ := hasWeights_cubic (v3 o) a nx ny nz
  rw [hg] at hg'
  injection hg' with hg'
  subst hg'
  obtain ⟨m, hm, hmol⟩ := mol_init 3 ((List.range (nx * ny * nz)).map (latticePoint o a ny nz)) norm coords ats
    hlen hcols hats
  have hpos : molNb ats ≠ 0 := by
    cases ats with
    | nil => exact absurd rfl hne
    | cons b l =>
      rw [molNb_cons]
      have := hats b (by simp)
      omega
  have hM := mol_isModel hmol hpos
  rw [List.length_map, List.length_range] at hM
  have hq := quad_plain hw
  rw [List.length_replicate] at hq
  refine ⟨g, m, hg, by rw [hrows]; exact hm, hM, ⟨?_, hq.ok⟩, by simpa using hw.1, ?_, ?_⟩
  · intro f
    rw [hq.fin f]
    congr 2
    apply Finset.sum_congr rfl
    intro i hi
    simp [vec, List.getD_eq_getElem?_getD, Finset.mem_range.mp hi]
  · rw [hrows]
    unfold Molecular.init at hm
    split at hm
    · simp [raise] at hm
    · split at hm
      · simp [raise] at hm
      · simp only [bind, Except.bind] at hm
        split at hm
        · simp at hm
        · simp only [pure, Except.pure, Except.ok.injEq] at hm
          rw [← hm]
  · rw [cubicGrid_sh] at hg
    injection hg with hg
    rw [← hg]
    intro p hp d
    simp only [List.mem_map, List.mem_range] at hp
    obtain ⟨n, -, rfl⟩ := hp
    simp only [rowDot, m3, v3, Fin.sum_univ_three, Matrix.cons_val_zero, Matrix.cons_val_one, Matrix.cons_val,
      XR.mul_fin, XR.add_fin]
    exact ⟨_, rfl⟩

/-- The basis function number `j` of centre `A`. -/
theorem flatTy_offset (ats : List (ℕ × ℕ)) (A : ℕ) (hA : A < ats.length) (j : ℕ)
    (hj : j < ats[A].1 + ats[A].2) : flatTy ats (molOffset ats A + j) = (decide (j < ats[A].1), A) ∧
      molOffset ats A + j < molNb ats := by
  induction ats generalizing A with
  | nil => simp at hA
  | cons b l ih =>
    cases A with
    | zero =>
      simp only [List.getElem_cons_zero] at hj ⊢
      rw [molOffset_zero, Nat.zero_add, molNb_cons]
      refine ⟨?_, by omega⟩
      simp [flatTy, hj]
    | succ A =>
      simp only [List.getElem_cons_succ] at hj ⊢
      obtain ⟨h1, h2⟩ := ih A (by simpa using hA) hj
      rw [molOffset_cons, molNb_cons]
      refine ⟨?_, by omega⟩
      unfold flatTy
      rw [if_neg (by omega), show b.1 + b.2 + molOffset l A + j - (b.1 + b.2) = molOffset l A + j by omega, h1]

/-- The molecular model density at grid point `i`. -/
def molAt (o : Fin 3 → ℝ) (a : Fin 3 → Fin 3 → ℝ) (ny nz : ℕ) (coords : List (List ℝ)) (ats : List (ℕ × ℕ))
    (norm : Bool) (c e : List ℝ) (i : ℕ) : ℝ :=
  molDensity norm ats (fun A => distL (latticePoint o a ny nz i) (coords.getD A [])) c e

theorem molShape_dens (o : Fin 3 → ℝ) (a : Fin 3 → Fin 3 → ℝ) (ny nz N : ℕ) (coords : List (List ℝ))
    (ats : List (ℕ × ℕ)) (norm : Bool) (c e : List ℝ) (i : ℕ) (hi : i < N) :
    (molShape ((List.range N).map (latticePoint o a ny nz)) ats (centreDist coords)).dens norm (vec c) (vec e) i =
      molAt o a ny nz coords ats norm c e i := by
  unfold molAt
  rw [molDensity_flat]
  apply Finset.sum_congr rfl
  intro k _
  simp [molShape, List.getD_eq_getElem?_getD, hi, centreDist]

/-- **C93** (fixed-point fit of a molecule).  From the constructors of the grid, the molecular model and the fit
to one update: the new coefficient and exponent of function `j` of centre `A` are given by the averages of that
function over the ratio of density and model, with distances to centre `A`; the new coefficients are
non-negative and sum to the target, the new exponents are positive, and the Kullback-Leibler divergence
reported by `goodness_of_fit` does not increase. -/
theorem C93_fixed_point (o : Fin 3 → ℝ) (a : Fin 3 → Fin 3 → ℝ) (nx ny nz : ℕ) (coords : List (List ℝ))
    (ats : List (ℕ × ℕ)) (hlen : coords.length = ats.length) (hcols : ∀ q ∈ coords, q.length = 3)
    (hats : ∀ b ∈ ats, b.1 + b.2 ≠ 0) (hne : ats ≠ []) (hdet : (Matrix.of a).det ≠ 0) (f : ℕ → ℝ) (μ : ℝ)
    (hf : ∀ i < nx * ny * nz, 0 < f i ∧ μ ≤ f i)
    (hsee : ∀ q ∈ coords, ∃ i < nx * ny * nz, distL (latticePoint o a ny nz i) q ≠ 0)
    (T : Option ℝ) (hT : ∀ t, T = some t → 0 < t) (c e : List ℝ) (hc : c.length = molOffset ats ats.length)
    (he : e.length = molOffset ats ats.length) (hcn : ∀ x ∈ c, 0 ≤ x) (hep : ∀ x ∈ e, 0 < x)
    (hu : ∀ i < nx * ny * nz, Unmasked μ (f i) (molAt o a ny nz coords ats true c e i))
    (hsum : c.sum ≤ T.getD (∑ i ∈ range (nx * ny * nz), |(Matrix.of a).det| * f i)) :
    ∃ g m F c' e', cubicGrid (v3 o) (m3 a) (sh nx ny nz) = .ok g ∧
      Molecular.init (.two 3 (cubicRows g.points)) 3 (coords.map fins)
        (ats.map fun b => ((b.1 : ℤ), (b.2 : ℤ))) true = .ok m ∧
      FPI.init (.cubic g) (fins (tab (nx * ny * nz) f)) (.mol m) (XR.fin μ) (T.map XR.fin) false = .ok F ∧
      F.updateParams (fins c) (fins e) true true = .ok (fins c', fins e') ∧
      (∀ A (hA : A < ats.length) j, j < ats[A].1 + ats[A].2 →
        let k := molOffset ats A + j
        let d := fun i => distL (latticePoint o a ny nz i) (coords.getD A [])
        let q := fun i => f i / molAt o a ny nz coords ats true c e i * bf (decide (j < ats[A].1)) true (vec e k) (d i)
        vec c' k = vec c k * (∑ i ∈ range (nx * ny * nz), |(Matrix.of a).det| * q i) /
          ((∑ i ∈ range (nx * ny * nz), |(Matrix.of a).det| * f i) /
            T.getD (∑ i ∈ range (nx * ny * nz), |(Matrix.of a).det| * f i)) ∧
        vec e' k = (if j < ats[A].1 then 3 / 2 else 5 / 2) *
          (∑ i ∈ range (nx * ny * nz), |(Matrix.of a).det| * q i) /
            ∑ i ∈ range (nx * ny * nz), |(Matrix.of a).det| * (q i * d i ^ 2)) ∧
      c'.length = molOffset ats ats.length ∧ e'.length = molOffset ats ats.length ∧
      (∀ x ∈ c', 0 ≤ x) ∧ (∀ x ∈ e', 0 < x) ∧
      c'.sum = T.getD (∑ i ∈ range (nx * ny * nz), |(Matrix.of a).det| * f i) ∧
      ∃ p p' x', F.goodness (fins c) (fins e) = .ok p ∧ F.goodness (fins c') (fins e') = .ok p' ∧
        p.kl = XR.fin (∑ i ∈ range (nx * ny * nz),
          |(Matrix.of a).det| * klInt (f i) (molAt o a ny nz coords ats true c e i)) ∧
        p'.kl = XR.fin x' ∧
        x' ≤ ∑ i ∈ range (nx * ny * nz),
          |(Matrix.of a).det| * klInt (f i) (molAt o a ny nz coords ats true c e i) := by
  obtain ⟨g, m, hg, hm, hM, hq, hN, -, -⟩ := mol_objects o a nx ny nz true coords ats hlen hcols hats hne
  set N := nx * ny * nz with hNd
  set V := |(Matrix.of a).det| with hV
  set S := molShape ((List.range N).map (latticePoint o a ny nz)) ats (centreDist coords) with hS
  have hVp : 0 < V := abs_pos.mpr hdet
  have hnb : S.nb = molOffset ats ats.length := molNb_eq_offset ats
  have hdens : ∀ c e i, i < N → S.dens true (vec c) (vec e) i = molAt o a ny nz coords ats true c e i :=
    fun c e i hi => molShape_dens o a ny nz N coords ats true c e i hi
  have hrad : ∀ k i, i < N → S.rad k i = distL (latticePoint o a ny nz i) (coords.getD (flatTy ats k).2 []) := by
    intro k i hi
    simp [hS, molShape, List.getD_eq_getElem?_getD, hi, centreDist]
  have hs : S.Sees N (fun _ => V) f := by
    intro k hk
    have h1 := (flatTy_spec ats k hk).1
    have hmem : coords.getD (flatTy ats k).2 [] ∈ coords := by
      rw [List.getD_eq_getElem?_getD, List.getElem?_eq_getElem (by omega)]
      exact List.getElem_mem _
    obtain ⟨i, hi, h2⟩ := hsee _ hmem
    exact ⟨i, hi, hVp, (hf i hi).1, by rw [hrad k i hi]; exact h2⟩
  have hNpos := hs.pos hM.nb_pos
  have hI : 0 < ∑ i ∈ range N, V * f i :=
    Finset.sum_pos (fun i hi => mul_pos hVp (hf i (mem_range.mp hi)).1) ⟨0, mem_range.mpr hNpos⟩
  obtain ⟨F, hF, hD, -⟩ := (C34_finite (f := f) μ T hM hq (by simp) (fun i hi => (hf i hi).1.le)).1 hI.ne'
    (fun h => absurd (hT 0 h) (lt_irrefl 0))
  have hTp : 0 < T.getD (∑ i ∈ range N, V * f i) := by
    cases T with
    | none => exact hI
    | some t => exact hT t rfl
  have hU : S.AllUnmasked true N μ f c e := fun i hi => by rw [hdens c e i hi]; exact hu i hi
  rw [← hnb] at hc he
  obtain ⟨c', e', h1, h2, h3, h4, h5, h6, -, h8, -⟩ :=
    fpi_descent hD (fun _ _ => hVp.le) hTp hs hf c e hc he hcn hep hU true true (.inl rfl)
  obtain ⟨p, hp, hpk⟩ := goodness_klTotal hD.data hNpos hD.mask (fun i hi => (hf i hi).1) c e hc he hcn hep
  obtain ⟨p', hp', hpk'⟩ := goodness_klTotal hD.data hNpos hD.mask (fun i hi => (hf i hi).1) c' e' h2 h3 h4 h5
  have hkl : klTotal S N (fun _ => V) f μ c e =
      ∑ i ∈ range N, V * klInt (f i) (molAt o a ny nz coords ats true c e i) := by
    apply Finset.sum_congr rfl
    intro i hi
    have hi := mem_range.mp hi
    rw [hdens c e i hi]
    simp only [klVal, hu i hi, if_true]
  rw [hkl] at hpk h8
  refine ⟨g, m, F, c', e', hg, hm, hF, h1, ?_, by rw [h2, hnb], by rw [h3, hnb], h4, h5, h6 rfl, p, p', _, hp, hp',
    hpk, hpk', ?_⟩
  · intro A hA j hj
    simp only
    obtain ⟨hty, hk⟩ := flatTy_offset ats A hA j hj
    have hk : molOffset ats A + j < S.nb := hk
    set k := molOffset ats A + j with hkd
    have hgen := updateParams_gen hD.data hD.mask hD.lm hD.lm_ne hD.f_nonneg c e hc he
      (fun _ x hx => (hep x hx).le)
      (fun i _ => dens_nonneg (vec_of_mem hc hcn) (fun k hk => (vec_of_mem he hep k hk).le) i) true true (.inl rfl)
    rw [h1] at hgen
    simp only [if_true, Except.ok.injEq, Prod.mk.injEq] at hgen
    obtain ⟨hgc, hge⟩ := hgen
    have hgc := fins_injective hgc
    have hcg := fpiA_congr (S := S) (norm := true) (W := fun _ => V) (e := vec e) (ratio_unmasked hU)
    rw [hcg.1] at hgc
    rw [hcg.1, hcg.2] at hge
    have hA2 := (fpiA_pos (S := S) (N := N) (W := fun _ => V) (f := f)
      (q := fun i => f i / S.dens true (vec c) (vec e) i) hs (fun _ _ => hVp.le)
      (fun i hi => by
        rw [hdens c e i hi]; exact div_nonneg (hf i hi).1.le (unmasked_pos (hf i hi).1.le (hu i hi)).le)
      (fun i hi h => by
        rw [hdens c e i hi]; exact div_pos h (unmasked_pos h.le (hu i hi))) hk
      (vec_of_mem he hep k hk)).2
    have a1 : fpiA S true N (fun _ => V) (fun i => f i / S.dens true (vec c) (vec e) i) (vec e) k =
        ∑ i ∈ range N, V * (f i / molAt o a ny nz coords ats true c e i *
          bf (decide (j < ats[A].1)) true (vec e k) (distL (latticePoint o a ny nz i) (coords.getD A []))) := by
      apply Finset.sum_congr rfl
      intro i hi
      have hi := mem_range.mp hi
      beta_reduce
      rw [hdens c e i hi, hrad k i hi]
      simp only [hS, molShape, hty]
    have a2 : fpiA2 S true N (fun _ => V) (fun i => f i / S.dens true (vec c) (vec e) i) (vec e) k =
        ∑ i ∈ range N, V * (f i / molAt o a ny nz coords ats true c e i *
          bf (decide (j < ats[A].1)) true (vec e k) (distL (latticePoint o a ny nz i) (coords.getD A [])) *
            distL (latticePoint o a ny nz i) (coords.getD A []) ^ 2) := by
      apply Finset.sum_congr rfl
      intro i hi
      have hi := mem_range.mp hi
      beta_reduce
      rw [hdens c e i hi, hrad k i hi]
      simp only [hS, molShape, hty]
    constructor
    · rw [hgc, vec_tab hk, a1]
    · have h9 := congrArg (fun l => l[k]?) hge
      simp only [fins, List.getElem?_map, List.getElem?_range hk, Option.map_some] at h9
      rw [List.getElem?_eq_getElem (by omega)] at h9
      simp only [Option.map_some, Option.some.injEq] at h9
      rw [XR.div_fin_of_ne _ hA2.ne', XR.fin_inj, a1, a2] at h9
      rw [show vec e' k = e'[k]'(by omega) by
        simp [vec, List.getD_eq_getElem?_getD, show k < e'.length by omega], h9]
      congr 2
      simp only [Shape.pref, hS, molShape, hty, decide_eq_true_eq]
  · have hL : 0 < (∑ i ∈ range N, V * f i) / T.getD (∑ i ∈ range N, V * f i) := div_pos hI hTp
    have := mul_le_mul_of_nonneg_left hsum hL.le
    rw [h6 rfl] at h8
    linarith

/-- **C93** (gradient-based fit of a molecule).  A `ScipyFit` of a molecular model on a cubic grid can be
constructed with any weights and hands the exact gradient of its objective to the optimiser. -/
theorem C93_gradient (o : Fin 3 → ℝ) (a : Fin 3 → Fin 3 → ℝ) (nx ny nz : ℕ) (norm : Bool) (coords : List (List ℝ))
    (ats : List (ℕ × ℕ)) (hlen : coords.length = ats.length) (hcols : ∀ q ∈ coords, q.length = 3)
    (hats : ∀ b ∈ ats, b.1 + b.2 ≠ 0) (hne : ats ≠ []) (f w : ℕ → ℝ) (hf : ∀ i < nx * ny * nz, 0 ≤ f i)
    (mask : XR) :
    ∃ g m S, cubicGrid (v3 o) (m3 a) (sh nx ny nz) = .ok g ∧
      Molecular.init (.two 3 (cubicRows g.points)) 3 (coords.map fins)
        (ats.map fun b => ((b.1 : ℤ), (b.2 : ℤ))) norm = .ok m ∧
      SFit.init (.cubic g) (fins (tab (nx * ny * nz) f)) (.mol m) (.inst .sq) "SLSQP"
        (some (fins (tab (nx * ny * nz) w))) none false mask = .ok S ∧
      ∀ args x c e, Params (molOffset ats ats.length) args x c e → (norm = true → ∀ y ∈ e, 0 < y) →
        GradExact S args x := by
  obtain ⟨g, m, hg, hm, hM, hq, hN, hpts, hfin⟩ := mol_objects o a nx ny nz norm coords ats hlen hcols hats hne
  have hnn : ∀ y ∈ fins (tab (nx * ny * nz) f), ¬ y < XR.fin 0 := by
    intro y hy
    simp only [fins, tab, List.mem_map, List.mem_range] at hy
    obtain ⟨_, ⟨i, hi, rfl⟩, rfl⟩ := hy
    simpa using hf i hi
  obtain ⟨F, h1, h2, h3, h4, h5, -, -, -⟩ := construct_of (.mol m) none mask hnn (by simp) ⟨_, hq.fin f⟩
  refine ⟨g, m, { F with measure := .sq, method := .slsqp, weights := fins (tab (nx * ny * nz) w) }, hg, hm, ?_, ?_⟩
  · unfold SFit.init
    simp only [GModel.points]
    rw [hpts, pointsDiffer_cubic g hfin]
    simp only
    rw [if_neg (by simp [hN]), parse_names.1]
    simp only [h1, Option.getD_some]
  · intro args x c e hp hpos
    have hd : FitData F norm (molShape ((List.range (nx * ny * nz)).map (latticePoint o a ny nz)) ats
        (centreDist coords)) (nx * ny * nz) (fun _ => |(Matrix.of a).det|) f :=
      ⟨by rw [h4]; exact hM, h3, by rw [h2, h5]; exact hq⟩
    exact C42_squared (w := w) hd rfl rfl args x c e (by rw [← molNb_eq_offset] at hp; exact hp) hpos

/-- The hypotheses of both theorems are met: the 2 x 1 x 1 grid with unit axes, two centres with one
s-type function each. -/
example : let o : Fin 3 → ℝ := ![0, 0, 0]
    let a : Fin 3 → Fin 3 → ℝ := fun i j => if i = j then 1 else 0
    (Matrix.of a).det ≠ 0 ∧ (∀ q ∈ [[0, 0, 0], [(1 : ℝ), 0, 0]], ∃ i < 2 * 1 * 1, distL (latticePoint o a 1 1 i) q ≠ 0) ∧
      ∀ i < 2 * 1 * 1, Unmasked 0 1 (molAt o a 1 1 [[0, 0, 0], [1, 0, 0]] [(1, 0), (1, 0)] true [1, 1] [1, 1] i) := by
  intro o a
  have hp0 : latticePoint o a 1 1 0 = [0, 0, 0] := by simp [latticePoint, o, a]
  have hp1 : latticePoint o a 1 1 1 = [1, 0, 0] := by simp [latticePoint, o, a]
  refine ⟨?_, ?_, ?_⟩
  · rw [Matrix.det_fin_three]
    simp [a]
  · intro q hq
    simp only [List.mem_cons, List.not_mem_nil, or_false] at hq
    rcases hq with rfl | rfl
    · exact ⟨1, by norm_num, by rw [hp1]; simp [distL]⟩
    · exact ⟨0, by norm_num, by rw [hp0]; simp [distL]⟩
  · have hpi : (π⁻¹ : ℝ) ^ (2 : ℝ) ≤ (π⁻¹ : ℝ) ^ (3 / 2 : ℝ) :=
      rpow_le_rpow_of_exponent_ge (by positivity) (inv_le_one_of_one_le₀ (by linarith [Real.two_le_pi])) (by norm_num)
    have hpi2 : (1 / 16 : ℝ) ≤ (π⁻¹ : ℝ) ^ (2 : ℝ) := by
      rw [show (2 : ℝ) = ((2 : ℕ) : ℝ) by norm_num, rpow_natCast, inv_pow, one_div]
      apply inv_anti₀ (by positivity)
      nlinarith [Real.pi_pos, Real.pi_le_four]
    have hb : ∀ d : ℝ, 0 ≤ sBasis true 1 d := fun d => by unfold sBasis; positivity
    have h0 : (1 / 16 : ℝ) ≤ sBasis true 1 0 := by
      simp [sBasis]
      simpa using hpi2.trans hpi
    have key : ∀ g : ℝ, 1 / 16 ≤ g → Unmasked 0 1 g := by
      intro g hg
      refine ⟨by linarith, ?_⟩
      have : tiny < 1 / 16 := by
        unfold tiny
        calc (2 : ℝ) ^ (-1022 : ℤ) < 2 ^ (-4 : ℤ) := zpow_lt_zpow_right₀ (by norm_num) (by norm_num)
          _ = 1 / 16 := by norm_num
      linarith
    intro i hi
    apply key
    have hm : ∀ p, molAt o a 1 1 [[0, 0, 0], [1, 0, 0]] [(1, 0), (1, 0)] true [1, 1] [1, 1] p =
        sBasis true 1 (distL (latticePoint o a 1 1 p) [0, 0, 0]) +
          sBasis true 1 (distL (latticePoint o a 1 1 p) [1, 0, 0]) := by
      intro p
      simp [molAt, molDensity, molOffset, atomDensity, basisFn, Finset.sum_range_succ]
    rw [hm]
    have hi : i = 0 ∨ i = 1 := by omega
    rcases hi with rfl | rfl
    · rw [hp0]
      have : distL [(0 : ℝ), 0, 0] [0, 0, 0] = 0 := by simp [distL]
      rw [this]
      linarith [hb (distL [(0 : ℝ), 0, 0] [1, 0, 0])]
    · rw [hp1]
      have : distL [(1 : ℝ), 0, 0] [1, 0, 0] = 0 := by simp [distL]
      rw [this]
      linarith [hb (distL [(1 : ℝ), 0, 0] [0, 0, 0])]

end
end BFit
