import Verif.Props.MolFit
import Verif.Props.ScipyInit
import Verif.Props.GreedyTotal

/-! Property C124: the objects made by the constructors are those of the theorems about fits. -/

namespace BFit

open Real Finset

noncomputable section

/-- Fit objects can be made from the grid, the densities `f` and the model, and they are objects as in the
theorems about `KLDivergenceFPI` (`IsFPI`) and `ScipyFit` (`FitData`), with basis functions described by
`S` and integration weights `W` at the `N` points. -/
structure Fittable (grid : Grid) (spherical : Bool) (model : GModel) (norm : Bool) (S : Shape) (N : ℕ)
    (W f : ℕ → ℝ) : Prop where
  /-- `KLDivergenceFPI(grid, density, model, mask, integral_dens, spherical)`. -/
  fpi : ∀ (μ : ℝ) (T : Option ℝ), ∑ i ∈ range N, W i * f i ≠ 0 → T ≠ some 0 →
    ∃ F, FPI.init grid (fins (tab N f)) model (XR.fin μ) (T.map XR.fin) spherical = .ok F ∧
      IsFPI F norm S N W f μ (T.getD (∑ i ∈ range N, W i * f i))
  /-- `ScipyFit(grid, density, model, measure, method, weights, integral_dens, spherical)`. -/
  scipy : ∀ (ms : Meas) (method : String) (weights : Option (List XR)) (T : Option ℝ) (mask : XR),
    MethodName method →
    ∃ S', SFit.init grid (fins (tab N f)) model (.inst ms) method weights (T.map XR.fin) spherical mask = .ok S' ∧
      FitData S'.toFit norm S N W f ∧ S'.measure = ms ∧
      S'.weights = weights.getD (fins (tab N fun _ => 1)) ∧
      S'.integralDens = XR.fin (T.getD (∑ i ∈ range N, W i * f i))

theorem isModel_congr {m : GModel} {norm : Bool} {S S' : Shape} {N : ℕ} (h : IsModel m norm S N)
    (h1 : S.nb = S'.nb) (h2 : ∀ k, S.isS k = S'.isS k) (h3 : ∀ k, ∀ i < N, S.rad k i = S'.rad k i) :
    IsModel m norm S' N := by
  obtain ⟨nb, isS, rad⟩ := S
  obtain ⟨nb', isS', rad'⟩ := S'
  simp only at h1 h2 h3
  subst h1
  obtain rfl : isS = isS' := funext h2
  have hr : ∀ {α : Type} (F : ℕ → ℝ → α) (k : ℕ), (List.range N).map (fun i => F i (rad k i)) =
      (List.range N).map (fun i => F i (rad' k i)) := by
    intro α F k
    apply List.map_congr_left
    intro i hi
    rw [h3 k i (List.mem_range.mp hi)]
  refine ⟨h.nbasis, h.nb_pos, h.pref, ?_, ?_⟩
  · intro k hk
    rw [h.radii k hk]
    congr 2
    exact hr (fun _ r => r) k
  · intro c e d hc he hn
    rw [h.eval c e d hc he hn]
    have e1 : (List.range N).map (Shape.dens ⟨nb, isS, rad⟩ norm (vec c) (vec e)) =
        (List.range N).map (Shape.dens ⟨nb, isS, rad'⟩ norm (vec c) (vec e)) := by
      apply List.map_congr_left
      intro i hi
      unfold Shape.dens
      apply Finset.sum_congr rfl
      intro k _
      simp only
      rw [h3 k i (List.mem_range.mp hi)]
    rw [e1]
    congr 3
    congr 1
    apply List.map_congr_left
    intro i hi
    simp only [h3 _ i (List.mem_range.mp hi)]

theorem fittable {grid : Grid} {spherical : Bool} {model : GModel} {norm : Bool} {S : Shape} {N : ℕ}
    {W f : ℕ → ℝ} (hm : IsModel model norm S N) (hq : Quad grid spherical N W)
    (hs : spherical = true → ∃ g, grid = .radial g) (hf : ∀ i < N, 0 ≤ f i)
    (hpt : pointsDiffer grid.pts model.points = some false) (hl : grid.len = N) (hg : grid.Full) :
    Fittable grid spherical model norm S N W f := by
  refine ⟨fun μ T h1 h2 => ?_, fun ms method weights T mask h3 => ?_⟩
  · obtain ⟨F, k1, k2, -⟩ := (C34_finite μ T hm hq hs hf).1 h1 h2
    exact ⟨F, k1, k2⟩
  · obtain ⟨me, hme⟩ := (parse_some method).1 h3
    have hd : ∀ x ∈ fins (tab N f), ¬ x < XR.fin 0 := by
      intro x hx
      simp only [fins, tab, List.mem_map, List.mem_range] at hx
      obtain ⟨_, ⟨i, hi, rfl⟩, rfl⟩ := hx
      simpa using hf i hi
    obtain ⟨S', e, a1, a2, a3, a4, -, a6, -, a8, a9, a10⟩ := instance_ok grid (fins (tab N f)) model ms method me
      hme weights (T.map XR.fin) spherical mask hpt (by simp [hl]) hg hd hs
    refine ⟨S', e, ⟨by rw [a3]; exact hm, a2, by rw [a1, a6]; exact hq⟩, a4, ?_, ?_⟩
    · rw [a8]
      congr 1
      simp [fins, tab]
    · cases T with
      | some t => exact a9 _ rfl
      | none =>
        have h5 := a10 rfl
        unfold Fit.integrate at h5
        rw [a1, a6, hq.fin f] at h5
        simpa using h5.symm

/-- **C124** (atoms on radial grids).  From any finite radial points, an atomic model about any centre (the
default is the origin) and non-negative densities the fits can be constructed; the distances are those to the
centre and the weights those of the trapezoidal rule, times `4 π r²` if spherical. -/
theorem C124_radial (x : List ℝ) (ctr : Option ℝ) (ns np : ℕ) (hsp : ns + np ≠ 0) (norm sph : Bool)
    (f : ℕ → ℝ) (hf : ∀ i < x.length, 0 ≤ f i) :
    ∃ m, Atomic.init (.arr (.one (fins x)))
        (match ctr with | none => .none | some a => .arr (ND.vec [XR.fin a])) (.int ns) (.int np) norm = .ok m ∧
      Fittable (.radial ⟨fins x⟩) sph (.atom m) norm (atomShape (x.map fun r => |r - ctr.getD 0|) ns np)
        x.length
        (fun i => vec (trapW x) i * if sph then 4 * π * vec x i ^ 2 else 1) f := by
  obtain ⟨m, h1, h2, h3⟩ : ∃ m, Atomic.init (.arr (.one (fins x)))
      (match ctr with | none => .none | some a => .arr (ND.vec [XR.fin a])) (.int ns) (.int np) norm = .ok m ∧
      IsAtom m (x.map fun r => |r - ctr.getD 0|) ns np ∧ m.normalized = norm := by
    cases ctr with
    | none => simpa using (C18_radii_1d x 0 ns np hsp norm).2
    | some a => exact (C18_radii_1d x a ns np hsp norm).1
  have hp : m.points = .one (fins x) := by
    obtain ⟨pts, s, p, coord, radii, e, -, -, -, -, -, -, -, rfl⟩ := init_inv h1
    injection e with e
    exact e.symm
  have hM := atom_isModel h2 hsp
  rw [h3, List.length_map] at hM
  have hW : (fun i => vec (trapW x) i * if sph then 4 * π * vec x i ^ 2 else 1) = radW x sph := by
    funext i
    cases sph <;> simp [radW, sphW]
  rw [hW]
  refine ⟨m, h1, fittable hM (radW_quad x sph) (fun _ => ⟨_, rfl⟩) hf ?_ (by simp [Grid.len]) trivial⟩
  simp only [Grid.pts, GModel.points, hp]
  exact pointsDiffer_self x

/-- What the fits use of a cubic grid. -/
theorem cubic_facts (o : Fin 3 → ℝ) (a : Fin 3 → Fin 3 → ℝ) (nx ny nz : ℕ) :
    ∃ g, cubicGrid (v3 o) (m3 a) (sh nx ny nz) = .ok g ∧
      cubicRows g.points = ((List.range (nx * ny * nz)).map (latticePoint o a ny nz)).map fins ∧
      Quad (.cubic g) false (nx * ny * nz) (fun _ => |(Matrix.of a).det|) ∧ (Grid.cubic g).len = nx * ny * nz ∧
      (Grid.cubic g).Full ∧ ∀ p ∈ g.points, ∀ d, ∃ x, p d = XR.fin x := by
  obtain ⟨g, hg, hrows⟩ := cubicRows_lattice o a nx ny nz
  obtain ⟨g', m, hg', -, -, hq, hl, -, hfin⟩ := mol_objects o a nx ny nz true [[0, 0, 0]] [(1, 0)] rfl (by simp)
    (by simp) (by simp)
  rw [hg] at hg'
  injection hg' with hg'
  subst hg'
  refine ⟨g, hg, hrows, hq, hl, ?_, hfin⟩
  rw [cubicGrid_sh] at hg
  injection hg with hg
  rw [← hg]
  simp [Grid.Full, cubicWeights_sh]

/-- **C124** (atoms on cubic grids).  The same for an atomic model about any centre on the points of a cubic
grid; the weights are the volume of the cell. -/
theorem C124_cubic_atom (o : Fin 3 → ℝ) (a : Fin 3 → Fin 3 → ℝ) (nx ny nz : ℕ) (ctr : Option (Fin 3 → ℝ))
    (ns np : ℕ) (hsp : ns + np ≠ 0) (norm : Bool) (f : ℕ → ℝ) (hf : ∀ i < nx * ny * nz, 0 ≤ f i) :
    ∃ g m, cubicGrid (v3 o) (m3 a) (sh nx ny nz) = .ok g ∧
      Atomic.init (.arr (.two 3 (cubicRows g.points)))
        (match ctr with | none => .none | some q => .arr (ND.vec (fins [q 0, q 1, q 2]))) (.int ns) (.int np) norm =
        .ok m ∧
      Fittable (.cubic g) false (.atom m) norm
        ⟨ns + np, fun k => decide (k < ns),
          fun _ i => distL (latticePoint o a ny nz i) [ctr.getD 0 0, ctr.getD 0 1, ctr.getD 0 2]⟩ (nx * ny * nz)
        (fun _ => |(Matrix.of a).det|) f := by
  obtain ⟨g, hg, hrows, hq, hl, hfull, hfin⟩ := cubic_facts o a nx ny nz
  obtain ⟨m, h1, h2, h3⟩ : ∃ m, Atomic.init (.arr (.two 3 (cubicRows g.points)))
        (match ctr with | none => .none | some q => .arr (ND.vec (fins [q 0, q 1, q 2]))) (.int ns) (.int np) norm =
        .ok m ∧ IsAtom m (((List.range (nx * ny * nz)).map (latticePoint o a ny nz)).map fun x =>
          distL x [ctr.getD 0 0, ctr.getD 0 1, ctr.getD 0 2]) ns np ∧ m.normalized = norm := by
    rw [hrows]
    cases ctr with
    | none =>
      exact (C18_radii 3 ((List.range (nx * ny * nz)).map (latticePoint o a ny nz)) [0, 0, 0] rfl ns np hsp norm).2
    | some q =>
      exact (C18_radii 3 ((List.range (nx * ny * nz)).map (latticePoint o a ny nz)) [q 0, q 1, q 2] rfl ns np hsp
        norm).1
  have hp : m.points = .two 3 (cubicRows g.points) := by
    obtain ⟨pts, s, p, coord, radii, e, -, -, -, -, -, -, -, rfl⟩ := init_inv h1
    injection e with e
    exact e.symm
  have hM := atom_isModel h2 hsp
  rw [h3, List.length_map, List.length_map, List.length_range] at hM
  have hS : IsModel (.atom m) norm ⟨ns + np, fun k => decide (k < ns),
      fun _ i => distL (latticePoint o a ny nz i) [ctr.getD 0 0, ctr.getD 0 1, ctr.getD 0 2]⟩ (nx * ny * nz) := by
    refine isModel_congr hM rfl (fun _ => rfl) ?_
    intro k i hi
    simp [atomShape, vec, List.getD_eq_getElem?_getD, hi]
  refine ⟨g, m, hg, h1, fittable hS hq (by simp) hf ?_ hl hfull⟩
  rw [GModel.points, hp]
  exact pointsDiffer_cubic g hfin

/-- **C124** (molecules on cubic grids).  The same for molecular models: function `j` of centre `A` uses the
distances to that centre. -/
theorem C124_cubic_molecule (o : Fin 3 → ℝ) (a : Fin 3 → Fin 3 → ℝ) (nx ny nz : ℕ) (norm : Bool)
    (coords : List (List ℝ)) (ats : List (ℕ × ℕ)) (hlen : coords.length = ats.length)
    (hcols : ∀ q ∈ coords, q.length = 3) (hats : ∀ b ∈ ats, b.1 + b.2 ≠ 0) (hne : ats ≠ [])
    (f : ℕ → ℝ) (hf : ∀ i < nx * ny * nz, 0 ≤ f i) :
    ∃ g m S, cubicGrid (v3 o) (m3 a) (sh nx ny nz) = .ok g ∧
      Molecular.init (.two 3 (cubicRows g.points)) 3 (coords.map fins)
        (ats.map fun b => ((b.1 : ℤ), (b.2 : ℤ))) norm = .ok m ∧
      Fittable (.cubic g) false (.mol m) norm S (nx * ny * nz) (fun _ => |(Matrix.of a).det|) f ∧
      S.nb = molOffset ats ats.length ∧
      ∀ (A : ℕ) (hA : A < ats.length) (j : ℕ), j < ats[A].1 + ats[A].2 → ∀ i < nx * ny * nz,
        S.isS (molOffset ats A + j) = decide (j < ats[A].1) ∧
        S.rad (molOffset ats A + j) i = distL (latticePoint o a ny nz i) (coords.getD A []) := by
  obtain ⟨g, m, hg, hm, hM, hq, hl, hp, hfin⟩ := mol_objects o a nx ny nz norm coords ats hlen hcols hats hne
  obtain ⟨g', hg', -, -, -, hfull, -⟩ := cubic_facts o a nx ny nz
  rw [hg] at hg'
  injection hg' with hg'
  subst hg'
  refine ⟨g, m, _, hg, hm, fittable hM hq (by simp) hf ?_ hl hfull, molNb_eq_offset ats, ?_⟩
  · rw [GModel.points, hp]
    exact pointsDiffer_cubic g hfin
  · intro A hA j hj i hi
    obtain ⟨k1, -⟩ := flatTy_offset ats A hA j hj
    simp [molShape, k1, centreDist, List.getD_eq_getElem?_getD, hi]

/-- One s-type and one p-type function about the point 1 on the radial points 0, 1, 3. -/
example : ∃ m F, Atomic.init (.arr (.one (fins [0, 1, 3]))) (.arr (ND.vec [XR.fin 1])) (.int (1 : ℕ)) (.int (1 : ℕ))
      true = .ok m ∧
    FPI.init (.radial ⟨fins [0, 1, 3]⟩) (fins [1, 1, 1]) (.atom m) (XR.fin 0) (some (XR.fin 7)) false = .ok F ∧
    F.integralDens = XR.fin 7 ∧ F.lm = XR.fin (3 / 7) ∧ ∃ g, F.model.radiiFor 0 = .ok (fins g) ∧ g = [1, 0, 2] := by
  obtain ⟨m, h1, h2⟩ := C124_radial [0, 1, 3] (some 1) 1 1 (by norm_num) true false (fun _ => 1) (by simp)
  have hs : ∑ i ∈ range 3, vec (trapW [0, 1, 3]) i * (1 : ℝ) = 3 := by
    norm_num [Finset.sum_range_succ, vec, trapW, trapWAux]
  obtain ⟨F, h3, h4⟩ := h2.fpi 0 (some 7) (by simp [Finset.sum_range_succ, vec, trapW, trapWAux]; norm_num) (by simp)
  have h5 := h4.lm
  simp only [List.length_cons, List.length_nil, Nat.reduceAdd, Bool.false_eq_true, if_false, mul_one,
    Option.getD_some] at h5
  simp only [mul_one] at hs
  rw [hs] at h5
  refine ⟨m, F, h1, ?_, h4.target, h5, _, h4.data.model.radii 0 (by simp [atomShape]), ?_⟩
  · have e : tab ([0, 1, 3] : List ℝ).length (fun _ => (1 : ℝ)) = [1, 1, 1] := rfl
    rw [e] at h3
    exact h3
  · simp [atomShape, vec, List.range_succ]
    norm_num

/-- Two centres on the 2 x 1 x 1 grid with unit axes, fitted with `ScipyFit`. -/
example : ∃ g m S', cubicGrid (v3 ![0, 0, 0]) (m3 fun i j => if i = j then 1 else 0) (sh 2 1 1) = .ok g ∧
    Molecular.init (.two 3 (cubicRows g.points)) 3 ([[0, 0, 0], [1, 0, 0]].map fins) [(1, 0), (1, 0)] true = .ok m ∧
    SFit.init (.cubic g) (fins (tab 2 fun _ => 1)) (.mol m) (.inst .sq) "slsqp" none none false (XR.fin 0) = .ok S' ∧
    S'.integralDens = XR.fin 2 := by
  obtain ⟨g, m, S, h1, h2, h3, -, -⟩ := C124_cubic_molecule ![0, 0, 0] (fun i j => if i = j then 1 else 0) 2 1 1 true
    [[0, 0, 0], [1, 0, 0]] [(1, 0), (1, 0)] rfl (by simp) (by simp) (by simp) (fun _ => 1) (by simp)
  obtain ⟨S', k1, -, -, -, k5⟩ := h3.scipy .sq "slsqp" none none (XR.fin 0) (.inl (by decide))
  refine ⟨g, m, S', h1, h2, k1, ?_⟩
  rw [k5]
  simp [Matrix.det_fin_three]

end
end BFit
