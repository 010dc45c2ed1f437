import Verif.Props.CubicGrid

/-! Properties C08, C09: `CubicGrid.from_molecule` (`bfit/grid.py`). -/

namespace BFit

open Matrix

noncomputable section

/-- Centre of nuclear charge of a molecule. -/
def chargeCentre (zs : List ℝ) (coords : List (Fin 3 → ℝ)) (d : Fin 3) : ℝ :=
  (List.zipWith (fun z (x : Fin 3 → ℝ) => z * x d) zs coords).sum / zs.sum

theorem com_fins (zs : List ℝ) (coords : List (Fin 3 → ℝ)) (hz : zs.sum ≠ 0) :
    comOf (fins zs) (coords.map v3) = v3 (chargeCentre zs coords) := by
  funext d
  unfold comOf
  have : List.zipWith (fun z (x : V3) => z * x d) (fins zs) (coords.map v3) =
      fins (List.zipWith (fun z (x : Fin 3 → ℝ) => z * x d) zs coords) := by
    simp only [fins, List.zipWith_map, List.map_zipWith, v3, XR.mul_fin]
  rw [this, sum_fins, sum_fins, XR.div_fin_of_ne _ hz]
  rfl

/-- `M` and `m` are the coordinatewise extremes of a set of positions. -/
def Extremes (coords : List (Fin 3 → ℝ)) (M m : Fin 3 → ℝ) : Prop :=
  ∀ d, (∃ x ∈ coords, x d = M d) ∧ (∃ x ∈ coords, x d = m d) ∧ ∀ x ∈ coords, m d ≤ x d ∧ x d ≤ M d

theorem Extremes.unique {coords : List (Fin 3 → ℝ)} {M m M' m' : Fin 3 → ℝ}
    (h : Extremes coords M m) (h' : Extremes coords M' m') : M = M' ∧ m = m' := by
  constructor
  · funext d
    obtain ⟨⟨x, hx, ex⟩, _, hx3⟩ := h d
    obtain ⟨⟨y, hy, ey⟩, _, hy3⟩ := h' d
    exact le_antisymm (ex ▸ (hy3 x hx).2) (ey ▸ (hx3 y hy).2)
  · funext d
    obtain ⟨_, ⟨x, hx, ex⟩, hx3⟩ := h d
    obtain ⟨_, ⟨y, hy, ey⟩, hy3⟩ := h' d
    exact le_antisymm (ey ▸ (hx3 y hy).1) (ex ▸ (hy3 x hx).1)

theorem exists_extremes (coords : List (Fin 3 → ℝ)) (h : coords ≠ []) :
    ∃ M m, Extremes coords M m ∧ ∀ d,
      npMax ((coords.map v3).map (fun x => x d)) = .ok (XR.fin (M d)) ∧
      npMin ((coords.map v3).map (fun x => x d)) = .ok (XR.fin (m d)) := by
  have key : ∀ d : Fin 3, (coords.map v3).map (fun x => x d) = fins (coords.map (fun x => x d)) := by
    intro d; simp [fins, v3, Function.comp_def]
  have hne : ∀ d : Fin 3, coords.map (fun x => x d) ≠ [] := by
    intro d; simpa using h
  choose M hM hM1 hM2 using fun d => npMax_fins (hne d)
  choose m hm hm1 hm2 using fun d => npMin_fins (hne d)
  refine ⟨M, m, ?_, ?_⟩
  · intro d
    refine ⟨?_, ?_, ?_⟩
    · simpa using hM d
    · simpa using hm d
    · intro x hx
      exact ⟨hm2 d _ (List.mem_map.mpr ⟨x, hx, rfl⟩), hM2 d _ (List.mem_map.mpr ⟨x, hx, rfl⟩)⟩
  · intro d
    rw [key d]
    exact ⟨hM1 d, hm1 d⟩

/-- The new coordinates of `from_molecule`. -/
def newCoords (coords : List (Fin 3 → ℝ)) (com : Fin 3 → ℝ) (v : Fin 3 → Fin 3 → ℝ) (rotate : Bool) :
    List (Fin 3 → ℝ) :=
  if rotate then coords.map (fun x d => ∑ e, (x e - com e) * v e d) else coords

/-- The axes of `from_molecule`. -/
def molAxes (sp : ℝ) (v : Fin 3 → Fin 3 → ℝ) (rotate : Bool) : Fin 3 → Fin 3 → ℝ :=
  if rotate then fun c d => sp * v c d else fun c d => if c = d then sp else 0

/-- Closed form of `from_molecule` on finite input. -/
theorem fromMolecule_fins (eigh : (Fin 3 → V3) → (Fin 3 → V3)) (zs : List ℝ)
    (coords : List (Fin 3 → ℝ)) (sp ext : ℝ) (rotate : Bool) (hlen : zs.length = coords.length)
    (hne : coords ≠ []) (hz : zs.sum ≠ 0) (hsp : sp ≠ 0) (v : Fin 3 → Fin 3 → ℝ)
    (hv : rotate = true →
      eigh (inertia (fins zs) (coords.map v3) (v3 (chargeCentre zs coords))) = m3 v)
    (M m : Fin 3 → ℝ) (hMm : Extremes (newCoords coords (chargeCentre zs coords) v rotate) M m)
    (s : Fin 3 → ℤ) (hs : ∀ d, s d = ⌈(M d - m d + 2 * ext) / sp⌉) :
    fromMolecule eigh (fins zs) (coords.map v3) (XR.fin sp) (XR.fin ext) rotate =
      cubicGrid (v3 fun d => chargeCentre zs coords d - ∑ c, 0.5 * (s c : ℝ) * molAxes sp v rotate c d)
        (m3 (molAxes sp v rotate)) s := by
  unfold fromMolecule
  rw [if_neg (by simp [hlen])]
  simp only []
  rw [com_fins zs coords hz]
  have hax : (if rotate = true then fun c d => XR.fin sp *
        eigh (inertia (fins zs) (coords.map v3) (v3 (chargeCentre zs coords))) c d
      else fun c d => if c = d then XR.fin sp else XR.fin 0) = m3 (molAxes sp v rotate) := by
    cases rotate with
    | true =>
      rw [hv rfl]; funext c d; simp [molAxes, m3]
    | false => funext c d; by_cases h : c = d <;> simp [molAxes, m3, h]
  have hnc : (if rotate = true then (coords.map v3).map (fun x =>
        rowDot (fun c => x c - v3 (chargeCentre zs coords) c)
          (eigh (inertia (fins zs) (coords.map v3) (v3 (chargeCentre zs coords)))))
      else coords.map v3) =
      (newCoords coords (chargeCentre zs coords) v rotate).map v3 := by
    cases rotate with
    | true =>
      rw [hv rfl]
      simp only [newCoords, if_true, List.map_map]
      apply List.map_congr_left
      intro x _
      funext d
      simp [rowDot, v3, m3, Fin.sum_univ_three]
    | false => simp [newCoords]
  rw [hax, hnc]
  have hne' : newCoords coords (chargeCentre zs coords) v rotate ≠ [] := by
    cases rotate <;> simpa [newCoords] using hne
  obtain ⟨M', m', hE, hMm'⟩ := exists_extremes _ hne'
  obtain ⟨rfl, rfl⟩ := hMm.unique hE
  have hsize : ∀ d : Fin 3, (do
      let hi ← npMax (((newCoords coords (chargeCentre zs coords) v rotate).map v3).map (fun x => x d))
      let lo ← npMin (((newCoords coords (chargeCentre zs coords) v rotate).map v3).map (fun x => x d))
      ceilInt ((hi - lo + XR.fin 2 * XR.fin ext) / XR.fin sp)) = (.ok (s d) : Py ℤ) := by
    intro d
    rw [(hMm' d).1, (hMm' d).2]
    show ceilInt ((XR.fin (M d) - XR.fin (m d) + XR.fin 2 * XR.fin ext) / XR.fin sp) = _
    rw [XR.sub_fin, XR.mul_fin, XR.add_fin, XR.div_fin_of_ne _ hsp, hs d]
    rfl
  rw [hsize 0, hsize 1, hsize 2]
  have hs3 : (![s 0, s 1, s 2] : Fin 3 → ℤ) = s := by
    funext d; fin_cases d <;> rfl
  show cubicGrid _ _ ![s 0, s 1, s 2] = _
  rw [hs3]
  congr 1

/-- **C08_partial**.  What holds for `rotate=False`: with positive charges, `spacing > 0`,
`extension ≥ 0`, the grid is the axis-parallel lattice with corner `o` and `s d` cells of width
`spacing` along direction `d`; the box `[o d, o d + s d * spacing]` contains the requested interval
of length `(max - min) + 2*extension` centred on the centre of charge.  Hence every atom is inside
with the margin reduced by half the size of the molecule, and an atom has the full margin when it
is at most half the molecule's size away from the centre of charge.
Missing with respect to C08: the margin `extension` around *every* atom (false, see
`C08_not_enclosed`). -/
theorem C08_box_partial (eigh : (Fin 3 → V3) → (Fin 3 → V3)) (zs : List ℝ)
    (coords : List (Fin 3 → ℝ)) (sp ext : ℝ) (hlen : zs.length = coords.length)
    (hne : coords ≠ []) (hz : ∀ z ∈ zs, 0 < z) (hsp : 0 < sp) (hext : 0 ≤ ext)
    (M m : Fin 3 → ℝ) (hMm : Extremes coords M m) :
    ∃ (o : Fin 3 → ℝ) (s : Fin 3 → ℕ),
      fromMolecule eigh (fins zs) (coords.map v3) (XR.fin sp) (XR.fin ext) false =
        cubicGrid (v3 o) (m3 fun c d => if c = d then sp else 0) (fun d => (s d : ℤ)) ∧
      (∀ d, o d ≤ chargeCentre zs coords d - (M d - m d) / 2 - ext ∧
        chargeCentre zs coords d + (M d - m d) / 2 + ext ≤ o d + s d * sp) ∧
      (∀ d, ∀ x ∈ coords,
        o d + (ext - (M d - m d) / 2) ≤ x d ∧ x d ≤ o d + s d * sp - (ext - (M d - m d) / 2)) ∧
      (∀ d, ∀ x ∈ coords, |x d - chargeCentre zs coords d| ≤ (M d - m d) / 2 →
        o d + ext ≤ x d ∧ x d ≤ o d + s d * sp - ext) := by
  have hzsum : 0 < zs.sum := by
    have hzne : zs ≠ [] := by
      intro h; apply hne; rw [← List.length_eq_zero_iff, ← hlen, h]; rfl
    exact List.sum_pos zs hz hzne
  have hceil : ∀ d, 0 ≤ ⌈(M d - m d + 2 * ext) / sp⌉ := by
    intro d
    apply Int.ceil_nonneg
    obtain ⟨x, hx, -⟩ := (hMm d).1
    apply div_nonneg _ hsp.le
    linarith [(hMm d).2.2 x hx]
  have hMm' : Extremes (newCoords coords (chargeCentre zs coords) (fun _ _ => 0) false) M m := by
    simpa [newCoords] using hMm
  have hmain := fromMolecule_fins eigh zs coords sp ext false hlen hne hzsum.ne' hsp.ne'
    (fun _ _ => 0) (by simp) M m hMm' (fun d => ⌈(M d - m d + 2 * ext) / sp⌉) (fun _ => rfl)
  -- the centre of charge lies between the extremes
  have hcom : ∀ d, m d ≤ chargeCentre zs coords d ∧ chargeCentre zs coords d ≤ M d := by
    intro d
    have gen : ∀ (zs : List ℝ) (cs : List (Fin 3 → ℝ)), zs.length = cs.length →
        (∀ z ∈ zs, 0 < z) → (∀ x ∈ cs, m d ≤ x d ∧ x d ≤ M d) →
        zs.sum * m d ≤ (List.zipWith (fun z (x : Fin 3 → ℝ) => z * x d) zs cs).sum ∧
        (List.zipWith (fun z (x : Fin 3 → ℝ) => z * x d) zs cs).sum ≤ zs.sum * M d := by
      intro zs
      induction zs with
      | nil => intro cs _ _ _; simp
      | cons z zs ih =>
        intro cs hl hz hx
        cases cs with
        | nil => simp at hl
        | cons c cs =>
          obtain ⟨h1, h2⟩ := ih cs (by simpa using hl) (fun z hz' => hz z (by simp [hz']))
            (fun x hx' => hx x (by simp [hx']))
          have hz0 := hz z (by simp)
          obtain ⟨h3, h4⟩ := hx c (by simp)
          have h5 := mul_le_mul_of_nonneg_left h3 hz0.le
          have h6 := mul_le_mul_of_nonneg_left h4 hz0.le
          simp only [List.sum_cons, List.zipWith_cons_cons]
          constructor <;> nlinarith
    obtain ⟨h1, h2⟩ := gen zs coords hlen hz (fun x hx => (hMm d).2.2 x hx)
    unfold chargeCentre
    constructor
    · rw [le_div_iff₀ hzsum]; linarith
    · rw [div_le_iff₀ hzsum]; linarith
  refine ⟨fun d => chargeCentre zs coords d - ∑ c, 0.5 * ((⌈(M c - m c + 2 * ext) / sp⌉ : ℤ) : ℝ) *
      molAxes sp (fun _ _ => 0) false c d, fun d => ⌈(M d - m d + 2 * ext) / sp⌉.toNat, ?_, ?_⟩
  · have hcast : (fun d => ((⌈(M d - m d + 2 * ext) / sp⌉.toNat : ℕ) : ℤ)) =
        fun d => ⌈(M d - m d + 2 * ext) / sp⌉ := by
      funext d; exact Int.toNat_of_nonneg (hceil d)
    rw [hcast]
    exact hmain
  have hcast : ∀ d, ((⌈(M d - m d + 2 * ext) / sp⌉.toNat : ℕ) : ℝ) =
      (⌈(M d - m d + 2 * ext) / sp⌉ : ℝ) := by
    intro d
    have := Int.toNat_of_nonneg (hceil d)
    exact_mod_cast congrArg (Int.cast (R := ℝ)) this
  have hsum : ∀ d, ∑ c, 0.5 * ((⌈(M c - m c + 2 * ext) / sp⌉ : ℤ) : ℝ) *
      molAxes sp (fun _ _ => 0) false c d = 0.5 * ((⌈(M d - m d + 2 * ext) / sp⌉ : ℤ) : ℝ) * sp := by
    intro d
    fin_cases d <;> simp [molAxes]
  have hbig : ∀ d, M d - m d + 2 * ext ≤ (⌈(M d - m d + 2 * ext) / sp⌉ : ℝ) * sp := by
    intro d
    have := Int.le_ceil ((M d - m d + 2 * ext) / sp)
    rwa [div_le_iff₀ hsp] at this
  have hA : ∀ d, (chargeCentre zs coords d - ∑ c, 0.5 * ((⌈(M c - m c + 2 * ext) / sp⌉ : ℤ) : ℝ) *
        molAxes sp (fun _ _ => 0) false c d) ≤ chargeCentre zs coords d - (M d - m d) / 2 - ext ∧
        chargeCentre zs coords d + (M d - m d) / 2 + ext ≤
        (chargeCentre zs coords d - ∑ c, 0.5 * ((⌈(M c - m c + 2 * ext) / sp⌉ : ℤ) : ℝ) *
        molAxes sp (fun _ _ => 0) false c d) + (⌈(M d - m d + 2 * ext) / sp⌉.toNat : ℕ) * sp := by
    intro d
    rw [hsum d, hcast d]
    have := hbig d
    constructor <;> norm_num <;> linarith
  refine ⟨hA, ?_, ?_⟩
  · intro d x hx
    have h1 := hA d
    have h2 := hcom d
    have h3 := (hMm d).2.2 x hx
    constructor <;> linarith
  · intro d x hx habs
    have h1 := hA d
    have h2 := abs_le.mp habs
    constructor <;> linarith

/-- The hypotheses of `C08_box_partial` are met, e.g. by a two-atom molecule. -/
example : Extremes [![0, 0, 0], ![10, 0, 0]] ![10, 0, 0] ![0, 0, 0] := by
  intro d; fin_cases d <;> simp

/-- **C08 is false of the code**: for an atom of charge 10 at the origin and an atom of charge 1 at
`(10,0,0)`, unit spacing and extension one, the second atom is outside the grid: every grid point
has first coordinate below 7. -/
theorem C08_not_enclosed (eigh : (Fin 3 → V3) → (Fin 3 → V3)) :
    ∃ g, fromMolecule eigh (fins [10, 1]) ([![0, 0, 0], ![10, 0, 0]].map v3) (XR.fin 1) (XR.fin 1)
        false = .ok g ∧ g.points.length = 48 ∧ ∀ p ∈ g.points, p 0 < XR.fin 7 := by
  have hE : Extremes (newCoords [![0, 0, 0], ![10, 0, 0]]
      (chargeCentre [10, 1] [![0, 0, 0], ![10, 0, 0]]) (fun _ _ => 0) false)
      ![10, 0, 0] ![0, 0, 0] := by
    intro d; fin_cases d <;> simp [newCoords]
  have h := fromMolecule_fins eigh [10, 1] [![0, 0, 0], ![10, 0, 0]] 1 1 false rfl (by simp)
    (by norm_num) one_ne_zero (fun _ _ => 0) (by simp) _ _ hE (sh 12 2 2) (by
      intro d; fin_cases d <;> simp [sh])
  refine ⟨_, h.trans (cubicGrid_sh _ _ _ _ _), by simp, ?_⟩
  intro p hp
  simp only [List.mem_map, List.mem_range] at hp
  obtain ⟨n, hn, rfl⟩ := hp
  simp only [rowDot, v3, m3, Fin.sum_univ_three, Matrix.cons_val_zero, Matrix.cons_val_one,
    Matrix.cons_val, XR.mul_fin, XR.add_fin, XR.lt_fin, molAxes, sh, chargeCentre]
  have h11 : n / (2 * 2) ≤ 11 := by omega
  have h11' : ((n / (2 * 2) : ℕ) : ℝ) ≤ 11 := by exact_mod_cast h11
  have e20 : ((2 : Fin 3) = 0) = False := by decide
  have e10 : ((1 : Fin 3) = 0) = False := by decide
  norm_num [e20, e10] at h11' ⊢
  have h12 : ((n / 4 : ℕ) : ℝ) ≤ 11 := by exact_mod_cast h11'
  linarith

/-! ### C09 -/

/-- A real matrix whose columns are orthonormal (what `np.linalg.eigh` returns). -/
def Orthonormal (v : Fin 3 → Fin 3 → ℝ) : Prop := (Matrix.of v)ᵀ * Matrix.of v = 1

/-- Inertia tensor of point charges, independent specification
`Σ_i Z_i (|x_i - c|² δ_ab - (x_i-c)_a (x_i-c)_b)`. -/
def inertiaSpec (zs : List ℝ) (coords : List (Fin 3 → ℝ)) (a b : Fin 3) : ℝ :=
  (List.zipWith (fun z (x : Fin 3 → ℝ) =>
    z * ((if a = b then ∑ c, (x c - chargeCentre zs coords c) ^ 2 else 0)
      - (x a - chargeCentre zs coords a) * (x b - chargeCentre zs coords b))) zs coords).sum

theorem inertia_fins (zs : List ℝ) (coords : List (Fin 3 → ℝ)) :
    inertia (fins zs) (coords.map v3) (v3 (chargeCentre zs coords)) = m3 (inertiaSpec zs coords) := by
  funext a b
  unfold inertia inertiaSpec m3
  rw [← sum_fins]
  congr 1
  simp only [fins, List.zipWith_map, List.map_zipWith]
  congr 1
  funext z x
  simp only [v3, XR.sub_fin, XR.mul_fin, Fin.sum_univ_three, XR.add_fin]
  have hnn : 0 ≤ (x 0 - chargeCentre zs coords 0) * (x 0 - chargeCentre zs coords 0) +
      (x 1 - chargeCentre zs coords 1) * (x 1 - chargeCentre zs coords 1) +
      (x 2 - chargeCentre zs coords 2) * (x 2 - chargeCentre zs coords 2) :=
    add_nonneg (add_nonneg (mul_self_nonneg _) (mul_self_nonneg _)) (mul_self_nonneg _)
  rw [XR.sqrt_fin_of_nonneg hnn, XR.pow_fin_two, Real.sq_sqrt hnn]
  split <;> simp only [XR.sub_fin, XR.mul_fin, XR.fin_inj]
  all_goals ring

/-- **C09_partial**.  With `rotate=True` the code diagonalises the inertia tensor of the charges and,
whatever orthonormal matrix the eigenvector routine returns, builds a grid whose three axes are
the *rows* of that matrix times the spacing, mutually orthogonal of length `spacing`, so that every
cell has volume `spacing^3`.  Missing: the axes are not the eigenvectors (which are the columns),
see `C09_axes_not_principal`. -/
theorem C09_volume_partial (eigh : (Fin 3 → V3) → (Fin 3 → V3)) (zs : List ℝ)
    (coords : List (Fin 3 → ℝ)) (sp ext : ℝ) (hlen : zs.length = coords.length)
    (hne : coords ≠ []) (hz : zs.sum ≠ 0) (hsp : 0 < sp) (hext : 0 ≤ ext)
    (v : Fin 3 → Fin 3 → ℝ) (hv : Orthonormal v)
    (heigh : eigh (m3 (inertiaSpec zs coords)) = m3 v) :
    ∃ (g : CubicGrid) (a : Fin 3 → Fin 3 → ℝ),
      fromMolecule eigh (fins zs) (coords.map v3) (XR.fin sp) (XR.fin ext) true = .ok g ∧
      g.axes = m3 a ∧ (∀ c d, a c d = sp * v c d) ∧
      (∀ c e, ∑ d, a c d * a e d = if c = e then sp ^ 2 else 0) ∧
      g.weights.length = g.points.length ∧ ∀ w ∈ g.weights, w = XR.fin (sp ^ 3) := by
  have hne' : newCoords coords (chargeCentre zs coords) v true ≠ [] := by
    simpa [newCoords] using hne
  obtain ⟨M, m, hE, -⟩ := exists_extremes _ hne'
  have hceil : ∀ d, 0 ≤ ⌈(M d - m d + 2 * ext) / sp⌉ := by
    intro d
    apply Int.ceil_nonneg
    obtain ⟨⟨x, hx, hx1⟩, _, h3⟩ := hE d
    apply div_nonneg _ hsp.le
    linarith [h3 x hx]
  have hmain := fromMolecule_fins eigh zs coords sp ext true hlen hne hz hsp.ne' v
    (by intro _; rw [inertia_fins, heigh]) M m hE (fun d => ⌈(M d - m d + 2 * ext) / sp⌉)
    (fun _ => rfl)
  have hshape : (fun d => ⌈(M d - m d + 2 * ext) / sp⌉) =
      sh ⌈(M 0 - m 0 + 2 * ext) / sp⌉.toNat ⌈(M 1 - m 1 + 2 * ext) / sp⌉.toNat
        ⌈(M 2 - m 2 + 2 * ext) / sp⌉.toNat := by
    funext d
    fin_cases d <;> simp only [sh] <;> exact (Int.toNat_of_nonneg (hceil _)).symm
  have hvv : Matrix.of v * (Matrix.of v)ᵀ = 1 := mul_eq_one_comm.mp hv
  have hdet : |(Matrix.of (molAxes sp v true)).det| = sp ^ 3 := by
    have h1 : Matrix.of (molAxes sp v true) = sp • Matrix.of v := by
      ext c d; simp [molAxes]
    rw [h1, Matrix.det_smul, Fintype.card_fin, abs_mul, abs_of_pos (by positivity : 0 < sp ^ 3)]
    have h2 : (Matrix.of v).det * (Matrix.of v).det = 1 := by
      have := congrArg Matrix.det hvv
      rwa [Matrix.det_mul, Matrix.det_transpose, Matrix.det_one] at this
    have h3 : |(Matrix.of v).det| = 1 := by
      rcases mul_self_eq_one_iff.mp h2 with h | h <;> simp [h]
    rw [h3, mul_one]
  rw [hshape] at hmain
  refine ⟨_, molAxes sp v true, hmain.trans (cubicGrid_sh _ _ _ _ _), rfl, ?_, ?_, ?_, ?_⟩
  · intro c d; simp [molAxes]
  · intro c e
    have h1 := congrFun (congrFun hvv c) e
    rw [Matrix.mul_apply, Matrix.one_apply] at h1
    simp only [Matrix.of_apply, Matrix.transpose_apply] at h1
    have h2 : ∑ d, molAxes sp v true c d * molAxes sp v true e d = sp ^ 2 * ∑ d, v c d * v e d := by
      rw [Finset.mul_sum]
      apply Finset.sum_congr rfl
      intro d _
      simp only [molAxes, if_true]; ring
    rw [h2, h1]; split <;> simp
  · simp [cubicWeights_sh]
  · intro w hw
    simp only [cubicWeights_sh, fins, List.map_replicate] at hw
    rw [List.eq_of_mem_replicate hw, hdet]

/-- The eigenvector matrix of the counterexample: columns `(2,1,0)/√5`, `(-1,2,0)/√5`, `e_z`. -/
def vWitness : Fin 3 → Fin 3 → ℝ :=
  ![![2 / Real.sqrt 5, -1 / Real.sqrt 5, 0], ![1 / Real.sqrt 5, 2 / Real.sqrt 5, 0], ![0, 0, 1]]

/-- **C09 is false of the code**: two unit charges at `±(2,1,0)`.  `vWitness` is orthonormal and its
columns are eigenvectors of the inertia tensor for the ascending eigenvalues `0, 10, 10` - a correct
result of the eigenvalue routine - yet the first axis of the grid is not an eigenvector. -/
theorem C09_axes_not_principal :
    let zs : List ℝ := [1, 1]
    let coords : List (Fin 3 → ℝ) := [![2, 1, 0], ![-2, -1, 0]]
    Orthonormal vWitness ∧
    (∀ k a, ∑ b, inertiaSpec zs coords a b * vWitness b k = (![0, 10, 10] : Fin 3 → ℝ) k * vWitness a k) ∧
    ∀ eigh : (Fin 3 → V3) → (Fin 3 → V3), eigh (m3 (inertiaSpec zs coords)) = m3 vWitness →
      ∃ g a, fromMolecule eigh (fins zs) (coords.map v3) (XR.fin 1) (XR.fin 1) true = .ok g ∧
        g.axes = m3 a ∧ ¬ ∃ l : ℝ, ∀ c, ∑ b, inertiaSpec zs coords c b * a 0 b = l * a 0 c := by
  intro zs coords
  have h5 : Real.sqrt 5 * Real.sqrt 5 = 5 := Real.mul_self_sqrt (by norm_num)
  have h5p : 0 < Real.sqrt 5 := Real.sqrt_pos.mpr (by norm_num)
  have horth : Orthonormal vWitness := by
    unfold Orthonormal
    ext a b
    rw [Matrix.mul_apply, Fin.sum_univ_three]
    fin_cases a <;> fin_cases b <;> simp [vWitness] <;> field_simp <;> nlinarith
  have hI : ∀ a b, inertiaSpec zs coords a b =
      (![![2, -4, 0], ![-4, 8, 0], ![0, 0, 10]] : Fin 3 → Fin 3 → ℝ) a b := by
    intro a b
    have p2 : (![2, 1, 0] : Fin 3 → ℝ) 2 = 0 := rfl
    have q2 : (![-2, -1, 0] : Fin 3 → ℝ) 2 = 0 := rfl
    fin_cases a <;> fin_cases b <;>
      norm_num [inertiaSpec, zs, coords, chargeCentre, Fin.sum_univ_three, p2, q2]
  refine ⟨horth, ?_, ?_⟩
  · intro k a
    simp only [hI, Fin.sum_univ_three]
    fin_cases k <;> fin_cases a <;> simp [vWitness] <;> ring
  · intro eigh he
    obtain ⟨g, a, h1, h2, h3, -⟩ := C09_volume_partial eigh zs coords 1 1 rfl (by simp [coords])
      (by norm_num [zs]) one_pos (by norm_num) vWitness horth he
    refine ⟨g, a, h1, h2, ?_⟩
    rintro ⟨l, hl⟩
    have e0 := hl 0
    have e1 := hl 1
    simp only [h3, hI, Fin.sum_univ_three] at e0 e1
    simp [vWitness] at e0 e1
    field_simp at e0 e1
    linarith

end
end BFit
