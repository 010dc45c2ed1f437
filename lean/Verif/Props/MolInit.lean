import Verif.Props.Molecular
import Verif.Props.CubicGrid
import Verif.Model.Fit

/-! Property C108: what grids and molecular models accept, and the sizes of what they return, for arbitrary
floating-point values (including infinities and nan). -/

namespace BFit

noncomputable section

/-! ### grids -/

/-- **C108** (radial grids).  A radial grid is made from exactly the 1-D arrays, everything else raises
TypeError; `len` is the number of points and `integrate` takes exactly the 1-D arrays of this length, everything
else raises ValueError. -/
theorem C108_radial (points : PyObj) :
    ((∃ a : ND XR, points = .arr a ∧ a.ndim = 1) → ∃ g, RadialGrid.mk? points = .ok g) ∧
    ((¬ ∃ a : ND XR, points = .arr a ∧ a.ndim = 1) → RadialGrid.mk? points = .error .typeError) ∧
    ∀ (a : ND XR) (g : RadialGrid), points = .arr a → RadialGrid.mk? points = .ok g →
      g.points = a.data ∧ g.len = a.data.length ∧
      ∀ b : ND XR, ((∃ v, g.integrate b = .ok v) ↔ b.shape = [g.len]) ∧
        ((∃ err, g.integrate b = .error err) ↔ g.integrate b = .error .valueError) := by
  refine ⟨?_, ?_, ?_⟩
  · rintro ⟨a, rfl, ha⟩
    exact ⟨_, by simp only [RadialGrid.mk?, ha, ne_eq, not_true_eq_false, if_false]; rfl⟩
  · intro h
    cases points with
    | arr a =>
      have ha : a.ndim ≠ 1 := fun ha => h ⟨a, rfl, ha⟩
      simp [RadialGrid.mk?, ha, raise]
    | _ => rfl
  · rintro a g rfl h
    simp only [RadialGrid.mk?, raise] at h
    split at h
    · simp at h
    · injection h with h
      subst h
      refine ⟨rfl, rfl, fun b => ?_⟩
      unfold RadialGrid.integrate RadialGrid.len raise
      split <;> simp_all

/-- **C108** (cubic grids).  A cubic grid keeps its origin and axes; its first point is the origin and the
following point on each axis is the origin plus that axis; `integrate` takes exactly the 1-D arrays with one
value per point. -/
theorem C108_cubic (o : Fin 3 → ℝ) (a : Fin 3 → Fin 3 → ℝ) (nx ny nz : ℕ) (hx : 0 < nx) (hy : 0 < ny)
    (hz : 0 < nz) :
    ∃ g, cubicGrid (v3 o) (m3 a) (sh nx ny nz) = .ok g ∧ g.origin = v3 o ∧ g.axes = m3 a ∧
      g.points[0]? = some g.origin ∧
      (1 < nz → g.points[1]? = some (fun d => g.origin d + g.axes 2 d)) ∧
      (1 < ny → g.points[nz]? = some (fun d => g.origin d + g.axes 1 d)) ∧
      (1 < nx → g.points[ny * nz]? = some (fun d => g.origin d + g.axes 0 d)) ∧
      ∀ b : ND XR, (∃ v, g.integrate b = .ok v) ↔ b.shape = [nx * ny * nz] := by
  obtain ⟨g, hg, hl, hp⟩ := C06_row_major o a nx ny nz
  have hoa : g.origin = v3 o ∧ g.axes = m3 a := by
    rw [cubicGrid_sh] at hg
    injection hg with hg
    subst hg
    exact ⟨rfl, rfl⟩
  refine ⟨g, hg, hoa.1, hoa.2, ?_, ?_, ?_, ?_, ?_⟩
  · have := hp 0 0 0 hx hy hz
    simpa [hoa.1] using this
  · intro h
    have := hp 0 0 1 hx hy h
    rw [hoa.1, hoa.2]
    simp at this
    exact this
  · intro h
    have := hp 0 1 0 hx h hz
    rw [hoa.1, hoa.2]
    simp at this
    exact this
  · intro h
    have := hp 1 0 0 h hy hz
    rw [hoa.1, hoa.2]
    simp at this
    exact this
  · intro b
    obtain ⟨g', hg', hb⟩ := C07_shape_check (v3 o) (m3 a) nx ny nz
    rw [hg] at hg'
    injection hg' with hg'
    subst hg'
    by_cases hs : b.shape = [nx * ny * nz]
    · obtain ⟨v, hv⟩ := (hb b).1 hs
      simp [hs, hv]
    · simp [hs, (hb b).2 hs]

/-! ### molecular models -/

/-- Numbers of functions on a centre that are allowed. -/
def GoodBasis (b : ℤ × ℤ) : Prop := 0 ≤ b.1 ∧ 0 ≤ b.2 ∧ b.1 + b.2 ≠ 0

theorem init_good (cols : ℕ) (rows : List (List XR)) (q : List XR) (hq : q.length = cols) (b : ℤ × ℤ)
    (norm : Bool) (hb : GoodBasis b) :
    Atomic.init (.arr (.two cols rows)) (.arr (ND.vec q)) (.int b.1) (.int b.2) norm =
      .ok ⟨.two cols rows, q, rows.map (fun x => normDiff x q), b.1, b.2, norm⟩ := by
  obtain ⟨h1, h2, h3⟩ := hb
  simp [Atomic.init, PyObj.asInt?, not_lt.2 h1, not_lt.2 h2, h3, atomCoord, ND.vec, ND.ndim, ND.size, hq,
    atomRadii]

theorem init_bad (pts : Pts) (q : List XR) (b : ℤ × ℤ) (norm : Bool) (hb : ¬ GoodBasis b) :
    Atomic.init (.arr pts) (.arr (ND.vec q)) (.int b.1) (.int b.2) norm =
      .error (if b.1 < 0 ∨ b.2 < 0 then .typeError else .valueError) := by
  unfold GoodBasis at hb
  by_cases h1 : b.1 < 0
  · simp [Atomic.init, PyObj.asInt?, h1, raise]
  by_cases h2 : b.2 < 0
  · simp [Atomic.init, PyObj.asInt?, h1, h2, raise]
  have h3 : b.1 + b.2 = 0 := by
    by_contra h
    exact hb ⟨not_lt.1 h1, not_lt.1 h2, h⟩
  simp [Atomic.init, PyObj.asInt?, h1, h2, h3, raise]

/-- The models of the centres. -/
def centresOf (cols : ℕ) (rows : List (List XR)) (norm : Bool) (coords : List (List XR))
    (basis : List (ℤ × ℤ)) : List Atomic :=
  List.zipWith (fun q b => ⟨.two cols rows, q, rows.map (fun x => normDiff x q), b.1, b.2, norm⟩) coords basis

theorem mapM_good (cols : ℕ) (rows : List (List XR)) (norm : Bool) (coords : List (List XR))
    (basis : List (ℤ × ℤ)) (hq : ∀ q ∈ coords, q.length = cols)
    (hb : ∀ b ∈ basis, GoodBasis b) :
    (List.zip coords basis).mapM (fun cb =>
      Atomic.init (.arr (.two cols rows)) (.arr (ND.vec cb.1)) (.int cb.2.1) (.int cb.2.2) norm) =
      (.ok (centresOf cols rows norm coords basis) : Py _) := by
  induction coords generalizing basis with
  | nil => rfl
  | cons q coords ih =>
    cases basis with
    | nil => rfl
    | cons b basis =>
      simp only [List.zip_cons_cons, List.mapM_cons]
      rw [init_good cols rows q (hq q (by simp)) b norm (hb b (by simp)),
        ih basis (fun q h => hq q (by simp [h])) (fun b h => hb b (by simp [h]))]
      rfl

theorem mapM_bad (cols : ℕ) (rows : List (List XR)) (norm : Bool) (coords : List (List XR))
    (pre : List (ℤ × ℤ)) (b : ℤ × ℤ) (post : List (ℤ × ℤ)) (hlen : pre.length < coords.length)
    (hq : ∀ q ∈ coords, q.length = cols) (hpre : ∀ b ∈ pre, GoodBasis b) (hb : ¬ GoodBasis b) :
    (List.zip coords (pre ++ b :: post)).mapM (fun cb =>
      Atomic.init (.arr (.two cols rows)) (.arr (ND.vec cb.1)) (.int cb.2.1) (.int cb.2.2) norm) =
      (.error (if b.1 < 0 ∨ b.2 < 0 then .typeError else .valueError) : Py _) := by
  induction pre generalizing coords with
  | nil =>
    cases coords with
    | nil => simp at hlen
    | cons q coords =>
      simp only [List.nil_append, List.zip_cons_cons, List.mapM_cons]
      rw [init_bad _ q b norm hb]
      rfl
  | cons b' pre ih =>
    cases coords with
    | nil => simp at hlen
    | cons q coords =>
      simp only [List.cons_append, List.zip_cons_cons, List.mapM_cons]
      rw [init_good cols rows q (hq q (by simp)) b' norm (hpre b' (by simp)),
        ih coords (by simpa using hlen) (fun q h => hq q (by simp [h])) (fun b h => hpre b (by simp [h]))]
      rfl

theorem split_bad (basis : List (ℤ × ℤ)) (h : ¬ ∀ b ∈ basis, GoodBasis b) :
    ∃ pre b post, basis = pre ++ b :: post ∧ (∀ b ∈ pre, GoodBasis b) ∧ ¬ GoodBasis b := by
  induction basis with
  | nil => simp at h
  | cons b basis ih =>
    by_cases hb : GoodBasis b
    · have : ¬ ∀ b ∈ basis, GoodBasis b := by
        intro h'
        apply h
        intro b' hb'
        rcases List.mem_cons.1 hb' with rfl | hb'
        · exact hb
        · exact h' b' hb'
      obtain ⟨pre, b', post, h1, h2, h3⟩ := ih this
      refine ⟨b :: pre, b', post, by rw [h1]; rfl, ?_, h3⟩
      intro c hc
      rcases List.mem_cons.1 hc with rfl | hc
      · exact hb
      · exact h2 c hc
    · exact ⟨[], b, basis, rfl, by simp, hb⟩

/-- **C108** (constructor).  For points and centres with any number of columns, the constructor of
`MolecularGaussianDensity` succeeds exactly when there is one row of `basis` per centre, points and centres have
equally many columns, and every centre has non-negative numbers of functions, not both zero.  Different
numbers of rows or columns raise ValueError; otherwise the first centre that is not accepted decides: negative
numbers raise TypeError, two zeros ValueError. -/
theorem C108_molecular (cols cols' : ℕ) (rows : List (List XR)) (coords : List (List XR))
    (hq : ∀ q ∈ coords, q.length = cols') (basis : List (ℤ × ℤ)) (norm : Bool) :
    ((∃ m, Molecular.init (.two cols rows) cols' coords basis norm = .ok m) ↔
      coords.length = basis.length ∧ cols = cols' ∧ ∀ b ∈ basis, 0 ≤ b.1 ∧ 0 ≤ b.2 ∧ b.1 + b.2 ≠ 0) ∧
    (coords.length ≠ basis.length ∨ cols ≠ cols' →
      Molecular.init (.two cols rows) cols' coords basis norm = .error .valueError) ∧
    ∀ pre b post, basis = pre ++ b :: post → coords.length = basis.length → cols = cols' →
      (∀ b ∈ pre, 0 ≤ b.1 ∧ 0 ≤ b.2 ∧ b.1 + b.2 ≠ 0) →
      (b.1 < 0 ∨ b.2 < 0 → Molecular.init (.two cols rows) cols' coords basis norm = .error .typeError) ∧
      (b = (0, 0) → Molecular.init (.two cols rows) cols' coords basis norm = .error .valueError) := by
  have hbad : ∀ pre b post, basis = pre ++ b :: post → coords.length = basis.length → cols = cols' →
      (∀ b ∈ pre, GoodBasis b) → ¬ GoodBasis b →
      Molecular.init (.two cols rows) cols' coords basis norm =
        .error (if b.1 < 0 ∨ b.2 < 0 then .typeError else .valueError) := by
    intro pre b post hbas hlen hc hpre hb
    subst hc
    unfold Molecular.init
    rw [if_neg (by simpa using hlen), if_neg (by simp [Pts.colsMismatch])]
    rw [hbas, mapM_bad cols rows norm coords pre b post (by rw [hlen, hbas]; simp) hq hpre hb]
    rfl
  have hmis : coords.length ≠ basis.length ∨ cols ≠ cols' →
      Molecular.init (.two cols rows) cols' coords basis norm = .error .valueError := by
    intro h
    unfold Molecular.init
    by_cases h1 : coords.length ≠ basis.length
    · rw [if_pos h1]; rfl
    · rw [if_neg h1, if_pos (by simpa [Pts.colsMismatch] using h.resolve_left h1)]; rfl
  refine ⟨⟨?_, ?_⟩, hmis, ?_⟩
  · rintro ⟨m, hm⟩
    by_cases h1 : coords.length ≠ basis.length ∨ cols ≠ cols'
    · rw [hmis h1] at hm; simp at hm
    push Not at h1
    refine ⟨h1.1, h1.2, ?_⟩
    by_contra hn
    obtain ⟨pre, b, post, h2, h3, h4⟩ := split_bad basis hn
    rw [hbad pre b post h2 h1.1 h1.2 h3 h4] at hm
    simp at hm
  · rintro ⟨hlen, rfl, hb⟩
    unfold Molecular.init
    rw [if_neg (by simpa using hlen), if_neg (by simp [Pts.colsMismatch]), mapM_good cols rows norm coords basis
      hq hb]
    exact ⟨_, rfl⟩
  · intro pre b post hbas hlen hc hpre
    constructor
    · intro hb
      rw [hbad pre b post hbas hlen hc hpre (by rintro ⟨h1, h2, -⟩; omega), if_pos hb]
    · rintro rfl
      rw [hbad pre _ post hbas hlen hc hpre (by rintro ⟨-, -, h⟩; simp at h), if_neg (by simp)]

/-- The derivative row of a centre has two entries per function. -/
theorem evalSRow_length (nm : Bool) (r : XR) (row c e : List XR) (n : ℕ) (hr : row.length = n)
    (hc : c.length = n) (he : e.length = n) : (evalSRow nm r row c e).2.length = 2 * n := by
  cases nm <;> simp [evalSRow, gaussRow, hr, hc, he] <;> omega

theorem evalPRow_length (nm : Bool) (r : XR) (row c e : List XR) (n : ℕ) (hr : row.length = n)
    (hc : c.length = n) (he : e.length = n) : (evalPRow nm r row c e).2.length = 2 * n := by
  cases nm
  · simp only [evalPRow, Bool.false_eq_true, not_false_eq_true, if_true]
    exact evalSRow_length _ _ _ _ _ n (by simpa using hr) hc he
  · simp [evalPRow, gaussRow, hr, hc, he]; omega

theorem evalRow_length (m : Atomic) (hs : 0 ≤ m.ns) (hp : 0 ≤ m.np) (r : XR) (c e : List XR)
    (hc : c.length = m.nbasis.toNat) (he : e.length = m.nbasis.toNat) :
    (m.evalRow r c e).2.length = 2 * m.nbasis.toNat := by
  unfold Atomic.evalRow
  simp only
  split
  · exact evalSRow_length _ _ _ _ _ _ (by simpa [gaussRow] using he) hc he
  split
  · exact evalPRow_length _ _ _ _ _ _ (by simpa [gaussRow] using he) hc he
  · obtain ⟨s, hs'⟩ := Int.eq_ofNat_of_zero_le hs
    obtain ⟨p, hp'⟩ := Int.eq_ofNat_of_zero_le hp
    have hn : m.nbasis.toNat = s + p := by unfold Atomic.nbasis; omega
    rw [hn] at hc he ⊢
    have h1 := evalSRow_length m.normalized r (sliceTo (gaussRow r e) m.ns) (sliceTo c m.ns) (sliceTo e m.ns) s
      (by simp [sliceTo, hs', gaussRow, he]) (by simp [sliceTo, hs', hc]) (by simp [sliceTo, hs', he])
    have h2 := evalPRow_length m.normalized r (sliceFrom (gaussRow r e) m.ns) (sliceFrom c m.ns)
      (sliceFrom e m.ns) p
      (by simp [sliceFrom, hs', gaussRow, he]) (by simp [sliceFrom, hs', hc]) (by simp [sliceFrom, hs', he])
    simp only [List.length_append]
    have t : ∀ (l : List XR) (k : ℕ), (sliceTo l (k : ℤ)).length = min k l.length := by
      intro l k; simp [sliceTo]
    have t' : ∀ (l : List XR) (k : ℕ), (sliceFrom l (k : ℤ)).length = l.length - k := by
      intro l k; simp [sliceFrom]
    have t1 : ∀ l : List XR, (sliceTo l m.ns).length = min s l.length := by
      intro l; rw [hs']; exact t l s
    have t2 : ∀ l : List XR, (sliceTo l m.np).length = min p l.length := by
      intro l; rw [hp']; exact t l p
    have t3 : ∀ l : List XR, (sliceFrom l m.ns).length = l.length - s := by
      intro l; rw [hs']; exact t' l s
    have t4 : ∀ l : List XR, (sliceFrom l m.np).length = l.length - p := by
      intro l; rw [hp']; exact t' l p
    rw [t1, t2, t3, t4, h1, h2]
    omega

theorem setSlice_length (row v : List XR) (k : ℕ) (h : k + v.length ≤ row.length) :
    (setSlice row k v).length = row.length := by
  simp only [setSlice, List.length_append, List.length_take, List.length_drop]
  omega

/-- The loop over the centres. -/
theorem fold_sizes (L n : ℕ) (C E : List XR) (deriv : Bool) (ms : List Atomic)
    (hms : ∀ m ∈ ms, m.radii.length = L ∧ 0 ≤ m.ns ∧ 0 ≤ m.np) (count : ℕ)
    (hn : count + (ms.map fun m => m.nbasis.toNat).sum = n) (hC : C.length = n) (hE : E.length = n)
    (g : List XR) (dg : List (List XR)) (hg : g.length = L) (hdg : dg.length = L)
    (hrow : ∀ row ∈ dg, row.length = 2 * n) :
    ∃ g' dg' k, ms.foldlM (Molecular.addCenter n C E deriv) (g, dg, count) = (.ok (g', dg', k) : Py _) ∧
      g'.length = L ∧ dg'.length = L ∧ ∀ row ∈ dg', row.length = 2 * n := by
  induction ms generalizing count g dg with
  | nil => exact ⟨g, dg, count, rfl, hg, hdg, hrow⟩
  | cons m ms ih =>
    obtain ⟨hr, hs, hp⟩ := hms m (by simp)
    simp only [List.map_cons, List.sum_cons] at hn
    have hnb : (m.nbasis.toNat : ℤ) = m.nbasis := by unfold Atomic.nbasis; omega
    set nb := m.nbasis.toNat with hnbdef
    have hcs : ((C.drop count).take nb).length = nb := by simp [hC]; omega
    have hes : ((E.drop count).take nb).length = nb := by simp [hE]; omega
    have hev : m.evaluate (ND.vec ((C.drop count).take nb)) (ND.vec ((E.drop count).take nb)) deriv =
        .ok (m.radii.map fun r => (m.evalRow r ((C.drop count).take nb) ((E.drop count).take nb)).1,
          if deriv then some (m.radii.map fun r =>
            (m.evalRow r ((C.drop count).take nb) ((E.drop count).take nb)).2) else none) := by
      unfold Atomic.evaluate
      rw [if_neg (by simp [ND.ndim, ND.vec]), if_neg (by simp only [ND.size, ND.vec]; rw [hcs, hes]; simp),
        if_neg (by simp only [ND.size, ND.vec]; rw [hcs, hnb]; simp)]
      simp [ND.vec, Function.comp_def]
    have hstep : ∃ dg1, Molecular.addCenter n C E deriv (g, dg, count) m =
        (.ok (List.zipWith (· + ·) g
          (m.radii.map fun r => (m.evalRow r ((C.drop count).take nb) ((E.drop count).take nb)).1),
          dg1, count + nb) : Py _) ∧ dg1.length = L ∧ ∀ row ∈ dg1, row.length = 2 * n := by
      unfold Molecular.addCenter
      simp only [← hnbdef, hev]
      cases deriv
      · refine ⟨dg, ?_, hdg, hrow⟩
        simp [bind, Except.bind, pure, Except.pure, hr, hg]
      · refine ⟨List.zipWith (fun row drow =>
          setSlice (setSlice row count (drow.take nb)) (n + count) (drow.drop nb)) dg
            (m.radii.map fun r => (m.evalRow r ((C.drop count).take nb) ((E.drop count).take nb)).2), ?_, ?_, ?_⟩
        · simp [bind, Except.bind, pure, Except.pure, hr, hg]
        · simp [hdg, hr]
        · intro row hrow'
          rw [List.mem_iff_getElem] at hrow'
          obtain ⟨i, hi, rfl⟩ := hrow'
          simp only [List.getElem_zipWith, List.getElem_map]
          have hd := evalRow_length m hs hp (m.radii[i]'(by simp at hi; omega))
            ((C.drop count).take nb) ((E.drop count).take nb) hcs hes
          have hrl := hrow (dg[i]'(by simp at hi; omega)) (List.getElem_mem _)
          rw [← hnbdef] at hd
          have h1 : (setSlice (dg[i]'(by simp at hi; omega)) count
              ((m.evalRow (m.radii[i]'(by simp at hi; omega)) ((C.drop count).take nb)
                ((E.drop count).take nb)).2.take nb)).length = 2 * n := by
            rw [setSlice_length _ _ _ (by rw [hrl, List.length_take, hd]; omega), hrl]
          rw [setSlice_length _ _ _ (by rw [h1, List.length_drop, hd]; omega), h1]
    obtain ⟨dg1, h1, h2, h3⟩ := hstep
    obtain ⟨g', dg', k, h4, h5⟩ := ih (fun m hm => hms m (by simp [hm])) (count + nb) (by omega)
      (List.zipWith (· + ·) g
        (m.radii.map fun r => (m.evalRow r ((C.drop count).take nb) ((E.drop count).take nb)).1)) dg1
      (by simp [hg, hr]) h2 h3
    refine ⟨g', dg', k, ?_, h5⟩
    rw [List.foldlM_cons, h1]
    exact h4

/-- **C108** (sizes).  A molecular model on points in space has as many atoms as centres were given, one row of
distances per centre with one distance per point, as many functions as the sum of `basis` and one entry of
`prefactor` per function.  `evaluate` takes exactly 1-D arrays with one coefficient and one exponent per
function, whatever the values, and raises ValueError otherwise; it returns one value per point and, with
`deriv=True`, one row per point with two columns per function. -/
theorem C108_sizes (cols : ℕ) (rows : List (List XR)) (coords : List (List XR))
    (hq : ∀ q ∈ coords, q.length = cols) (basis : List (ℤ × ℤ)) (norm : Bool) (m : Molecular)
    (hm : Molecular.init (.two cols rows) cols coords basis norm = .ok m) :
    (GModel.mol m).natoms = coords.length ∧ (GModel.mol m).nbasis = (basis.map fun b => b.1 + b.2).sum ∧
    m.radii.length = coords.length ∧ (∀ row ∈ m.radii, row.length = rows.length) ∧
    (m.prefactor.length : ℤ) = (GModel.mol m).nbasis ∧
    ∀ (c e : ND XR) (deriv : Bool),
      ((¬ (c.ndim = 1 ∧ e.ndim = 1 ∧ (c.size : ℤ) = m.nbasis ∧ (e.size : ℤ) = m.nbasis)) →
        m.evaluate c e deriv = .error .valueError) ∧
      (c.ndim = 1 ∧ e.ndim = 1 ∧ (c.size : ℤ) = m.nbasis ∧ (e.size : ℤ) = m.nbasis →
        ∃ g dg, m.evaluate c e deriv = .ok (g, dg) ∧ g.length = rows.length ∧ (deriv = false → dg = none) ∧
          (deriv = true → ∃ d, dg = some d ∧ d.length = rows.length ∧
            ∀ row ∈ d, (row.length : ℤ) = 2 * m.nbasis)) := by
  obtain ⟨hlen, -, hb⟩ := (C108_molecular cols cols rows coords hq basis norm).1.1 ⟨m, hm⟩
  have hm' : m = ⟨.two cols rows, basis, centresOf cols rows norm coords basis⟩ := by
    unfold Molecular.init at hm
    rw [if_neg (by simpa using hlen), if_neg (by simp [Pts.colsMismatch]), mapM_good cols rows norm coords basis
      hq hb] at hm
    injection hm with hm
    exact hm.symm
  subst hm'
  have hcen : ∀ a ∈ centresOf cols rows norm coords basis, a.radii.length = rows.length ∧ 0 ≤ a.ns ∧ 0 ≤ a.np := by
    intro a ha
    rw [List.mem_iff_getElem] at ha
    obtain ⟨i, hi, rfl⟩ := ha
    simp only [centresOf, List.getElem_zipWith, List.length_map, true_and]
    have hi' : i < basis.length := by simp [centresOf] at hi; omega
    exact ⟨(hb _ (List.getElem_mem hi')).1, (hb _ (List.getElem_mem hi')).2.1⟩
  have hsum : ((((centresOf cols rows norm coords basis).map fun a => a.nbasis.toNat).sum : ℕ) : ℤ) =
      (basis.map fun b => b.1 + b.2).sum ∧
      (((centresOf cols rows norm coords basis).map Atomic.prefactor).flatten.length : ℤ) =
      (basis.map fun b => b.1 + b.2).sum := by
    clear hm hcen hq
    induction coords generalizing basis with
    | nil =>
      have : basis = [] := by cases basis <;> simp_all
      subst this
      simp [centresOf]
    | cons q coords ih =>
      cases basis with
      | nil => simp at hlen
      | cons b basis =>
        obtain ⟨i1, i2⟩ := ih basis (by simpa using hlen) (fun b h => hb b (by simp [h]))
        obtain ⟨h1, h2, -⟩ := hb b (by simp)
        unfold centresOf Atomic.nbasis at i1
        unfold centresOf at i2 ⊢
        simp only [List.zipWith_cons_cons, List.map_cons, List.sum_cons, Nat.cast_add, List.flatten_cons,
          List.length_append, i1, i2, Atomic.prefactor, Atomic.nbasis, List.length_replicate]
        constructor <;> omega
  refine ⟨hlen.symm, rfl, by simp [Molecular.radii, centresOf, hlen], ?_, hsum.2, ?_⟩
  · intro row hrow
    simp only [Molecular.radii, List.mem_map] at hrow
    obtain ⟨a, ha, rfl⟩ := hrow
    exact (hcen a ha).1
  · intro c e deriv
    constructor
    · intro h
      unfold Molecular.evaluate raise
      by_cases h1 : c.ndim ≠ 1 ∨ e.ndim ≠ 1
      · rw [if_pos h1]
      · rw [if_neg h1, if_pos]
        push Not at h1
        by_contra h2
        push Not at h2
        exact h ⟨h1.1, h1.2, h2.1, h2.2⟩
    · rintro ⟨h1, h2, h3, h4⟩
      set M : Molecular := ⟨.two cols rows, basis, centresOf cols rows norm coords basis⟩ with hM
      have hnb : M.nbasis = (basis.map fun b => b.1 + b.2).sum := rfl
      have hn : 0 + ((centresOf cols rows norm coords basis).map fun a => a.nbasis.toNat).sum = M.nbasis.toNat := by
        have := hsum.1; omega
      have hnn : (M.nbasis.toNat : ℤ) = M.nbasis := by
        have := hsum.1; omega
      obtain ⟨g', dg', k, h5, h6, h7, h8⟩ := fold_sizes rows.length M.nbasis.toNat c.data e.data deriv
        (centresOf cols rows norm coords basis) hcen 0 hn
        (by unfold ND.size at h3; omega) (by unfold ND.size at h4; omega)
        (List.replicate rows.length (XR.fin 0))
        (List.replicate rows.length (List.replicate (2 * M.nbasis.toNat) (XR.fin 0)))
        (by simp) (by simp) (by intro row hrow; rw [List.eq_of_mem_replicate hrow]; simp)
      refine ⟨g', if deriv then some dg' else none, ?_, h6, by rintro rfl; rfl, ?_⟩
      · unfold Molecular.evaluate
        rw [if_neg (by simp [h1, h2]), if_neg (by simp [h3, h4])]
        have : M.centers.foldlM (Molecular.addCenter M.nbasis.toNat c.data e.data deriv)
            (List.replicate M.points.len (XR.fin 0),
              List.replicate M.points.len (List.replicate (2 * M.nbasis.toNat) (XR.fin 0)), 0) =
            (.ok (g', dg', k) : Py _) := h5
        simp only [this, bind, Except.bind, pure, Except.pure]
      · rintro rfl
        refine ⟨dg', rfl, h7, ?_⟩
        intro row hrow
        have := h8 row hrow
        omega

/-- Example: two centres in space. -/
example : ∃ m, Molecular.init (.two 1 [fins [0], [XR.nan]]) 1 [fins [0], fins [1]] [(1, 0), (1, 2)] false = .ok m ∧
    (GModel.mol m).natoms = 2 ∧ (GModel.mol m).nbasis = 4 ∧
    ∃ g dg, m.evaluate (ND.vec [XR.nan, XR.fin 1, XR.fin 2, XR.pinf]) (ND.vec (fins [1, 2, 3, -4])) true =
      .ok (g, some dg) ∧ g.length = 2 ∧ ∀ row ∈ dg, row.length = 8 := by
  have hq : ∀ q ∈ [fins [0], fins [1]], q.length = 1 := by simp
  obtain ⟨m, hm⟩ := (C108_molecular 1 1 [fins [0], [XR.nan]] [fins [0], fins [1]] hq [(1, 0), (1, 2)] false).1.2
    ⟨rfl, rfl, by simp⟩
  obtain ⟨h1, h2, -, -, -, h3⟩ := C108_sizes 1 _ _ hq _ false m hm
  have hnb : m.nbasis = 4 := h2.trans (by norm_num)
  obtain ⟨g, dg, h4, h5, -, h6⟩ := (h3 (ND.vec [XR.nan, XR.fin 1, XR.fin 2, XR.pinf])
    (ND.vec (fins [1, 2, 3, -4])) true).2 ⟨rfl, rfl, by rw [hnb]; rfl, by rw [hnb]; rfl⟩
  obtain ⟨d, rfl, -, h7⟩ := h6 rfl
  refine ⟨m, hm, h1, h2.trans (by norm_num), g, d, h4, h5, fun row hrow => ?_⟩
  have := h7 row hrow
  omega

/-- Example: a negative number after an accepted centre. -/
example : Molecular.init (.two 1 [fins [0]]) 1 [fins [0], fins [1]] [(1, 0), (-1, 2)] false = .error .typeError :=
  ((C108_molecular 1 1 [fins [0]] [fins [0], fins [1]] (by simp) [(1, 0), (-1, 2)] false).2.2 [(1, 0)] (-1, 2) []
    rfl rfl rfl (by simp)).1 (by simp)

end
end BFit
