import Verif.Model.Tables
import Verif.Props.DensityZeros
import Verif.Props.UgbsData
import Verif.Props.Fits
import Verif.Props.Config

/-! Property C128: the scripts for the tables complete. -/

namespace BFit

open Real Classical

noncomputable section

/-! ### Objects -/

theorem allOrbs_find {o : Orb} (h : o.valid) : (allOrbs.find? fun a => decide (a.label = o.label)) = some o := by
  cases hf : allOrbs.find? fun a => decide (a.label = o.label) with
  | none =>
    have := List.find?_eq_none.mp hf o ((mem_allOrbs o).mpr h)
    simp at this
  | some a =>
    have h1 := List.find?_some hf
    have h2 := List.mem_of_find?_eq_some hf
    rw [Orb.label_inj ((mem_allOrbs a).mp h2) h (by simpa using h1)]

theorem attrs_stores {R : RawAtom} (h : ∃ A, Stores R A) : Stores R R.attrs := by
  obtain ⟨A, hA⟩ := h
  have ho : R.attrs.orbitals = A.orbitals := by
    unfold RawAtom.attrs
    simp only
    rw [hA.orbitals, List.filterMap_map]
    have hv := hA.valid
    generalize A.orbitals = os at hv
    induction os with
    | nil => rfl
    | cons o os ih =>
      rw [List.filterMap_cons]
      simp only [Function.comp_apply, allOrbs_find (hv o (by simp))]
      exact congrArg (o :: ·) (ih fun a ha => hv a (List.mem_cons_of_mem _ ha))
  refine ⟨by rw [ho]; exact hA.orbitals, by rw [ho]; exact hA.valid, fun _ => rfl, fun s => ?_, fun _ _ => rfl, rfl, rfl⟩
  rw [← hA.nums s]
  unfold RawAtom.attrs
  simp only
  rw [← hA.nums s]
  cases A.nums s with
  | none => rfl
  | some l => simp [Function.comp_def]

/-! ### Integrals -/

theorem sphIntegrate_fins (x : List ℝ) (u : ℝ → ℝ) :
    sphIntegrate ⟨fins x⟩ (fins (x.map u)) =
      .ok (XR.fin (∑ i ∈ Finset.range x.length, radW x true i * u (vec x i))) := by
  have e1 : (fins x).map (fun r => XR.fin 4 * XR.fin π * XR.pow r 2) = fins (x.map fun r => 4 * π * r ^ 2) := by
    simp [fins]
  unfold sphIntegrate bcast
  simp only [e1]
  rw [if_pos (by simp), zipWith_fins (g := fun a b => a * b) (by simp)]
  simp only
  have e2 : List.zipWith (fun a b => a * b) (x.map u) (x.map fun r => 4 * π * r ^ 2) =
      x.map fun r => u r * (4 * π * r ^ 2) := by
    induction x with
    | nil => rfl
    | cons a l ih => simp [ih]
  rw [e2]
  have h := (hasWeights_radial x).2 (x.map fun r => u r * (4 * π * r ^ 2)) (by simp [trapW_length])
  have h' : (RadialGrid.mk (fins x)).integrate (ND.vec (fins (x.map fun r => u r * (4 * π * r ^ 2)))) = _ := h
  rw [h']
  congr 2
  rw [wsum_eq_range_sum _ _ (by simp [trapW_length]), trapW_length]
  refine Finset.sum_congr rfl fun i hi => ?_
  have hi := Finset.mem_range.mp hi
  have : (x.map fun r => u r * (4 * π * r ^ 2)).getD i 0 = u (vec x i) * (4 * π * vec x i ^ 2) := by
    simp [vec, List.getD_eq_getElem?_getD, hi]
  rw [this]
  simp only [radW, sphW, vec, if_true]
  ring

theorem sphIntegrate_ok (x : List ℝ) {l : List XR} (h : l.length = x.length) : ∃ v, sphIntegrate ⟨fins x⟩ l = .ok v := by
  unfold sphIntegrate bcast
  rw [if_pos (by simp [h])]
  simp only [RadialGrid.integrate]
  rw [if_neg (by simp [ND.vec, h])]
  exact ⟨_, rfl⟩

/-- The trapezoid weights add up to the length of the interval. -/
theorem trapWAux_sum (k : ℝ) (a : ℝ) (l : List ℝ) : (trapWAux k (a :: l)).sum = k + ((a :: l).getLast (by simp) - a) := by
  induction l generalizing k a with
  | nil => simp [trapWAux]
  | cons b l ih =>
    rw [trapWAux, List.sum_cons, ih, List.getLast_cons (a := a) (l := b :: l) (by simp)]
    ring

theorem radW_sum_le {x : List ℝ} (hx : x.Pairwise (· ≤ ·)) {B : ℝ} (hB : ∀ r ∈ x, 0 ≤ r ∧ r ≤ B) (hne : x ≠ []) :
    ∑ i ∈ Finset.range x.length, radW x true i ≤ 4 * π * B ^ 3 := by
  have hB0 : 0 ≤ B := by
    obtain ⟨a, ha⟩ := List.exists_mem_of_ne_nil x hne
    exact (hB a ha).1.trans (hB a ha).2
  have h1 : ∀ i ∈ Finset.range x.length, radW x true i ≤ vec (trapW x) i * (4 * π * B ^ 2) := by
    intro i hi
    have hi := Finset.mem_range.mp hi
    simp only [radW, sphW, if_true]
    refine mul_le_mul_of_nonneg_left ?_ (vec_nonneg (trapW_nonneg x hx) i)
    have hm : vec x i ∈ x := by simp [vec, List.getD_eq_getElem?_getD, hi]
    obtain ⟨h0, h2⟩ := hB _ hm
    have := pi_pos
    gcongr
  refine (Finset.sum_le_sum h1).trans ?_
  rw [← Finset.sum_mul]
  have h2 : ∑ i ∈ Finset.range x.length, vec (trapW x) i = (trapW x).sum := by
    have := wsum_eq_range_sum (trapW x) ((trapW x).map fun _ => (1 : ℝ)) (by simp)
    rw [trapW_length] at this
    have e : wsum (trapW x) ((trapW x).map fun _ => (1 : ℝ)) = (trapW x).sum := by
      generalize trapW x = l
      induction l with
      | nil => simp
      | cons a l ih => rw [List.map_cons, wsum_cons, ih]; simp
    rw [← e, this]
    refine Finset.sum_congr rfl fun i hi => ?_
    have hi := Finset.mem_range.mp hi
    simp [vec, List.getD_eq_getElem?_getD, trapW_length, hi]
  have h3 : (trapW x).sum ≤ B := by
    cases x with
    | nil => exact absurd rfl hne
    | cons a l =>
      rw [trapW, trapWAux_sum]
      have h4 := (hB _ (List.getLast_mem (l := a :: l) (by simp))).2
      have h5 := (hB a (by simp)).1
      linarith
  rw [h2]
  have : 0 ≤ 4 * π * B ^ 2 := by have := pi_pos; positivity
  nlinarith

/-! ### Fits with positive starting values -/

/-- A fit on a radial grid that makes at least one update: the last entry of `performance`. -/
theorem radial_run {pts : List ℝ} (hp : pts.Pairwise (· ≤ ·)) {t : ℝ → ℝ} (ht : ∀ r, 0 ≤ t r)
    (hi : ∃ i < pts.length, vec pts i ≠ 0 ∧ 0 < radW pts true i ∧ 0 < t (vec pts i))
    (ns np : ℕ) (hsp : ns + np ≠ 0) (μ : ℝ) (T : Option ℝ) (hT : ∀ a, T = some a → 0 < a)
    (c e : List ℝ) (hc : c.length = ns + np) (he : e.length = ns + np) (hcp : ∀ a ∈ c, 0 < a) (hep : ∀ a ∈ e, 0 < a)
    (o : FPIOpts) (ho : o.optCoeffs = true) (hm : 1 ≤ o.maxiter) (h1 : ∃ a : ℝ, o.eThr = XR.fin a)
    (h2 : ∃ a : ℝ, o.dThr = XR.fin a) :
    ∃ m F I J r c' e' p, Atomic.init (.arr (.one (fins pts))) .none (.int ns) (.int np) true = .ok m ∧
      FPI.init (.radial ⟨fins pts⟩) (fins (pts.map t)) (.atom m) (XR.fin μ) (T.map XR.fin) true = .ok F ∧
      integrateOn (.radial ⟨fins pts⟩) true (fins (pts.map t)) = .ok (XR.fin I) ∧ 0 < I ∧
      integrateOn (.radial ⟨fins pts⟩) true (fins (pts.map fun r => max (t r) μ)) = .ok (XR.fin J) ∧
      F.run (.arr (ND.vec (fins c))) (.arr (ND.vec (fins e))) o = .ok r ∧
      r.coeffs = fins c' ∧ r.exps = fins e' ∧ c'.length = ns + np ∧ e'.length = ns + np ∧
      (∀ a ∈ c', 0 < a) ∧ (∀ a ∈ e', 0 < a) ∧ c'.sum ≤ T.getD I * (J / I) ∧
      r.performance.getLast? = some p ∧ F.goodness r.coeffs r.exps = .ok p ∧
      (∃ v a b d : ℝ, p.integral = XR.fin v ∧ 0 ≤ v ∧ p.l1 = XR.fin a ∧ 0 ≤ a ∧ p.linf = XR.fin b ∧ 0 ≤ b ∧
        p.ls = XR.fin d ∧ 0 ≤ d) ∧
      ((∀ r ∈ pts, 0 < t r) → ∃ k : ℝ, p.kl = XR.fin k) := by
  obtain ⟨m, F, I, J, q1, q2, q3, q4, q5, q6, q7, q8⟩ := radial_fit_masked hp ht hi ns np hsp μ T hT
  obtain ⟨r, c', e', r1, r2, r3, r4, r5, r6, r7, r8⟩ := q8 o (.inl ho) c e hc he hcp hep
  obtain ⟨a1, h1⟩ := h1
  obtain ⟨a2, h2⟩ := h2
  have hne := run_updates r1 hm h1 h2
  have hW : ∀ i < pts.length, 0 ≤ radW pts true i := fun i _ => radW_nonneg hp true i
  have hTp : 0 < T.getD I := by
    cases T with
    | none => exact q4
    | some a => exact hT a rfl
  obtain ⟨r', n, cs, es, k1, -, k3, k4⟩ := C39_total q6 hW hTp q7 o (.inl ho) c e
    ⟨hc, he, fun a ha => (hcp a ha).le, hep⟩
  rw [r1] at k1
  simp only [Except.ok.injEq] at k1
  subst k1
  have hn : 0 < r.performance.length := List.length_pos_of_ne_nil hne
  have hlen := k3.len
  have hperf := k3.perf (n - 1) (by omega)
  simp only [show n - 1 + 1 = n by omega] at hperf
  have hgood : F.goodness r.coeffs r.exps = .ok (r.performance[n - 1]'(by omega)) := by
    have := k3.last
    simp only [Prod.mk.injEq] at this
    rw [← this.1, ← this.2]
    exact hperf
  have hg := k4 n le_rfl
  obtain ⟨M, kl, g1, ⟨i, hi', g2⟩, -, g4⟩ := goodness_fins q6.data (by
    have hnb := q6.data.model.nb_pos
    exact q7.pos hnb) (cs n) (es n) hg.clen hg.elen fun _ a ha => (hg.epos a ha).le
  rw [g1] at hperf
  simp only [Except.ok.injEq] at hperf
  have hdn : ∀ i, 0 ≤ (atomShape (pts.map fun x => |x|) ns np).dens true (vec (cs n)) (vec (es n)) i := fun i =>
    dens_nonneg (vec_of_mem hg.clen hg.cnn) (fun k hk => (vec_of_mem hg.elen hg.epos k hk).le) i
  refine ⟨m, F, I, J, r, c', e', r.performance[n - 1]'(by omega), q1, q2, q3, q4, q5, r1, r2, r3, r4, r5, r6, r7,
    r8 ho hne, ?_, hgood, ?_, ?_⟩
  · rw [List.getLast?_eq_getElem?, List.getElem?_eq_getElem (by omega)]
    congr 2
    omega
  · rw [← hperf]
    refine ⟨_, _, _, _, rfl, ?_, rfl, ?_, rfl, ?_, rfl, ?_⟩
    · exact Finset.sum_nonneg fun i hi => mul_nonneg (hW i (Finset.mem_range.mp hi)) (hdn i)
    · exact Finset.sum_nonneg fun i hi => mul_nonneg (hW i (Finset.mem_range.mp hi)) (abs_nonneg _)
    · rw [← g2]; exact abs_nonneg _
    · exact Finset.sum_nonneg fun i hi => mul_nonneg (hW i (Finset.mem_range.mp hi)) (sq_nonneg _)
  · intro hpos
    rw [← hperf]
    refine ⟨_, g4 μ q6.mask (fun i hi => hpos _ ?_) fun i _ => hdn i⟩
    simp [vec, List.getD_eq_getElem?_getD, hi]

/-- The integral of the masked density exceeds that of the density by little. -/
theorem masked_le {pts : List ℝ} (hp : pts.Pairwise (· ≤ ·)) {B : ℝ} (hB : ∀ r ∈ pts, 0 ≤ r ∧ r ≤ B) (hne : pts ≠ [])
    {t : ℝ → ℝ} (ht : ∀ r, 0 ≤ t r) {μ : ℝ} (hμ : 0 ≤ μ) {I J : ℝ}
    (hI : integrateOn (.radial ⟨fins pts⟩) true (fins (pts.map t)) = .ok (XR.fin I))
    (hJ : integrateOn (.radial ⟨fins pts⟩) true (fins (pts.map fun r => max (t r) μ)) = .ok (XR.fin J)) :
    J ≤ I + μ * (4 * π * B ^ 3) := by
  have hq := radW_quad pts true
  have e : ∀ u : ℝ → ℝ, fins (pts.map u) = fins (tab pts.length fun i => u (vec pts i)) := fun u => by
    rw [tab_map]
  rw [e, hq.fin] at hI
  rw [e, hq.fin] at hJ
  simp only [Except.ok.injEq, XR.fin.injEq] at hI hJ
  rw [← hI, ← hJ]
  have h1 : ∀ i ∈ Finset.range pts.length, radW pts true i * max (t (vec pts i)) μ ≤
      radW pts true i * t (vec pts i) + μ * radW pts true i := by
    intro i _
    have h2 := radW_nonneg hp true i
    have h3 : max (t (vec pts i)) μ ≤ t (vec pts i) + μ := max_le (by linarith) (by linarith [ht (vec pts i)])
    nlinarith
  refine (Finset.sum_le_sum h1).trans ?_
  rw [Finset.sum_add_distrib, ← Finset.mul_sum]
  have := mul_le_mul_of_nonneg_left (radW_sum_le hp hB hne) hμ
  linarith

/-- The relative errors of a fit whose errors are finite. -/
theorem relativeErrors_ok {pts : List ℝ} (hp : pts.Pairwise (· ≤ ·)) {t : ℝ → ℝ} (ht : ∀ r, 0 ≤ t r)
    (hi : ∃ i < pts.length, vec pts i ≠ 0 ∧ 0 < radW pts true i ∧ 0 < t (vec pts i)) {p : Perf} {a b d : ℝ}
    (ha : p.l1 = XR.fin a) (hb : p.linf = XR.fin b) (hd : p.ls = XR.fin d) (ha0 : 0 ≤ a) (hb0 : 0 ≤ b) (hd0 : 0 ≤ d) :
    ∃ (l1 linf ls I M I2 : ℝ) (kl : XR), relativeErrors ⟨fins pts⟩ (fins (pts.map t)) p =
      .ok (XR.fin l1, XR.fin linf, XR.fin ls, kl) ∧ 0 ≤ l1 ∧ 0 ≤ linf ∧ 0 ≤ ls ∧
      integrateOn (.radial ⟨fins pts⟩) true (fins (pts.map t)) = .ok (XR.fin I) ∧ a = l1 * I ∧
      M ∈ pts.map t ∧ (∀ y ∈ pts.map t, y ≤ M) ∧ b = linf * M ∧
      integrateOn (.radial ⟨fins pts⟩) true (fins ((pts.map t).map fun y => y ^ 2)) = .ok (XR.fin I2) ∧ 0 < I2 ∧
      d = ls * I2 := by
  obtain ⟨i, hil, -, hw, hti⟩ := hi
  have hpos : ∀ u : ℝ → ℝ, (∀ r, 0 ≤ u r) → 0 < u (vec pts i) →
      0 < ∑ i ∈ Finset.range pts.length, radW pts true i * u (vec pts i) := fun u hu hui =>
    Finset.sum_pos' (fun k _ => mul_nonneg (radW_nonneg hp true k) (hu _))
      ⟨i, Finset.mem_range.mpr hil, mul_pos hw hui⟩
  have hne : pts.map t ≠ [] := by
    intro h
    have := congrArg List.length h
    simp at this
    simp [this] at hil
  obtain ⟨M, hMm, hM, hMx⟩ := npMax_fins hne
  have hM0 : 0 < M := lt_of_lt_of_le hti (hMx _ (by
    refine List.mem_map.mpr ⟨vec pts i, ?_, rfl⟩
    simp [vec, List.getD_eq_getElem?_getD, hil]))
  have e2 : (fins (pts.map t)).map (fun y => XR.pow y 2) = fins (pts.map fun r => t r ^ 2) := by
    simp [fins]
  obtain ⟨v, hv⟩ := sphIntegrate_ok pts (l := (fins (pts.map t)).map fun y => y * XR.log y) (by simp)
  have p1 := hpos t ht hti
  have p2 := hpos (fun r => t r ^ 2) (fun r => sq_nonneg _) (by positivity)
  have hq := radW_quad pts true
  have e : ∀ u : ℝ → ℝ, integrateOn (.radial ⟨fins pts⟩) true (fins (pts.map u)) =
      .ok (XR.fin (∑ i ∈ Finset.range pts.length, radW pts true i * u (vec pts i))) := fun u => by
    rw [← tab_map, hq.fin]
  refine ⟨a / _, b / M, d / _, _, M, _, p.kl / v, ?_, div_nonneg ha0 p1.le, div_nonneg hb0 hM0.le, div_nonneg hd0 p2.le,
    e t, (div_mul_cancel₀ a p1.ne').symm, hMm, hMx, (div_mul_cancel₀ b hM0.ne').symm, ?_, p2,
    (div_mul_cancel₀ d p2.ne').symm⟩
  rotate_left
  · rw [List.map_map]
    exact e fun r => t r ^ 2
  unfold relativeErrors
  rw [sphIntegrate_fins]
  simp only
  rw [hM, e2, sphIntegrate_fins]
  simp only
  rw [hv]
  simp only
  rw [ha, hb, hd, XR.div_fin_of_ne _ p1.ne', XR.div_fin_of_ne _ hM0.ne', XR.div_fin_of_ne _ p2.ne']

/-- The part of the script after the data has been read. -/
theorem table12Fit_ok {pts : List ℝ} (hp : pts.Pairwise (· ≤ ·)) (hB : ∀ r ∈ pts, 0 ≤ r ∧ r ≤ 100) {t : ℝ → ℝ}
    (ht : ∀ r, 0 ≤ t r) (hi : ∃ i < pts.length, vec pts i ≠ 0 ∧ 0 < radW pts true i ∧ 0 < t (vec pts i))
    {A : SlaterAtom} (hA : A.atomicDensity (ND.vec (fins pts)) "total" = .ok (fins (pts.map t)))
    (ns np : ℕ) (hsp : ns + np ≠ 0) (z : ℤ) (hz : 0 < z) (c e : List ℝ) (hc : c.length = ns + np)
    (he : e.length = ns + np) (hcp : ∀ a ∈ c, 0 < a) (hep : ∀ a ∈ e, 0 < a) :
    ∃ row c' e' I m F, table12Fit ⟨fins pts⟩ ns np (fins c) (fins e) A z = .ok row ∧ row.coeffs = fins c' ∧
      row.exps = fins e' ∧ c'.length = ns + np ∧ e'.length = ns + np ∧ (∀ a ∈ c', 0 < a) ∧ (∀ a ∈ e', 0 < a) ∧
      integrateOn (.radial ⟨fins pts⟩) true (fins (pts.map t)) = .ok (XR.fin I) ∧ 0 < I ∧
      c'.sum ≤ z * (1 + 1.3e-11 / I) ∧ Atomic.init (.arr (.one (fins pts))) .none (.int ns) (.int np) true = .ok m ∧
      FPI.init (.radial ⟨fins pts⟩) (fins (pts.map t)) (.atom m) (XR.fin 1e-18) (some (XR.fin z)) true = .ok F ∧
      F.goodness row.coeffs row.exps = .ok row.last ∧
      ∃ l1 linf ls M I2 : ℝ, row.l1 = XR.fin l1 ∧ 0 ≤ l1 ∧ row.linf = XR.fin linf ∧ 0 ≤ linf ∧
        row.ls = XR.fin ls ∧ 0 ≤ ls ∧ row.last.l1 = XR.fin (l1 * I) ∧ M ∈ pts.map t ∧ (∀ y ∈ pts.map t, y ≤ M) ∧
        row.last.linf = XR.fin (linf * M) ∧
        integrateOn (.radial ⟨fins pts⟩) true (fins ((pts.map t).map fun y => y ^ 2)) = .ok (XR.fin I2) ∧ 0 < I2 ∧
        row.last.ls = XR.fin (ls * I2) := by
  have hz' : (0 : ℝ) < z := by exact_mod_cast hz
  obtain ⟨m, F, I, J, r, c', e', p, q1, q2, q3, q4, q5, r1, r2, r3, r4, r5, r6, r7, r8, k1, kg, k2, -⟩ :=
    radial_run hp ht hi ns np hsp 1e-18 (some (z : ℝ)) (by
      intro a ha
      simp only [Option.some.injEq] at ha
      rw [← ha]; exact hz') c e hc he hcp hep tableOpts rfl (by simp [tableOpts]) ⟨_, rfl⟩ ⟨_, rfl⟩
  obtain ⟨v, a, b, d, -, -, ha, ha0, hb, hb0, hd, hd0⟩ := k2
  obtain ⟨l1, linf, ls, I', M, I2, kl, w1, w2, w3, w4, w5, w6, w7, w8, w9, w10, w11, w12⟩ :=
    relativeErrors_ok hp ht hi ha hb hd ha0 hb0 hd0
  rw [q3] at w5
  simp only [Except.ok.injEq, XR.fin.injEq] at w5
  subst w5
  simp only [Option.map_some] at q2
  refine ⟨⟨r.coeffs, r.exps, r.success, p, XR.fin l1, XR.fin linf, XR.fin ls, kl⟩, c', e', I, m, F, ?_, r2, r3, r4, r5,
    r6, r7, q3, q4, ?_, q1, q2, kg, l1, linf, ls, M, I2, rfl, w2, rfl, w3, rfl, w4, by rw [ha, w6], w7, w8,
    by rw [hb, w9], w10, w11, by rw [hd, w12]⟩
  · unfold table12Fit
    simp only [hA, inScript, q1]
    rw [q2]
    simp only
    rw [r1]
    simp only [k1, w1]
  · have hne : pts ≠ [] := by
      obtain ⟨i, hil, -⟩ := hi
      intro h
      simp [h] at hil
    have hJ := masked_le hp hB hne ht (by norm_num) q3 q5
    have hpi := pi_lt_d2
    have hJ' : J ≤ I + 1.3e-11 := by
      refine hJ.trans ?_
      nlinarith
    refine r8.trans ?_
    simp only [Option.getD_some]
    refine mul_le_mul_of_nonneg_left ?_ hz'.le
    rw [div_le_iff₀ q4, add_mul, div_mul_cancel₀ _ q4.ne']
    linarith

/-! ### Starting values -/

theorem ShellOk.ge_hundredth {l : List ℝ} {top : ℤ} (h : ShellOk l top) : ∀ a ∈ l, 1 / 100 ≤ a := by
  intro a ha
  obtain ⟨i, hi, rfl⟩ := List.mem_iff_getElem.mp ha
  have h1 := h.near i hi
  have h2 : vec l i = l[i] := by simp [vec, List.getD_eq_getElem?_getD, hi]
  rw [h2] at h1
  have h3 : (1 : ℝ) / 81 ≤ universal (top - i) := by
    have hk : (-6 : ℤ) ≤ top - i := by have := h.ge; omega
    have hk' : (-6 : ℝ) ≤ ((top - i : ℤ) : ℝ) := by exact_mod_cast hk
    have e4 : Real.exp (-4) = (Real.exp 1 ^ 4)⁻¹ := by
      rw [← Real.exp_nat_mul, ← Real.exp_neg]
      norm_num
    have hlt := Real.exp_one_lt_three
    have h0 := Real.exp_pos 1
    have h81 : Real.exp 1 ^ 4 ≤ 81 := by
      calc Real.exp 1 ^ 4 ≤ 3 ^ 4 := by gcongr
        _ = 81 := by norm_num
    calc (1 : ℝ) / 81 ≤ (Real.exp 1 ^ 4)⁻¹ := by
          rw [one_div]
          exact inv_anti₀ (by positivity) h81
      _ = Real.exp (-4) := e4.symm
      _ ≤ universal (top - i) := Real.exp_le_exp.mpr (by linarith)
  have := (abs_le.mp h1).1
  linarith

theorem ShellOk.length_le {l : List ℝ} {top : ℤ} (h : ShellOk l top) : l.length ≤ 34 := by
  have h1 := h.le
  have h2 := h.ge
  omega

/-- The grid of the script: ascending, in `[0, 100]`, with more than 630 different points. -/
theorem table_grid (z : ℤ) (hz : 0 < z) (o : Bool) :
    ∃ pts : List ℝ, clenshawRadialGrid (.int z) (.int 10000) (.int 899) (.seq (fins [50, 75, 100])) (.bool o) =
      .ok ⟨fins pts⟩ ∧ pts.Pairwise (· ≤ ·) ∧ 630 < pts.toFinset.card ∧ ∀ r ∈ pts, 0 ≤ r ∧ r ≤ 100 := by
  obtain ⟨pts, h1, h2, h3⟩ := C127_clenshaw z hz 10000 899 (.seq (fins [50, 75, 100])) [50, 75, 100] (.inr rfl) o
  obtain ⟨pts', core, diffuse, g1, g2, -, -, g3, g4, -⟩ := C05_clenshaw_ranges z hz 10000 899
    (.seq (fins [50, 75, 100])) [50, 75, 100] (.inr rfl) o
  simp only [Nat.cast_ofNat] at h1 g1
  rw [h1] at g1
  simp only [Except.ok.injEq, RadialGrid.mk.injEq] at g1
  have : pts = pts' := List.map_injective_iff.mpr (fun a b h => by simpa using h) g1
  subst this
  refine ⟨pts, h1, h2, by omega, fun r hr => ?_⟩
  have hz' : (1 : ℝ) ≤ z := by exact_mod_cast hz
  rw [g2.mem_iff] at hr
  simp only [List.mem_append, List.mem_cons, List.not_mem_nil, or_false] at hr
  rcases hr with (hr | hr) | rfl | rfl | rfl
  · obtain ⟨a, b⟩ := g3 r hr
    refine ⟨a, b.trans ?_⟩
    rw [div_le_iff₀ (by positivity)]
    linarith
  · obtain ⟨a, b⟩ := g4 r hr
    exact ⟨a.le, by linarith⟩
  all_goals norm_num

/-- The starting values of an element from hydrogen to xenon. -/
theorem table_start (low : Str → Str) (hl : LowersAscii low) (tf : Str → Py XR) (ht : ReadsFloats tf)
    (fs : Str → Option (List Str)) (dir : Str) (hf : fs (dir ++ "data/ygbs".toList) = some Data.ugbsLines)
    (s : Str) (z : ℕ) (hz : HasZ (low s) z) (hr : z ≤ 54) (factor : ℝ) :
    ∃ ugbs S P, ugbsExponents low tf fs (dir ++ "parse_ugbs.py".toList) (.str s) = .ok ugbs ∧
      ugbs "S".toList = some (fins S) ∧ ugbs "P".toList = some (fins P) ∧ S ≠ [] ∧
      ((∀ a ∈ S ++ P, 1 / 100 ≤ a) ∧ S.length + P.length ≤ 68) ∧
      ugbsStart z ugbs (XR.fin factor) = .ok (S.length, P.length,
        fins (List.replicate (S.length + P.length) ((z : ℝ) / ((S.length + P.length : ℕ) : ℝ))),
        fins ((S ++ P).map fun x => x * factor)) := by
  obtain ⟨out, h1, -, h2⟩ := C97_elements low hl tf ht fs dir hf s z hz (.inl (by omega))
  obtain ⟨S, s1, s2, ts, s3⟩ := h2 'S' (by simp)
  obtain ⟨P, p1, -, tp, p3⟩ := h2 'P' (by simp)
  have hS : S ≠ [] := s2.mpr (by unfold shellsOf; split_ifs <;> simp)
  refine ⟨out, S, P, h1, s1, p1, hS, ⟨?_, ?_⟩, ?_⟩
  · intro a ha
    rcases List.mem_append.mp ha with ha | ha
    · exact s3.ge_hundredth a ha
    · exact p3.ge_hundredth a ha
  · have := s3.length_le
    have := p3.length_le
    omega
  · have hn : (fins S).length + (fins P).length ≠ 0 := by
      have := List.length_pos_of_ne_nil hS
      simp only [fins_length]
      omega
    have s1' : out "S".toList = some (fins S) := s1
    have p1' : out "P".toList = some (fins P) := p1
    unfold ugbsStart
    rw [s1', p1']
    simp only
    rw [if_neg hn]
    simp [fins, Function.comp_def]

/-! ### C128 -/

/-- The data files of the neutral atoms and of the universal Gaussian basis set are in their places; `dir` is the
directory of the package with a slash. -/
structure HasData (fs : Str → Option (List Str)) (dir : Str) : Prop where
  neutral : ∀ d ∈ Data.bundled, d.charge = .neutral → ∀ e, HasZ e d.z →
    fs ("/data/neutral/".toList ++ e ++ ".slater".toList) = some d.lines
  ugbs : fs (dir ++ "data/ygbs".toList) = some Data.ugbsLines

/-- **C128** (element).  For every element from hydrogen to xenon one pass of the loop of `table_1_and_2.py`
completes.  With `ns` and `np` the numbers of `S` and `P` exponents in the UGBS file (not both zero), the fit has
`ns + np` coefficients and exponents, all positive; the coefficients add up to at most `z (1 + 1.3e-11 / I)` where
`I > 0` is the integral of the atomic density on the grid.  The last entry of `performance` is `goodness_of_fit` of
these coefficients and exponents; the relative errors `l1`, `linf` and `ls` are its entries divided by the integral of
the density, by the maximum of the density and by the integral of its square; they are finite and not negative. -/
theorem C128_element (isAlpha : Str → Bool) (low : Str → Str) (hl : LowersAscii low) (tf : Str → Py XR)
    (ht : ReadsFloats tf) (fs : Str → Option (List Str)) (dir : Str) (hf : HasData fs dir)
    (s : Str) (ha : isAlpha s = true) (z : ℕ) (hz : HasZ (low s) z) (hr : z ≤ 54) :
    ∃ pts dens row ugbs S P c e R A m F, ∃ I l1 linf ls M I2 : ℝ,
      clenshawRadialGrid (.int z) (.int 10000) (.int 899) (.seq (fins [50, 75, 100])) (.bool true) = .ok ⟨fins pts⟩ ∧
      slaterInit isAlpha low tf fs (.str s) false false = some (.ok R) ∧ Stores R A ∧
      A.atomicDensity (ND.vec (fins pts)) "total" = .ok (fins dens) ∧
      integrateOn (.radial ⟨fins pts⟩) true (fins dens) = .ok (XR.fin I) ∧ 0 < I ∧
      ugbsExponents low tf fs (dir ++ "parse_ugbs.py".toList) (.str s) = .ok ugbs ∧
      ugbs "S".toList = some (fins S) ∧ ugbs "P".toList = some (fins P) ∧ S ≠ [] ∧
      table12Row isAlpha low tf fs (dir ++ "parse_ugbs.py".toList) s z = some (.ok row) ∧
      row.coeffs = fins c ∧ row.exps = fins e ∧ c.length = S.length + P.length ∧ e.length = S.length + P.length ∧
      (∀ a ∈ c, 0 < a) ∧ (∀ a ∈ e, 0 < a) ∧ c.sum ≤ z * (1 + 1.3e-11 / I) ∧
      Atomic.init (.arr (.one (fins pts))) .none (.int S.length) (.int P.length) true = .ok m ∧
      FPI.init (.radial ⟨fins pts⟩) (fins dens) (.atom m) (XR.fin 1e-18) (some (XR.fin z)) true = .ok F ∧
      F.goodness row.coeffs row.exps = .ok row.last ∧
      row.l1 = XR.fin l1 ∧ 0 ≤ l1 ∧ row.linf = XR.fin linf ∧ 0 ≤ linf ∧ row.ls = XR.fin ls ∧ 0 ≤ ls ∧
      row.last.l1 = XR.fin (l1 * I) ∧ M ∈ dens ∧ (∀ y ∈ dens, y ≤ M) ∧ row.last.linf = XR.fin (linf * M) ∧
      integrateOn (.radial ⟨fins pts⟩) true (fins (dens.map fun y => y ^ 2)) = .ok (XR.fin I2) ∧ 0 < I2 ∧
      row.last.ls = XR.fin (ls * I2) := by
  have hz1 := hz.1
  have hz0 : (0 : ℤ) < (z : ℤ) := by exact_mod_cast hz1
  obtain ⟨d, hd, hdz, hdc⟩ := bundled_neutral hz1 hr
  subst hdz
  obtain ⟨R, h1, hS, h2⟩ := bundled_dens d hd isAlpha low tf ht.dec fs s ha hz (by
    rw [hdc]; exact hf.neutral d hd hdc _ hz)
  simp only [hdc, reduceCtorEq, decide_false] at h1
  have hA := attrs_stores hS
  obtain ⟨t, t1, t2, t3⟩ := h2 _ hA
  obtain ⟨pts, g1, g2, g3, g4⟩ := table_grid (d.z : ℤ) hz0 true
  have hi := radial_index_pos g2 t2 (by norm_num) t3 g3 true
  obtain ⟨ugbs, S, P, u1, u2, u3, u4, u5, u6⟩ := table_start low hl tf ht fs dir hf.ugbs s d.z hz hr 2
  have hlen : 0 < S.length + P.length := by
    have := List.length_pos_of_ne_nil u4
    omega
  have hzr : (0 : ℝ) < d.z := by exact_mod_cast hz1
  obtain ⟨row, c, e, I, m, F, w1, w2, w3, w4, w5, w6, w7, w8, w9, w10, wm, wF, wg, l1, linf, ls, M, I2, w11⟩ :=
    table12Fit_ok g2 g4 t2 hi (t1 pts) S.length P.length (by omega) (d.z : ℤ) hz0
      (List.replicate (S.length + P.length) ((d.z : ℝ) / ((S.length + P.length : ℕ) : ℝ)))
      ((S ++ P).map fun x => x * 2) (by simp) (by simp) (by
        intro a ha
        rw [List.eq_of_mem_replicate ha]
        have : (0 : ℝ) < ((S.length + P.length : ℕ) : ℝ) := by exact_mod_cast hlen
        positivity) (by
        intro a ha
        obtain ⟨b, hb, rfl⟩ := List.mem_map.mp ha
        have := u5.1 b hb
        positivity)
  refine ⟨pts, pts.map t, row, ugbs, S, P, c, e, R, R.attrs, m, F, I, l1, linf, ls, M, I2, g1, h1, hA, t1 pts, w8,
    w9, u1, u2, u3, u4, ?_, w2, w3, w4, w5, w6, w7, by exact_mod_cast w10, wm, by exact_mod_cast wF, wg, w11⟩
  unfold table12Row
  rw [g1, u1]
  simp only
  rw [u6]
  simp only
  rw [h1]
  simp only
  rw [w1]

theorem exps_ne_coeffs (a b : Str) : a ++ "_exps".toList ≠ b ++ "_coeffs".toList := by
  intro h
  have := congrArg (fun l : Str => l.reverse[1]?) h
  simp at this

/-- The loop completes if every pass does. -/
theorem table12Loop_ok {isAlpha : Str → Bool} {low : Str → Str} {tf : Str → Py XR} {fs : Str → Option (List Str)}
    {path : Str} {items : List (Str × ℤ)} (hnd : (items.map Prod.fst).Nodup) (hrow : ∀ p ∈ items, ∃ row,
      table12Row isAlpha low tf fs path p.1 p.2 = some (.ok row)) (d : Str → Option (List XR)) :
    ∃ d', table12Loop isAlpha low tf fs path items d = some (.ok d') ∧
      (∀ p ∈ items, ∃ row, table12Row isAlpha low tf fs path p.1 p.2 = some (.ok row) ∧
        d' (p.1 ++ "_coeffs".toList) = some row.coeffs ∧ d' (p.1 ++ "_exps".toList) = some row.exps) ∧
      ∀ k, (∀ p ∈ items, k ≠ p.1 ++ "_coeffs".toList ∧ k ≠ p.1 ++ "_exps".toList) → d' k = d k := by
  induction items generalizing d with
  | nil => exact ⟨d, rfl, by simp, fun _ _ => rfl⟩
  | cons p items ih =>
    obtain ⟨row, hr⟩ := hrow p (by simp)
    rw [List.map_cons, List.nodup_cons] at hnd
    obtain ⟨d', h1, h2, h3⟩ := ih hnd.2 (fun q hq => hrow q (List.mem_cons_of_mem _ hq)) fun k =>
        if k = p.1 ++ "_exps".toList then some row.exps
        else if k = p.1 ++ "_coeffs".toList then some row.coeffs else d k
    have hne : ∀ q ∈ items, q.1 ≠ p.1 := fun q hq h => hnd.1 (h ▸ List.mem_map.mpr ⟨q, hq, rfl⟩)
    refine ⟨d', ?_, ?_, ?_⟩
    · obtain ⟨s, z⟩ := p
      unfold table12Loop
      rw [hr]
      exact h1
    · intro q hq
      rcases List.mem_cons.mp hq with rfl | hq
      · refine ⟨row, hr, ?_, ?_⟩
        · rw [h3 _ fun r hr => ⟨fun h => hne r hr (List.append_cancel_right h).symm, (exps_ne_coeffs _ _).symm⟩]
          rw [if_neg (exps_ne_coeffs _ _).symm, if_pos rfl]
        · rw [h3 _ fun r hr => ⟨exps_ne_coeffs _ _, fun h => hne r hr (List.append_cancel_right h).symm⟩]
          rw [if_pos rfl]
      · exact h2 q hq
    · intro k hk
      rw [h3 k fun q hq => hk q (List.mem_cons_of_mem _ hq)]
      rw [if_neg (hk p (by simp)).2, if_neg (hk p (by simp)).1]

theorem tableItems_spec : tableItems = (List.range 54).map fun k => (symbols.getD k [], (k : ℤ) + 1) := by
  decide +kernel

/-- **C128** (script).  `table_1_and_2.py` runs to its end, and the dictionary it saves has entries
`<symbol>_coeffs` and `<symbol>_exps` for the elements from hydrogen to xenon and no others: the coefficients and
exponents of the pass for the element, two lists of the same length, not empty, of positive numbers. -/
theorem C128_script (isAlpha : Str → Bool) (hal : ∀ s ∈ symbols, isAlpha s = true) (low : Str → Str)
    (hl : LowersAscii low) (tf : Str → Py XR) (ht : ReadsFloats tf) (fs : Str → Option (List Str)) (dir : Str)
    (hf : HasData fs dir) :
    ∃ out, table12 isAlpha low tf fs (dir ++ "parse_ugbs.py".toList) = some (.ok out) ∧
      (∀ s z, HasZ s z → z ≤ 54 → ∃ (row : TableRow) (c e : List ℝ),
        table12Row isAlpha low tf fs (dir ++ "parse_ugbs.py".toList) s z = some (.ok row) ∧ row.coeffs = fins c ∧
        row.exps = fins e ∧ out (s ++ "_coeffs".toList) = some (fins c) ∧ out (s ++ "_exps".toList) = some (fins e) ∧ c ≠ [] ∧ c.length = e.length ∧ (∀ a ∈ c, 0 < a) ∧
        ∀ a ∈ e, 0 < a) ∧
      ∀ k, (∀ s z, HasZ s z → z ≤ 54 → k ≠ s ++ "_coeffs".toList ∧ k ≠ s ++ "_exps".toList) → out k = none := by
  have hlow : ∀ k < 54, low (symbols.getD k []) = symbols.getD k [] := by
    intro k hk
    have h1 : ∀ k < 54, (∀ c ∈ symbols.getD k [], c.toNat < 128) ∧
        (symbols.getD k []).map Char.toLower = symbols.getD k [] := by decide +kernel
    rw [hl _ (h1 k hk).1, (h1 k hk).2]
  have hget : ∀ k < 54, symbols[k]? = some (symbols.getD k []) := by decide +kernel
  have hZ : ∀ k < 54, HasZ (symbols.getD k []) (k + 1) := fun k hk => ⟨by omega, by simpa using hget k hk⟩
  have hrow : ∀ k < 54, ∃ row c e, table12Row isAlpha low tf fs (dir ++ "parse_ugbs.py".toList) (symbols.getD k [])
      ((k : ℤ) + 1) = some (.ok row) ∧ row.coeffs = fins c ∧ row.exps = fins e ∧ c ≠ [] ∧ c.length = e.length ∧
      (∀ a ∈ c, 0 < a) ∧ ∀ a ∈ e, 0 < a := by
    intro k hk
    obtain ⟨pts, dens, row, ugbs, S, P, c, e, R, A, m, F, I, l1, linf, ls, M, I2, -, -, -, -, -, -, -, -, -, hS, h1, h2, h3, h4, h5, h6,
      h7, -⟩ := C128_element isAlpha low hl tf ht fs dir hf (symbols.getD k []) (hal _ (List.mem_of_getElem? (hget k hk)))
      (k + 1) (by rw [hlow k hk]; exact hZ k hk) (by omega)
    refine ⟨row, c, e, by exact_mod_cast h1, h2, h3, ?_, by omega, h6, h7⟩
    intro h
    have := List.length_pos_of_ne_nil hS
    simp [h] at h4
    omega
  have hmem : ∀ p ∈ tableItems, ∃ k < 54, p = (symbols.getD k [], (k : ℤ) + 1) := by
    intro p hp
    rw [tableItems_spec] at hp
    obtain ⟨k, hk, rfl⟩ := List.mem_map.mp hp
    exact ⟨k, List.mem_range.mp hk, rfl⟩
  obtain ⟨out, h1, h2, h3⟩ := table12Loop_ok (isAlpha := isAlpha) (low := low) (tf := tf) (fs := fs)
    (path := dir ++ "parse_ugbs.py".toList) (items := tableItems) (by decide +kernel) (by
      intro p hp
      obtain ⟨k, hk, rfl⟩ := hmem p hp
      obtain ⟨row, -, -, hr, -⟩ := hrow k hk
      exact ⟨row, hr⟩) fun _ => none
  refine ⟨out, h1, ?_, ?_⟩
  · intro s z hz hz54
    obtain ⟨k, rfl⟩ : ∃ k, z = k + 1 := ⟨z - 1, by have := hz.1; omega⟩
    have hk : k < 54 := by omega
    have hs : s = symbols.getD k [] := by
      have := hz.2
      rw [Nat.add_sub_cancel, hget k hk] at this
      simpa using this.symm
    subst hs
    obtain ⟨row, c, e, r1, r2, r3, r4⟩ := hrow k hk
    obtain ⟨row', q1, q2, q3⟩ := h2 (symbols.getD k [], (k : ℤ) + 1) (by
      rw [tableItems_spec]
      exact List.mem_map.mpr ⟨k, List.mem_range.mpr hk, rfl⟩)
    simp only at q1 q2 q3
    rw [r1] at q1
    simp only [Option.some.injEq, Except.ok.injEq] at q1
    subst q1
    exact ⟨row, c, e, by exact_mod_cast r1, r2, r3, by rw [q2, r2], by rw [q3, r3], r4⟩
  · intro k hk
    refine h3 k fun p hp => ?_
    obtain ⟨j, hj, rfl⟩ := hmem p hp
    exact hk _ _ (hZ j hj) (by omega)

/-! ### Example -/

/-- The neutral atoms of a list of data files as a file system. -/
def neutralFiles (L : List DataFile) (p : Str) : Option (List Str) :=
  (L.find? fun d => decide (d.charge = .neutral ∧ p = d.charge.path (symbols.getD (d.z - 1) []))).map DataFile.lines

theorem neutralFiles_eq {L : List DataFile} (hnd : (L.map fun d => (d.z, d.charge)).Nodup)
    (hz1 : ∀ d ∈ L, 1 ≤ d.z ∧ d.z ≤ symbols.length) {d : DataFile} (hd : d ∈ L) (hc : d.charge = .neutral) {e : Str}
    (he : HasZ e d.z) : neutralFiles L ("/data/neutral/".toList ++ e ++ ".slater".toList) = some d.lines := by
  have hes : symbols.getD (d.z - 1) [] = e := by
    rw [List.getD_eq_getElem?_getD, he.2]; rfl
  have hzs : ∀ d' ∈ L, HasZ (symbols.getD (d'.z - 1) []) d'.z := by
    intro d' hd'
    obtain ⟨h1, h2⟩ := hz1 d' hd'
    refine ⟨h1, ?_⟩
    rw [List.getD_eq_getElem?_getD, List.getElem?_eq_getElem (by omega)]
    rfl
  unfold neutralFiles
  generalize hpr : (fun d : DataFile => decide (d.charge = .neutral ∧
      "/data/neutral/".toList ++ e ++ ".slater".toList = d.charge.path (symbols.getD (d.z - 1) []))) = pr
  cases hf : L.find? pr with
  | none =>
    refine absurd ?_ (List.find?_eq_none.mp hf d hd)
    rw [← hpr]
    refine decide_eq_true ⟨hc, ?_⟩
    rw [hc, hes]
    rfl
  | some d' =>
    have h1 := List.mem_of_find?_eq_some hf
    have h2 := List.find?_some hf
    rw [← hpr] at h2
    simp only [decide_eq_true_eq] at h2
    obtain ⟨h2, h3⟩ := h2
    rw [h2] at h3
    have h4 : e = symbols.getD (d'.z - 1) [] := List.append_cancel_left (List.append_cancel_right h3)
    have h5 := hzs d' h1
    rw [← h4] at h5
    have h6 := hasZ_unique h5 he
    have h7 := List.inj_on_of_nodup_map hnd h1 hd (by rw [h6, h2, hc])
    rw [h7, Option.map_some]

/-- Files in their places. -/
def exampleFiles (p : Str) : Option (List Str) :=
  if p = "/x/data/ygbs".toList then some Data.ugbsLines else neutralFiles Data.bundled p

theorem exampleFiles_hasData : HasData exampleFiles "/x/".toList := by
  refine ⟨?_, if_pos (by decide)⟩
  intro d hd hc e he
  have hne : "/data/neutral/".toList ++ e ++ ".slater".toList ≠ "/x/data/ygbs".toList := by
    intro h
    have := congrArg (fun l : Str => l[1]?) h
    simp at this
  unfold exampleFiles
  rw [if_neg hne]
  refine neutralFiles_eq (by decide +kernel) ?_ hd hc he
  have h : Data.bundled.all (fun d => decide (1 ≤ d.z ∧ d.z ≤ symbols.length)) = true := by decide +kernel
  intro d' hd'
  simpa using List.all_eq_true.mp h d' hd'

/-- The script runs to its end with the files in their places; beryllium's fit is in the dictionary, caesium's is
not. -/
example : ∃ out c e,
    table12 (fun _ => true) (fun s => s.map Char.toLower) (fun w => .ok (.fin (readSci w))) exampleFiles
      "/x/parse_ugbs.py".toList = some (.ok out) ∧
    out "be_coeffs".toList = some (fins c) ∧ out "be_exps".toList = some (fins e) ∧ c ≠ [] ∧ c.length = e.length ∧
    (∀ a ∈ c, 0 < a) ∧ out "cs_coeffs".toList = none := by
  obtain ⟨out, h1, h2, h3⟩ := C128_script (fun _ => true) (fun _ _ => rfl) (fun s => s.map Char.toLower) (fun _ _ => rfl)
    _ reads_floats_example exampleFiles "/x/".toList exampleFiles_hasData
  obtain ⟨-, c, e, -, -, -, k1, k2, k3, k4, k5, -⟩ := h2 "be".toList 4 ⟨by norm_num, rfl⟩ (by norm_num)
  refine ⟨out, c, e, h1, k1, k2, k3, k4, k5, h3 _ fun s z hz hz54 => ⟨fun h => ?_, fun h => ?_⟩⟩
  · have h5 : "cs".toList ++ "_coeffs".toList = s ++ "_coeffs".toList := h
    have h4 := List.append_cancel_right h5
    have h6 : HasZ "cs".toList 55 := ⟨by norm_num, by decide +kernel⟩
    have := hasZ_unique (h4 ▸ hz) h6
    omega
  · have h5 : s ++ "_exps".toList = "cs".toList ++ "_coeffs".toList := h.symm
    exact exps_ne_coeffs _ _ h5

end
end BFit
