import Verif.Props.Tables
import Verif.Props.SlaterEnergy
import Mathlib.Analysis.SpecialFunctions.Trigonometric.Bounds

/-! Property C129: fits of the kinetic energy density; the script `table_5.py` completes. -/

namespace BFit

open Real Classical Filter Topology

noncomputable section

/-! ### Zeros of the kinetic energy density -/

/-- The terms of the derivative of an orbital. -/
def orbTerms' (bs : List (ℝ × ℕ)) (c : List ℝ) : List ETerm :=
  (orbTerms bs c).map fun t => ⟨Polynomial.derivative t.p + Polynomial.C t.a * t.p, t.a, t.d⟩

theorem efun_deriv (L : List ETerm) (x : ℝ) : HasDerivAt (efun L)
    (efun (L.map fun t => ⟨Polynomial.derivative t.p + Polynomial.C t.a * t.p, t.a, t.d⟩) x) x := by
  induction L with
  | nil =>
    have : efun [] = fun _ => 0 := by funext x; simp [efun]
    rw [this]
    simpa [efun] using hasDerivAt_const x (0 : ℝ)
  | cons t L ih =>
    have e : efun (t :: L) = fun y => t.val y + efun L y := by funext y; simp [efun]
    rw [e]
    have h1 := t.p.hasDerivAt x
    have h2 : HasDerivAt (fun y => exp (t.a * y)) (exp (t.a * x) * t.a) x := by
      have := ((hasDerivAt_id x).const_mul t.a).exp
      simpa using this
    have h3 := (h1.mul h2).add ih
    refine h3.congr_deriv ?_
    simp only [efun, List.map_cons, List.sum_cons, ETerm.val, Polynomial.eval_add, Polynomial.eval_mul,
      Polynomial.eval_C, add_left_inj]
    ring

theorem orbTerms'_deg {bs : List (ℝ × ℕ)} (h : ∀ b ∈ bs, 1 ≤ b.2) (c : List ℝ) :
    ∀ t ∈ orbTerms' bs c, t.p.degree < t.d := by
  intro t ht
  obtain ⟨u, hu, rfl⟩ := List.mem_map.mp ht
  have hd := orbTerms_deg h c u hu
  refine (Polynomial.degree_add_le _ _).trans_lt (max_lt ?_ ?_)
  · exact (Polynomial.degree_derivative_le).trans_lt hd
  · refine lt_of_le_of_lt ?_ hd
    refine (Polynomial.degree_mul_le _ _).trans ?_
    have h1 : (Polynomial.C u.a).degree ≤ 0 := Polynomial.degree_C_le
    exact (add_le_add_left h1 _).trans (by rw [zero_add])

theorem orbTerms'_sum (bs : List (ℝ × ℕ)) (c : List ℝ) :
    ((orbTerms' bs c).map ETerm.d).sum ≤ (bs.map Prod.snd).sum := by
  have := orbTerms_sum bs c
  simpa [orbTerms', List.map_map, Function.comp_def] using this

/-- Orbitals go to zero at infinity. -/
theorem orb_tendsto {bs : List (ℝ × ℕ)} (hb : ∀ b ∈ bs, 0 < b.1) (c : List ℝ) : Tendsto (orbR bs c) atTop (𝓝 0) := by
  induction bs generalizing c with
  | nil =>
    have : orbR [] c = fun _ => 0 := by funext r; simp [orbR]
    rw [this]
    exact tendsto_const_nhds
  | cons b bs ih =>
    cases c with
    | nil =>
      have : orbR (b :: bs) [] = fun _ => 0 := by funext r; simp [orbR]
      rw [this]
      exact tendsto_const_nhds
    | cons a c =>
      have h1 := ih (fun b hb' => hb b (List.mem_cons_of_mem _ hb')) c
      have h2 : Tendsto (fun r : ℝ => r ^ (b.2 - 1) * exp (-b.1 * r)) atTop (𝓝 0) := by
        have := tendsto_rpow_mul_exp_neg_mul_atTop_nhds_zero ((b.2 - 1 : ℕ) : ℝ) b.1 (hb b (by simp))
        simpa using this
      have h3 := (h2.const_mul ((2 * b.1) ^ b.2 * sqrt (2 * b.1 / (Nat.factorial (2 * b.2))) * a)).add h1
      rw [mul_zero, add_zero] at h3
      refine h3.congr fun r => ?_
      simp only [orbR, slaterR, List.map_cons, wsum_cons]
      ring

/-- An orbital whose derivative has as many zeros vanishes. -/
theorem orb_deriv_zero {bs : List (ℝ × ℕ)} (h : ∀ b ∈ bs, 0 < b.1 ∧ 1 ≤ b.2) (c : List ℝ) (Z : Finset ℝ)
    (hZ : (bs.map Prod.snd).sum ≤ Z.card) (hz : ∀ z ∈ Z, z ≠ 0 ∧ orbR' bs c z = 0) (r : ℝ) : orbR bs c r = 0 := by
  have e : orbR bs c = efun (orbTerms bs c) := funext fun r => orb_efun bs c r
  have hd : ∀ x, HasDerivAt (orbR bs c) (efun (orbTerms' bs c) x) x := fun x => by
    rw [e]; exact efun_deriv _ x
  have h0 : ∀ x, efun (orbTerms' bs c) x = 0 := by
    refine efun_zero _ _ le_rfl (orbTerms'_deg (fun b hb => (h b hb).2) c) Z ((orbTerms'_sum bs c).trans hZ) ?_
    intro z hz'
    obtain ⟨z0, z1⟩ := hz z hz'
    rw [(hd z).unique (hasDerivAt_orbR bs c h z z0), z1]
  have hc : ∀ x y, orbR bs c x = orbR bs c y := is_const_of_deriv_eq_zero
    (fun x => (hd x).differentiableAt) fun x => by rw [(hd x).deriv, h0]
  have ht := orb_tendsto (fun b hb => (h b hb).1) c
  have hk : Tendsto (orbR bs c) atTop (𝓝 (orbR bs c r)) :=
    tendsto_const_nhds.congr fun x => hc r x
  exact tendsto_nhds_unique hk ht

/-- A weighted sum of non-negative values vanishes where all values with a positive weight do. -/
theorem wsum_zero_iff {α : Type} (l : List α) (g : α → ℝ) (hg : ∀ o ∈ l, 0 ≤ g o) (w : List ℝ) (hw : ∀ y ∈ w, 0 ≤ y) :
    wsum (l.map g) w = 0 ↔ ∀ p ∈ l.zip w, 0 < p.2 → g p.1 = 0 := by
  have e : l.map g = l.map fun o => sqrt (g o) ^ 2 :=
    List.map_congr_left fun o ho => (sq_sqrt (hg o ho)).symm
  rw [e, wsum_sq_zero l (fun o => sqrt (g o)) w hw]
  refine forall_congr' fun p => forall_congr' fun hp => imp_congr_right fun _ => ?_
  exact sqrt_eq_zero (hg _ (List.of_mem_zip hp).1)

theorem kinVal_nonneg (basis : Sub → List (ℝ × ℕ)) (c : Orb → List ℝ) (o : Orb) (r : ℝ) : 0 ≤ kinVal basis c o r := by
  unfold kinVal cutD
  split
  · exact le_rfl
  · have : 0 ≤ angular o.sub := by cases o.sub <;> simp [angular]
    positivity

/-- **C129** (zeros).  If the kinetic energy density of an atom is zero at as many different radii of at least
`1e-10` as the principal quantum numbers of the Slater functions of a subshell at most add up to, the density of the
atom is zero everywhere. -/
theorem C129_zeros {A : SlaterAtom} {basis : Sub → List (ℝ × ℕ)} {c : Orb → List ℝ} {occ en : List ℝ}
    (h : IsSlater A basis c occ en) (k t : ℝ → ℝ)
    (hk : ∀ x : List ℝ, A.kinetic (ND.vec (fins x)) = .ok (fins (x.map k)))
    (ht : ∀ x : List ℝ, A.atomicDensity (ND.vec (fins x)) "total" = .ok (fins (x.map t))) (N : ℕ)
    (hN : ∀ o ∈ A.orbitals, ∀ l, A.nums o.sub = some l → l.sum ≤ N) (Z : Finset ℝ) (hZ : N ≤ Z.card)
    (hz : ∀ z ∈ Z, 1e-10 ≤ |z| ∧ k z = 0) (r : ℝ) : t r = 0 := by
  have e : t = densR A.orbitals basis c occ := by
    funext r
    have := (ht [r]).symm.trans (atomicDensity_total h [r])
    simpa [fins] using this
  have ek : k = fun r => wsum (A.orbitals.map fun o => kinVal basis c o r) occ / 2 / (4 * π) := by
    funext r
    have := (hk [r]).symm.trans (kinetic_fins h [r])
    simpa [fins] using this
  subst e
  have key : ∀ z ∈ Z, ∀ p ∈ A.orbitals.zip occ, 0 < p.2 → kinVal basis c p.1 z = 0 := by
    intro z hz'
    have h1 := (hz z hz').2
    rw [ek] at h1
    simp only at h1
    rw [div_eq_zero_iff, or_iff_left four_pi_ne, div_eq_zero_iff, or_iff_left two_ne_zero] at h1
    exact (wsum_zero_iff _ _ (fun o _ => kinVal_nonneg basis c o z) _ h.occ_nonneg).mp h1
  unfold densR
  rw [div_eq_zero_iff, or_iff_left four_pi_ne]
  refine (wsum_sq_zero _ _ _ h.occ_nonneg).mpr fun p hp hp0 => ?_
  have ho : p.1 ∈ A.orbitals := (List.of_mem_zip hp).1
  refine orb_deriv_zero (h.pos p.1 ho) _ Z ((hN p.1 ho _ (h.nums p.1 ho)).trans hZ) (fun z hz' => ?_) r
  have h1 := (hz z hz').1
  have h0 : z ≠ 0 := by
    rintro rfl
    rw [abs_zero] at h1
    norm_num at h1
  refine ⟨h0, ?_⟩
  have h2 := key z hz' p hp hp0
  unfold kinVal cutD at h2
  rw [if_neg (not_lt.mpr h1)] at h2
  have ha : 0 ≤ angular p.1.sub := by cases p.1.sub <;> simp [angular]
  have h3 : 0 ≤ angular p.1.sub * orbR (basis p.1.sub) (c p.1) z ^ 2 / z ^ 2 := by positivity
  have h4 := sq_nonneg (orbR' (basis p.1.sub) (c p.1) z)
  have h5 : orbR' (basis p.1.sub) (c p.1) z ^ 2 = 0 := by linarith
  exact pow_eq_zero_iff two_ne_zero |>.mp h5

/-! ### Fits -/

/-- Index of a point where the kinetic energy density of a bundled atom is positive. -/
theorem kin_index {k : ℝ → ℝ} (hk : ∀ r, 0 ≤ k r)
    (hz : ∀ Z : Finset ℝ, 630 ≤ Z.card → (∀ z ∈ Z, 1e-10 ≤ |z|) → ∃ z ∈ Z, k z ≠ 0) {pts : List ℝ}
    (hp : pts.Pairwise (· ≤ ·)) (hc : 630 ≤ (pts.toFinset.filter fun z => 1e-10 ≤ |z|).card) (sph : Bool) :
    ∃ i < pts.length, vec pts i ≠ 0 ∧ 0 < radW pts sph i ∧ 0 < k (vec pts i) := by
  obtain ⟨z, hzm, hz0⟩ := hz _ hc fun z hz => (Finset.mem_filter.mp hz).2
  obtain ⟨hm, h1⟩ := Finset.mem_filter.mp hzm
  have h0 : z ≠ 0 := by
    rintro rfl
    rw [abs_zero] at h1
    norm_num at h1
  have hc' := Finset.card_le_card (Finset.filter_subset (fun z : ℝ => 1e-10 ≤ |z|) pts.toFinset)
  obtain ⟨u, hu, hne⟩ := Finset.exists_mem_ne (s := pts.toFinset) (by omega) z
  exact radial_index_of hp hk (List.mem_toFinset.mp hm) h0 hz0 ⟨u, List.mem_toFinset.mp hu, hne⟩ sph

/-- The kinetic energy densities of the bundled atoms have less than 630 zeros at a distance from the origin. -/
theorem bundled_kin (d : DataFile) (hd : d ∈ Data.bundled) (isAlpha : Str → Bool) (low : Str → Str)
    (tf : Str → Py XR) (ht : ReadsDecimals tf) (fs : Str → Option (List Str)) (s : Str) (ha : isAlpha s = true)
    (hz : HasZ (low s) d.z) (hfs : fs (d.charge.path (low s)) = some d.lines) :
    ∃ R : RawAtom,
      slaterInit isAlpha low tf fs (.str s) (decide (d.charge = .anion)) (decide (d.charge = .cation)) =
        some (.ok R) ∧ (∃ A, Stores R A) ∧
      ∀ A, Stores R A → ∃ k : ℝ → ℝ,
        (∀ x : List ℝ, A.kinetic (ND.vec (fins x)) = .ok (fins (x.map k))) ∧ (∀ r, 0 ≤ k r) ∧
        ∀ Z : Finset ℝ, 630 ≤ Z.card → (∀ z ∈ Z, 1e-10 ≤ |z|) → ∃ z ∈ Z, k z ≠ 0 := by
  obtain ⟨R, hi, hex, hA⟩ := bundled_slater d hd isAlpha low tf ht fs s ha hz hfs
  refine ⟨R, hi, hex, fun A hst => ?_⟩
  obtain ⟨basis, c, occ, en, hs, ⟨r, hr⟩, hN⟩ := hA A hst
  obtain ⟨k, k1, k2, -⟩ := C68_kinetic hs
  refine ⟨k, k1, k2, fun Z hZ h1 => ?_⟩
  by_contra hcon
  push Not at hcon
  exact hr (C129_zeros hs k _ k1 (atomicDensity_total hs) 630 hN Z hZ (fun z hz => ⟨h1 z hz, hcon z hz⟩) r)

/-- **C129** (from the symbol to the fit).  For each bundled atom and every ascending radial grid with at least 630
different points at a distance of at least `1e-10` from the origin: the kinetic energy density is returned, its
integral is positive, a Gaussian model with any numbers of functions and `KLDivergenceFPI` can be constructed with it
for every mask value and positive `integral_dens`, spherical or not, and `run` returns for all positive starting
values, with positive coefficients and exponents.  After an update of the coefficients they add up to at most
`integral_dens` times the ratio of the integrals of the larger of kinetic energy density and mask value and of the
kinetic energy density. -/
theorem C129_fit (d : DataFile) (hd : d ∈ Data.bundled) (isAlpha : Str → Bool) (low : Str → Str)
    (tf : Str → Py XR) (ht : ReadsDecimals tf) (fs : Str → Option (List Str)) (s : Str) (ha : isAlpha s = true)
    (hz : HasZ (low s) d.z) (hfs : fs (d.charge.path (low s)) = some d.lines) :
    ∃ R : RawAtom,
      slaterInit isAlpha low tf fs (.str s) (decide (d.charge = .anion)) (decide (d.charge = .cation)) =
        some (.ok R) ∧ (∃ A, Stores R A) ∧
      ∀ A, Stores R A → ∀ pts : List ℝ, pts.Pairwise (· ≤ ·) →
        630 ≤ (pts.toFinset.filter fun z => 1e-10 ≤ |z|).card → ∃ vals : List ℝ,
        A.kinetic (ND.vec (fins pts)) = .ok (fins vals) ∧ (∀ y ∈ vals, 0 ≤ y) ∧
        ∀ (sph : Bool) (ns np : ℕ), ns + np ≠ 0 → ∀ (μ : ℝ) (T : Option ℝ), (∀ a, T = some a → 0 < a) →
        ∃ m F I J,
          Atomic.init (.arr (.one (fins pts))) .none (.int ns) (.int np) true = .ok m ∧
          FPI.init (.radial ⟨fins pts⟩) (fins vals) (.atom m) (XR.fin μ) (T.map XR.fin) sph = .ok F ∧
          integrateOn (.radial ⟨fins pts⟩) sph (fins vals) = .ok (XR.fin I) ∧ 0 < I ∧
          integrateOn (.radial ⟨fins pts⟩) sph (fins (vals.map fun y => max y μ)) = .ok (XR.fin J) ∧
          F.integralDens = XR.fin (T.getD I) ∧
          ∀ (o : FPIOpts), (o.optCoeffs = true ∨ o.optExpons = true) → ∀ c e : List ℝ,
            c.length = ns + np → e.length = ns + np → (∀ a ∈ c, 0 < a) → (∀ a ∈ e, 0 < a) →
            ∃ r c' e', F.run (.arr (ND.vec (fins c))) (.arr (ND.vec (fins e))) o = .ok r ∧
              r.coeffs = fins c' ∧ r.exps = fins e' ∧ c'.length = ns + np ∧ e'.length = ns + np ∧
              (∀ a ∈ c', 0 < a) ∧ (∀ a ∈ e', 0 < a) ∧
              (o.optCoeffs = true → r.performance ≠ [] → c'.sum ≤ T.getD I * (J / I)) := by
  obtain ⟨R, hi, hex, hA⟩ := bundled_kin d hd isAlpha low tf ht fs s ha hz hfs
  refine ⟨R, hi, hex, fun A hst pts hp hc => ?_⟩
  obtain ⟨k, h1, hnn, hzero⟩ := hA A hst
  refine ⟨pts.map k, h1 pts, by
    intro y hy
    obtain ⟨r, -, rfl⟩ := List.mem_map.mp hy
    exact hnn r, fun sph ns np hsp μ T hT => ?_⟩
  obtain ⟨m, F, I, J, q1, q2, q3, q4, q5, q6, -, q7⟩ := radial_fit_masked hp hnn
    (kin_index hnn hzero hp hc sph) ns np hsp μ T hT
  refine ⟨m, F, I, J, q1, q2, q3, q4, ?_, q6.target, q7⟩
  rw [List.map_map]
  exact q5

/-! ### The script -/

theorem diffuse_core (n : ℕ) : diffuseSpec n = (coreSpec 1 n false).map fun r => 50 * r := by
  unfold diffuseSpec coreSpec
  rw [List.map_map]
  refine List.map_congr_left fun p _ => ?_
  simp only [Function.comp_apply, Bool.false_eq_true, if_false]
  push_cast
  ring

theorem diffuse_nodup (n : ℕ) : (diffuseSpec n).Nodup := by
  rw [diffuse_core]
  exact (core_nodup 1 (by norm_num) n false).map fun a b h => by
    have h' : (50 : ℝ) * a = 50 * b := h
    linarith

theorem diffuse_ge (n : ℕ) : ∀ r ∈ diffuseSpec n, 1 / (n : ℝ) ^ 2 ≤ r := by
  intro r hr
  obtain ⟨p, hp, rfl⟩ := List.mem_map.mp hr
  have hp := List.mem_range.mp hp
  have hn : (0 : ℝ) < n := by exact_mod_cast (by omega : 0 < n)
  have hp1 : (1 : ℝ) ≤ ((p + 1 : ℕ) : ℝ) := by exact_mod_cast (by omega : 1 ≤ p + 1)
  have hpn : ((p + 1 : ℕ) : ℝ) ≤ n := by exact_mod_cast (by omega : p + 1 ≤ n)
  have hx : |π * ((p + 1 : ℕ) : ℝ) / (2 * n)| ≤ π := by
    rw [abs_of_nonneg (by have := pi_pos; positivity), div_le_iff₀ (by positivity)]
    have := pi_pos
    nlinarith
  have h1 := Real.cos_le_one_sub_mul_cos_sq hx
  have h2 : 2 / π ^ 2 * (π * ((p + 1 : ℕ) : ℝ) / (2 * n)) ^ 2 = ((p + 1 : ℕ) : ℝ) ^ 2 / (2 * (n : ℝ) ^ 2) := by
    have := pi_ne_zero
    field_simp
  rw [h2] at h1
  have h3 : 1 / (2 * (n : ℝ) ^ 2) ≤ ((p + 1 : ℕ) : ℝ) ^ 2 / (2 * (n : ℝ) ^ 2) := by
    gcongr
    nlinarith
  have h4 : 1 / (n : ℝ) ^ 2 = 2 * (1 / (2 * (n : ℝ) ^ 2)) := by
    field_simp
  have h5 : 0 ≤ 1 / (2 * (n : ℝ) ^ 2) := by positivity
  rw [h4]
  linarith

/-- The grids of the script have more than 630 points at a distance from the origin. -/
theorem table_diffuse (z : ℤ) (hz : 0 < z) (o : Bool) {pts : List ℝ}
    (h : clenshawRadialGrid (.int z) (.int 10000) (.int 899) (.seq (fins [50, 75, 100])) (.bool o) = .ok ⟨fins pts⟩) :
    630 ≤ (pts.toFinset.filter fun z => 1e-10 ≤ |z|).card := by
  obtain ⟨pts', g1, -, -, g4⟩ := C05_clenshaw_points z hz 10000 899 (.seq (fins [50, 75, 100])) [50, 75, 100] (.inr rfl) o
  simp only [Nat.cast_ofNat] at g1
  rw [h] at g1
  simp only [Except.ok.injEq, RadialGrid.mk.injEq] at g1
  have : pts = pts' := List.map_injective_iff.mpr (fun a b h => by simpa using h) g1
  subst this
  have hsub : (diffuseSpec 899).toFinset ⊆ pts.toFinset.filter fun z => 1e-10 ≤ |z| := by
    intro x hx
    rw [List.mem_toFinset] at hx
    rw [Finset.mem_filter, List.mem_toFinset, g4.mem_iff]
    refine ⟨by simp [hx], ?_⟩
    have := diffuse_ge 899 x hx
    refine le_trans ?_ (this.trans (le_abs_self x))
    norm_num
  have hc := Finset.card_le_card hsub
  rw [List.toFinset_card_of_nodup (diffuse_nodup 899)] at hc
  simp only [diffuseSpec, List.length_map, List.length_range] at hc
  omega

/-- **C129** (element).  For every element from hydrogen to xenon one pass of the loop of `table_5.py` completes.
With `ns` and `np` the numbers of `S` and `P` exponents in the UGBS file (not both zero), the fit has `ns + np`
coefficients and exponents, all positive; the coefficients add up to at most `I + 1.3e-11` where `I > 0` is the
integral of the kinetic energy density on the grid.  The printed errors are `goodness_of_fit` of these coefficients
and exponents. -/
theorem C129_element (isAlpha : Str → Bool) (low : Str → Str) (hl : LowersAscii low) (tf : Str → Py XR)
    (ht : ReadsFloats tf) (fs : Str → Option (List Str)) (dir : Str) (hf : HasData fs dir)
    (s : Str) (ha : isAlpha s = true) (z : ℕ) (hz : HasZ (low s) z) (hr : z ≤ 54) :
    ∃ pts kin row ugbs S P c e R A m F, ∃ I v l1 linf ls : ℝ,
      clenshawRadialGrid (.int z) (.int 10000) (.int 899) (.seq (fins [50, 75, 100])) (.bool false) = .ok ⟨fins pts⟩ ∧
      slaterInit isAlpha low tf fs (.str s) false false = some (.ok R) ∧ Stores R A ∧
      A.kinetic (ND.vec (fins pts)) = .ok (fins kin) ∧
      integrateOn (.radial ⟨fins pts⟩) true (fins kin) = .ok (XR.fin I) ∧ 0 < I ∧
      ugbsExponents low tf fs (dir ++ "parse_ugbs.py".toList) (.str s) = .ok ugbs ∧
      ugbs "S".toList = some (fins S) ∧ ugbs "P".toList = some (fins P) ∧ S ≠ [] ∧
      table5Row isAlpha low tf fs (dir ++ "parse_ugbs.py".toList) s z = some (.ok row) ∧ row.kinetic = fins kin ∧
      row.coeffs = fins c ∧ row.exps = fins e ∧ c.length = S.length + P.length ∧ e.length = S.length + P.length ∧
      (∀ a ∈ c, 0 < a) ∧ (∀ a ∈ e, 0 < a) ∧ c.sum ≤ I + 1.3e-11 ∧
      Atomic.init (.arr (.one (fins pts))) .none (.int S.length) (.int P.length) true = .ok m ∧
      FPI.init (.radial ⟨fins pts⟩) (fins kin) (.atom m) (XR.fin 1e-18) none true = .ok F ∧
      F.goodness row.coeffs row.exps = .ok row.last ∧ row.last.integral = XR.fin v ∧ 0 ≤ v ∧
      row.last.l1 = XR.fin l1 ∧ 0 ≤ l1 ∧ row.last.linf = XR.fin linf ∧ 0 ≤ linf ∧ row.last.ls = XR.fin ls ∧ 0 ≤ ls := by
  have hz1 := hz.1
  have hz0 : (0 : ℤ) < (z : ℤ) := by exact_mod_cast hz1
  obtain ⟨d, hd, hdz, hdc⟩ := bundled_neutral hz1 hr
  subst hdz
  obtain ⟨R, h1, hS, h2⟩ := bundled_kin d hd isAlpha low tf ht.dec fs s ha hz (by
    rw [hdc]; exact hf.neutral d hd hdc _ hz)
  simp only [hdc, reduceCtorEq, decide_false] at h1
  have hA := attrs_stores hS
  obtain ⟨k, t1, t2, t3⟩ := h2 _ hA
  obtain ⟨pts, g1, g2, g3, g4⟩ := table_grid (d.z : ℤ) hz0 false
  have hi := kin_index t2 t3 g2 (table_diffuse (d.z : ℤ) hz0 false g1) true
  obtain ⟨ugbs, S, P, u1, u2, u3, u4, u5, u6⟩ := table_start low hl tf ht fs dir hf.ugbs s d.z hz hr (10 / 3)
  have hlen : 0 < S.length + P.length := by
    have := List.length_pos_of_ne_nil u4
    omega
  have hzr : (0 : ℝ) < d.z := by exact_mod_cast hz1
  obtain ⟨m, F, I, J, r, c', e', p, q1, q2, q3, q4, q5, r1, r2, r3, r4, r5, r6, r7, r8, k1, kg, k2, -⟩ :=
    radial_run g2 t2 hi S.length P.length (by omega) 1e-18 none (by simp)
      (List.replicate (S.length + P.length) ((d.z : ℝ) / ((S.length + P.length : ℕ) : ℝ)))
      ((S ++ P).map fun x => x * (10 / 3)) (by simp) (by simp) (by
        intro a ha
        rw [List.eq_of_mem_replicate ha]
        have : (0 : ℝ) < ((S.length + P.length : ℕ) : ℝ) := by exact_mod_cast hlen
        positivity) (by
        intro a ha
        obtain ⟨b, hb, rfl⟩ := List.mem_map.mp ha
        have := u5.1 b hb
        positivity) tableOpts rfl (by simp [tableOpts]) ⟨_, rfl⟩ ⟨_, rfl⟩
  obtain ⟨v, l1, linf, ls, w⟩ := k2
  simp only [Option.map_none] at q2
  refine ⟨pts, pts.map k, ⟨fins (pts.map k), r.success, r.coeffs, r.exps, p⟩, ugbs, S, P, c', e', R, R.attrs, m, F, I, v, l1,
    linf, ls, g1, h1, hA, t1 pts, q3, q4, u1, u2, u3, u4, ?_, rfl, r2, r3, r4, r5, r6, r7, ?_, q1, q2, kg, w⟩
  · unfold table5Row
    rw [g1, u1]
    simp only
    rw [u6]
    simp only
    rw [h1]
    simp only
    unfold table5Fit
    simp only [inScript, q1, t1]
    rw [q2]
    simp only
    rw [r1]
    simp only [k1]
  · have hne : pts ≠ [] := by
      obtain ⟨i, hil, -⟩ := hi
      intro h
      simp [h] at hil
    have hJ := masked_le g2 g4 hne t2 (by norm_num) q3 q5
    have hpi := pi_lt_d2
    simp only [Option.getD_none] at r8
    rw [mul_div_cancel₀ _ q4.ne'] at r8
    refine r8.trans (hJ.trans ?_)
    nlinarith

/-- **C129** (script).  `table_5.py` runs to its end and prints results for zinc, rhodium and iodine. -/
theorem C129_script (isAlpha : Str → Bool) (hal : ∀ s ∈ symbols, isAlpha s = true) (low : Str → Str)
    (hl : LowersAscii low) (tf : Str → Py XR) (ht : ReadsFloats tf) (fs : Str → Option (List Str)) (dir : Str)
    (hf : HasData fs dir) :
    ∃ zn rh i, table5 isAlpha low tf fs (dir ++ "parse_ugbs.py".toList) = some (.ok [zn, rh, i]) ∧
      ∀ row ∈ [zn, rh, i], ∃ c e : List ℝ, row.coeffs = fins c ∧ row.exps = fins e ∧ c ≠ [] ∧ c.length = e.length ∧
        (∀ a ∈ c, 0 < a) ∧ ∀ a ∈ e, 0 < a := by
  have key : ∀ s z, HasZ s z → z ≤ 54 → (∀ c ∈ s, c.toNat < 128) → s.map Char.toLower = s → ∃ row,
      table5Row isAlpha low tf fs (dir ++ "parse_ugbs.py".toList) s z = some (.ok row) ∧
      ∃ c e : List ℝ, row.coeffs = fins c ∧ row.exps = fins e ∧ c ≠ [] ∧ c.length = e.length ∧
        (∀ a ∈ c, 0 < a) ∧ ∀ a ∈ e, 0 < a := by
    intro s z hz hz54 h1 h2
    obtain ⟨pts, kin, row, ugbs, S, P, c, e, R, A, m, F, I, v, l1, linf, ls, -, -, -, -, -, -, -, -, -, hS, k1, -, k2, k3, k4, k5,
      k6, k7, -⟩ := C129_element isAlpha low hl tf ht fs dir hf s (hal _ (List.mem_of_getElem? hz.2)) z
      (by rw [hl _ h1, h2]; exact hz) hz54
    refine ⟨row, k1, c, e, k2, k3, ?_, by omega, k6, k7⟩
    intro h
    have := List.length_pos_of_ne_nil hS
    simp [h] at k4
    omega
  obtain ⟨zn, a1, a2⟩ := key "zn".toList 30 ⟨by norm_num, by decide +kernel⟩ (by norm_num) (by decide) (by decide)
  obtain ⟨rh, b1, b2⟩ := key "rh".toList 45 ⟨by norm_num, by decide +kernel⟩ (by norm_num) (by decide) (by decide)
  obtain ⟨i, c1, c2⟩ := key "i".toList 53 ⟨by norm_num, by decide +kernel⟩ (by norm_num) (by decide) (by decide)
  refine ⟨zn, rh, i, ?_, ?_⟩
  · unfold table5
    simp only [kinAtoms, List.drop_succ_cons, List.drop_zero]
    simp only [Nat.cast_ofNat] at a1 b1 c1
    simp only [table5Loop, a1, b1, c1]
  · intro row hrow
    simp only [List.mem_cons, List.not_mem_nil, or_false] at hrow
    rcases hrow with rfl | rfl | rfl
    · exact a2
    · exact b2
    · exact c2

/-! ### Examples -/

/-- With the files in their places. -/
example : ∃ rows, table5 (fun _ => true) (fun s => s.map Char.toLower) (fun w => .ok (.fin (readSci w))) exampleFiles
    "/x/parse_ugbs.py".toList = some (.ok rows) ∧ rows.length = 3 := by
  obtain ⟨zn, rh, i, h, -⟩ := C129_script (fun _ => true) (fun _ _ => rfl) (fun s => s.map Char.toLower) (fun _ _ => rfl)
    _ reads_floats_example exampleFiles "/x/".toList exampleFiles_hasData
  exact ⟨_, h, rfl⟩

/-- The kinetic energy density of the outer orbital of helium is not zero at one of two radii. -/
example : ∃ k : ℝ → ℝ, (∀ x : List ℝ, heOuter.kinetic (ND.vec (fins x)) = .ok (fins (x.map k))) ∧ (k 1 ≠ 0 ∨ k 2 ≠ 0) := by
  obtain ⟨k, k1, -⟩ := C68_kinetic heOuter_isSlater
  refine ⟨k, k1, ?_⟩
  by_contra hcon
  push Not at hcon
  have h := C129_zeros heOuter_isSlater k _ k1 (atomicDensity_total heOuter_isSlater) 2 (by
      intro o ho l hl
      simp only [heOuter, Option.some.injEq] at hl
      subst hl
      simp) {1, 2} (by rw [Finset.card_pair (by norm_num)]) (by
      intro z hz
      simp only [Finset.mem_insert, Finset.mem_singleton] at hz
      rcases hz with rfl | rfl
      · exact ⟨by norm_num, hcon.1⟩
      · exact ⟨by norm_num, hcon.2⟩) 1
  simp only [densR, heOuter, orbR, slaterR, List.map_cons, List.map_nil, wsum_cons, wsum_nil_left] at h
  revert h
  apply ne_of_gt
  positivity

end
end BFit
