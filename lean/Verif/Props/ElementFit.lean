import Verif.Props.Bundled
import Verif.Props.Accuracy
import Verif.Props.SlaterMoment
import Verif.Props.GreedyTotal

/-! Property C123: from the symbol of an element to the fit of its density. -/

namespace BFit

open Real MeasureTheory Set Filter Topology

noncomputable section

/-! ### The densities are smooth -/

theorem slaterR_smooth (z : ℝ) (n : ℕ) : ContDiff ℝ 2 (slaterR z n) := by
  unfold slaterR
  exact (contDiff_const.mul (contDiff_id.pow _)).mul (contDiff_exp.comp (contDiff_const.mul contDiff_id))

theorem orbR_smooth (bs : List (ℝ × ℕ)) (c : List ℝ) : ContDiff ℝ 2 (orbR bs c) := by
  unfold orbR
  induction bs generalizing c with
  | nil => simpa using contDiff_const
  | cons b bs ih =>
    cases c with
    | nil => simpa using contDiff_const
    | cons a c =>
      simp only [List.map_cons, wsum_cons]
      exact ((slaterR_smooth _ _).mul contDiff_const).add (ih c)

theorem densR_smooth (os : List Orb) (basis : Sub → List (ℝ × ℕ)) (c : Orb → List ℝ) (w : List ℝ) :
    ContDiff ℝ 2 (densR os basis c w) := by
  unfold densR
  refine ContDiff.div_const ?_ _
  induction os generalizing w with
  | nil => simpa using contDiff_const
  | cons o os ih =>
    cases w with
    | nil => simpa using contDiff_const
    | cons a w =>
      simp only [List.map_cons, wsum_cons]
      exact (((orbR_smooth _ _).pow 2).mul contDiff_const).add (ih w)

/-- The spherical integral of a smooth integrable radial function on uniform grids. -/
theorem radial_converges (F : ℝ → ℝ) (hF : ContDiff ℝ 2 F)
    (hi : Integrable fun p : EuclideanSpace ℝ (Fin 3) => F ‖p‖) (ε : ℝ) (hε : 0 < ε) :
    ∃ B : ℝ, ∀ b > B, ∃ n₀ : ℤ, ∀ n ≥ n₀, ∃ (pts : List ℝ) (v : ℝ),
      uniformRadialGrid (.int n) (.float (XR.fin 0)) (.float (XR.fin b)) = .ok ⟨fins pts⟩ ∧
      pts.Pairwise (· < ·) ∧ (∀ r ∈ pts, 0 ≤ r) ∧
      integrateOn (.radial ⟨fins pts⟩) true (fins (pts.map F)) = .ok (XR.fin v) ∧
      |v - ∫ p : EuclideanSpace ℝ (Fin 3), F ‖p‖| < ε := by
  have hsm : ContDiff ℝ 2 (fun r => F r * 4 * π * r ^ 2) :=
    ((hF.mul contDiff_const).mul contDiff_const).mul (contDiff_id.pow 2)
  have hlim : Tendsto (fun b => ∫ r in (0 : ℝ)..b, F r * 4 * π * r ^ 2) atTop
      (𝓝 (∫ p : EuclideanSpace ℝ (Fin 3), F ‖p‖)) := by
    have h1 := intervalIntegral_tendsto_integral_Ioi 0 ((integrable_radial F).mp hi) tendsto_id
    have h2 := h1.const_mul (4 * π)
    rw [← integral_radial] at h2
    refine h2.congr fun b => ?_
    rw [← intervalIntegral.integral_const_mul]
    congr 1
    funext r
    ring
  obtain ⟨B, hB⟩ := (eventually_atTop.mp (hlim.eventually (Metric.ball_mem_nhds _ (half_pos hε))))
  refine ⟨max B 0, fun b hb => ?_⟩
  have hb0 : 0 < b := (le_max_right _ _).trans_lt hb
  obtain ⟨n₀, hn₀⟩ := C77_converges 0 b hb0 _ hsm (ε / 2) (half_pos hε)
  refine ⟨max n₀ 2, fun n hn => ?_⟩
  obtain ⟨pts, v, h1, h2, h3⟩ := hn₀ n ((le_max_left _ _).trans hn)
  have hn2 : 2 ≤ n := (le_max_right _ _).trans hn
  obtain ⟨pts', g1, -, g3, -, -, g6, -⟩ :=
    C04_uniform_points n (by omega) (.int n) (.float (XR.fin 0)) (.float (XR.fin b)) 0 b hb0 (.int n) (.float _) (.float _)
  have e : pts' = pts := by
    rw [g1] at h1
    simp only [Except.ok.injEq, RadialGrid.mk.injEq] at h1
    exact List.map_injective_iff.mpr (fun a b hab => by simpa using hab) h1
  subst e
  refine ⟨pts', v, g1, g6, ?_, ?_, ?_⟩
  · intro r hr
    cases pts' with
    | nil => simp at hr
    | cons p ps =>
      have g3 : p = 0 := by simpa using g3
      rw [List.pairwise_cons] at g6
      rcases List.mem_cons.mp hr with rfl | h
      · exact g3.ge
      · exact g3 ▸ (g6.1 r h).le
  · rw [spherical_eq]; exact h2
  · have h4 := hB b ((le_max_left _ _).trans hb.le)
    rw [Real.dist_eq] at h4
    calc |v - ∫ p : EuclideanSpace ℝ (Fin 3), F ‖p‖| = |(v - ∫ r in (0 : ℝ)..b, F r * 4 * π * r ^ 2) +
          ((∫ r in (0 : ℝ)..b, F r * 4 * π * r ^ 2) - ∫ p : EuclideanSpace ℝ (Fin 3), F ‖p‖)| := by
            congr 1; ring
      _ ≤ _ := abs_add_le _ _
      _ < ε := by linarith

theorem tab_map (pts : List ℝ) (t : ℝ → ℝ) : tab pts.length (fun i => t (vec pts i)) = pts.map t := by
  unfold tab
  apply List.ext_getElem
  · simp
  · intro i h1 h2
    simp only [List.length_map, List.length_range] at h1
    simp [vec, List.getD_eq_getElem?_getD, h1]

/-- Fit of a non-negative function with a positive integral on a radial grid. -/
theorem radial_fit {pts : List ℝ} (hp : pts.Pairwise (· < ·)) {t : ℝ → ℝ} (ht : ∀ r, 0 ≤ t r) {v : ℝ}
    (hv : integrateOn (.radial ⟨fins pts⟩) true (fins (pts.map t)) = .ok (XR.fin v)) (hv0 : 0 < v)
    (ns np : ℕ) (hsp : ns + np ≠ 0) (μ : ℝ) :
    ∃ m F, Atomic.init (.arr (.one (fins pts))) .none (.int ns) (.int np) true = .ok m ∧
      FPI.init (.radial ⟨fins pts⟩) (fins (pts.map t)) (.atom m) (XR.fin μ) none true = .ok F ∧
      F.integralDens = XR.fin v ∧
      ∀ (o : FPIOpts), (o.optCoeffs = true ∨ o.optExpons = true) → ∀ c e : List ℝ,
        c.length = ns + np → e.length = ns + np → (∀ a ∈ c, 0 < a) → (∀ a ∈ e, 0 < a) →
        ∃ r c' e', F.run (.arr (ND.vec (fins c))) (.arr (ND.vec (fins e))) o = .ok r ∧
          r.coeffs = fins c' ∧ r.exps = fins e' ∧ c'.length = ns + np ∧ e'.length = ns + np ∧
          (∀ a ∈ c', 0 < a) ∧ (∀ a ∈ e', 0 < a) ∧
          (o.optCoeffs = true → 1 ≤ o.maxiter → (∃ a : ℝ, o.eThr = XR.fin a) → (∃ a : ℝ, o.dThr = XR.fin a) →
            (∀ r ∈ pts, μ ≤ t r) → c'.sum ≤ v) := by
  obtain ⟨m, hm, ha, hno⟩ := (C18_radii_1d pts 0 ns np hsp true).2
  have hmod := atom_isModel ha hsp
  rw [hno, List.length_map] at hmod
  have hq := radW_quad pts true
  set f : ℕ → ℝ := fun i => t (vec pts i) with hf
  have hsum : ∑ i ∈ Finset.range pts.length, radW pts true i * f i = v := by
    have := hq.fin f
    rw [tab_map pts t, hv] at this
    simpa using this.symm
  have hW : ∀ i < pts.length, 0 ≤ radW pts true i := fun i _ => radW_nonneg (hp.imp fun h => h.le) true i
  obtain ⟨F, hF, hI, -⟩ := (C34_finite μ none hmod hq (fun _ => ⟨_, rfl⟩) (fun i _ => ht (vec pts i))).1
    (by rw [hsum]; exact hv0.ne') (by simp)
  rw [Option.getD_none, hsum] at hI
  have hsees : (atomShape (pts.map fun x => |x|) ns np).Sees pts.length (radW pts true) f := by
    intro k _
    obtain ⟨i, hi, hpos⟩ := Finset.exists_lt_of_sum_lt (s := Finset.range pts.length) (f := fun _ => (0 : ℝ))
      (g := fun i => radW pts true i * f i) (by rw [hsum]; simpa using hv0)
    have hi' := Finset.mem_range.mp hi
    have hWp : 0 < radW pts true i := by
      rcases (hW i hi').lt_or_eq with h | h
      · exact h
      · rw [← h] at hpos; simp at hpos
    refine ⟨i, hi', hWp, pos_of_mul_pos_right hpos hWp.le, ?_⟩
    intro h0
    have : vec pts i = 0 := by
      simp only [atomShape, vec, List.getD_eq_getElem?_getD, List.getElem?_map,
        List.getElem?_eq_getElem hi', Option.map_some, Option.getD_some] at h0 ⊢
      exact abs_eq_zero.mp h0
    simp [radW, sphW, this] at hWp
  rw [tab_map] at hF
  refine ⟨m, F, hm, hF, hI.target, fun o huc c e hc he hcp hep => ?_⟩
  obtain ⟨r, c', e', h1, h2, h3, h4, h5, h6, h7, h8⟩ := fpi_run_pos hI hW hv0 hsees o huc c e hc he hcp hep
  refine ⟨r, c', e', h1, h2, h3, h4, h5, h6, h7, fun a1 a2 a3 a4 a5 => h8 a1 a2 a3 a4 fun i hi => a5 _ ?_⟩
  simp [vec, List.getD_eq_getElem?_getD, hi]

/-- **C123** (number of electrons).  On uniform grids `[0, b]` with `n` points the spherical integral of the
total density of an atom comes as close as wanted to its integral over space, once `b` and then `n` are large
enough. -/
theorem C123_electrons {A : SlaterAtom} {basis : Sub → List (ℝ × ℕ)} {c : Orb → List ℝ} {occ en : List ℝ}
    (h : IsSlater A basis c occ en) (t : ℝ → ℝ)
    (ht : ∀ x : List ℝ, A.atomicDensity (ND.vec (fins x)) "total" = .ok (fins (x.map t))) (ε : ℝ) (hε : 0 < ε) :
    ∃ B : ℝ, ∀ b > B, ∃ n₀ : ℤ, ∀ n ≥ n₀, ∃ (pts : List ℝ) (vals : List XR) (v : ℝ),
      uniformRadialGrid (.int n) (.float (XR.fin 0)) (.float (XR.fin b)) = .ok ⟨fins pts⟩ ∧
      A.atomicDensity (ND.vec (fins pts)) "total" = .ok vals ∧
      integrateOn (.radial ⟨fins pts⟩) true vals = .ok (XR.fin v) ∧
      |v - ∫ p : EuclideanSpace ℝ (Fin 3), t ‖p‖| < ε := by
  have e : t = densR A.orbitals basis c occ := by
    funext r
    have := (ht [r]).symm.trans (atomicDensity_total h [r])
    simpa [fins] using this
  subst e
  have hi := (dens_moment_space 0 A.orbitals basis c occ h.pos).1
  simp only [pow_zero, one_mul] at hi
  obtain ⟨B, hB⟩ := radial_converges _ (densR_smooth A.orbitals basis c occ) hi ε hε
  refine ⟨B, fun b hb => ?_⟩
  obtain ⟨n₀, hn⟩ := hB b hb
  refine ⟨n₀, fun n h' => ?_⟩
  obtain ⟨pts, v, h1, -, -, h4, h5⟩ := hn n h'
  exact ⟨pts, _, v, h1, ht pts, h4, h5⟩

/-- **C123** (from the symbol to the fit).  For each bundled atom, `SlaterAtoms(symbol, ...)` loads, and on all
uniform grids from zero that are long and then fine enough: the total density is returned, a Gaussian model with
any numbers of functions and `KLDivergenceFPI` can be constructed with it, the number of electrons that the
fit uses is the number of electrons of the atom up to `1e-5` of it and `ε`, and `run` returns for all positive
starting values, with positive coefficients and exponents.  The coefficients add up to at most the number of
electrons used if no density is below the mask value. -/
theorem C123_fit (d : DataFile) (hd : d ∈ Data.bundled) (isAlpha : Str → Bool) (low : Str → Str)
    (tf : Str → Py XR) (ht : ReadsDecimals tf) (fs : Str → Option (List Str)) (s : Str) (ha : isAlpha s = true)
    (hz : HasZ (low s) d.z) (hfs : fs (d.charge.path (low s)) = some d.lines) :
    ∃ R : RawAtom,
      slaterInit isAlpha low tf fs (.str s) (decide (d.charge = .anion)) (decide (d.charge = .cation)) =
        some (.ok R) ∧ (∃ A, Stores R A) ∧
      ∀ A, Stores R A → ∀ ε > (0 : ℝ), ∃ B : ℝ, ∀ b > B, ∃ n₀ : ℤ, ∀ n ≥ n₀, ∃ pts vals : List ℝ,
        uniformRadialGrid (.int n) (.float (XR.fin 0)) (.float (XR.fin b)) = .ok ⟨fins pts⟩ ∧
        A.atomicDensity (ND.vec (fins pts)) "total" = .ok (fins vals) ∧ (∀ y ∈ vals, 0 ≤ y) ∧
        ∀ ns np : ℕ, ns + np ≠ 0 → ∀ μ : ℝ, ∃ m F T,
          Atomic.init (.arr (.one (fins pts))) .none (.int ns) (.int np) true = .ok m ∧
          FPI.init (.radial ⟨fins pts⟩) (fins vals) (.atom m) (XR.fin μ) none true = .ok F ∧
          F.integralDens = XR.fin T ∧
          |T - d.charge.electrons d.z| ≤ 1e-5 * d.charge.electrons d.z + ε ∧
          ∀ (o : FPIOpts), (o.optCoeffs = true ∨ o.optExpons = true) → ∀ c e : List ℝ,
            c.length = ns + np → e.length = ns + np → (∀ a ∈ c, 0 < a) → (∀ a ∈ e, 0 < a) →
            ∃ r c' e', F.run (.arr (ND.vec (fins c))) (.arr (ND.vec (fins e))) o = .ok r ∧
              r.coeffs = fins c' ∧ r.exps = fins e' ∧ c'.length = ns + np ∧ e'.length = ns + np ∧
              (∀ a ∈ c', 0 < a) ∧ (∀ a ∈ e', 0 < a) ∧
              (o.optCoeffs = true → 1 ≤ o.maxiter → (∃ a : ℝ, o.eThr = XR.fin a) →
                (∃ a : ℝ, o.dThr = XR.fin a) → (∀ y ∈ vals, μ ≤ y) → c'.sum ≤ T) := by
  obtain ⟨R, f, -, hG, hg, hl, hR, hi⟩ := ok_sound (Data.bundled_ok d hd) (bundled_anion hd) (bundled_cation hd)
    isAlpha low tf ht fs s ha hz hfs
  have hwf : ∀ b ∈ f.toS.blocks, b.wf := by
    intro b hb
    obtain ⟨b', hb', rfl⟩ := List.mem_map.mp hb
    exact (hg b' hb').wf
  have hfin : ∀ b ∈ f.toS.blocks, b.finite := by
    intro b hb
    obtain ⟨b', hb', rfl⟩ := List.mem_map.mp hb
    exact (hg b' hb').finite
  refine ⟨R, hi, stores_exists hwf hR, fun A hA ε hε => ?_⟩
  obtain ⟨-, en, hs⟩ := loaded_isSlater hG.wf hwf hfin hR hA
  obtain ⟨t, h1, h2, h3⟩ := (good_loads hG hg hl hR hA).dens
  have e : t = densR A.orbitals f.toS.basisOf f.toS.coeffOf (f.toS.orbs.map fun o => (occSpec f.toS.config o : ℝ)) := by
    funext r
    have := (h1 [r]).symm.trans (atomicDensity_total hs [r])
    simpa [fins] using this
  have hsm : ContDiff ℝ 2 t := e ▸ densR_smooth _ _ _ _
  have hnn : ∀ r, 0 ≤ t r := fun r => e ▸ densR_nonneg _ _ _ _ hs.occ_nonneg r
  have hel : (1 : ℝ) ≤ d.charge.electrons d.z := by
    have h1 := hz.1
    have h2 : 1 ≤ d.charge.electrons d.z := by
      have hc := bundled_cation hd
      cases hch : d.charge with
      | neutral => exact h1
      | anion => exact Nat.le_add_left _ _
      | cation =>
        have := (hc hch).1.1
        simp only [Charge.electrons]
        omega
    exact_mod_cast h2
  obtain ⟨B, hB⟩ := radial_converges t hsm h2 (min ε (1 / 2)) (lt_min hε (by norm_num))
  refine ⟨B, fun b hb => ?_⟩
  obtain ⟨n₀, hn⟩ := hB b hb
  refine ⟨n₀, fun n h' => ?_⟩
  obtain ⟨pts, v, g1, g2, -, g4, g5⟩ := hn n h'
  have k1 := abs_lt.mp (g5.trans_le (min_le_right _ _))
  have k2 := abs_le.mp h3
  have hv0 : 0 < v := by
    have : (1e-5 : ℝ) * d.charge.electrons d.z = d.charge.electrons d.z / 100000 := by ring
    linarith [k1.1, k2.1]
  refine ⟨pts, pts.map t, g1, h1 pts, by
    intro y hy
    obtain ⟨r, -, rfl⟩ := List.mem_map.mp hy
    exact hnn r, fun ns np hsp μ => ?_⟩
  obtain ⟨m, F, q1, q2, q3, q4⟩ := radial_fit g2 hnn g4 hv0 ns np hsp μ
  refine ⟨m, F, v, q1, q2, q3, ?_, ?_⟩
  · have k3 := abs_lt.mp (g5.trans_le (min_le_left _ _))
    rw [abs_le]
    constructor <;> linarith [k3.1, k3.2, k2.1, k2.2]
  · intro o huc c e hc he hcp hep
    obtain ⟨r, c', e', r1, r2, r3, r4, r5, r6, r7, r8⟩ := q4 o huc c e hc he hcp hep
    exact ⟨r, c', e', r1, r2, r3, r4, r5, r6, r7, fun a1 a2 a3 a4 a5 =>
      r8 a1 a2 a3 a4 fun r hr => a5 _ (List.mem_map_of_mem hr)⟩

/-- Helium with one s-type and one p-type function: the number of electrons is within one tenth of 2. -/
example : ∃ (R : RawAtom) (A : SlaterAtom) (b : ℝ) (n : ℤ) (pts vals : List ℝ) (m : Atomic) (F : FPI) (T : ℝ)
    (r : FPIResult) (c' : List ℝ),
    slaterInit (fun _ => true) (fun s => s.map Char.toLower) (fun w => .ok (.fin (readDec w)))
      (fun p => if p = "/data/neutral/he.slater".toList then some Data.neutral_he.lines else none) (.str "He".toList)
      false false = some (.ok R) ∧ Stores R A ∧
    uniformRadialGrid (.int n) (.float (XR.fin 0)) (.float (XR.fin b)) = .ok ⟨fins pts⟩ ∧
    A.atomicDensity (ND.vec (fins pts)) "total" = .ok (fins vals) ∧
    Atomic.init (.arr (.one (fins pts))) .none (.int 1) (.int 1) true = .ok m ∧
    FPI.init (.radial ⟨fins pts⟩) (fins vals) (.atom m) (XR.fin 0) none true = .ok F ∧
    F.integralDens = XR.fin T ∧ |T - 2| ≤ 1 / 10 ∧
    F.run (.arr (ND.vec (fins [1, 1]))) (.arr (ND.vec (fins [1, 2])))
      ⟨true, true, 500, XR.fin 0, XR.fin 0, XR.fin 0⟩ = .ok r ∧
    r.coeffs = fins c' ∧ (∀ a ∈ c', 0 < a) ∧ c'.sum ≤ T := by
  obtain ⟨R, h1, ⟨A, hA⟩, h2⟩ := C123_fit Data.neutral_he (by simp [Data.bundled, Data.part1]) (fun _ => true)
    (fun s => s.map Char.toLower) _ reads_example
    (fun p => if p = "/data/neutral/he.slater".toList then some Data.neutral_he.lines else none) "He".toList rfl
    ⟨by decide +kernel, by decide +kernel⟩ (by rw [if_pos (by decide +kernel)])
  obtain ⟨B, hB⟩ := h2 A hA (1 / 20) (by norm_num)
  obtain ⟨n, hn⟩ := hB (B + 1) (by linarith)
  obtain ⟨pts, vals, g1, g2, g3, g4⟩ := hn n le_rfl
  obtain ⟨m, F, T, q1, q2, q3, q4, q5⟩ := g4 1 1 (by norm_num) 0
  obtain ⟨r, c', e', r1, r2, -, -, -, r6, -, r8⟩ := q5 ⟨true, true, 500, XR.fin 0, XR.fin 0, XR.fin 0⟩ (.inl rfl)
    [1, 1] [1, 2] rfl rfl (by simp) (by simp)
  refine ⟨R, A, B + 1, n, pts, vals, m, F, T, r, c', h1, hA, g1, g2, q1, q2, q3, ?_, r1, r2, r6,
    r8 rfl (by norm_num) ⟨0, rfl⟩ ⟨0, rfl⟩ g3⟩
  have e : ((Charge.electrons Data.neutral_he.charge Data.neutral_he.z : ℕ) : ℝ) = 2 := by
    have : Charge.electrons Data.neutral_he.charge Data.neutral_he.z = 2 := by decide +kernel
    rw [this]
    norm_num
  rw [e] at q4
  refine q4.trans (by norm_num)

end
end BFit
