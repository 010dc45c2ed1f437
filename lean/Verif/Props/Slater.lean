import Verif.Lemmas.Slater
import Mathlib.Analysis.SpecialFunctions.ExpDeriv
import Mathlib.Analysis.Calculus.Deriv.Pow
import Mathlib.Analysis.Calculus.Deriv.Inv

/-! Properties C62-C66 and C68: Slater functions, atomic density, its derivative and the kinetic energy
density. -/

namespace BFit

open Real Classical

noncomputable section

/-- The values of `radial_slater_orbital` at all points of a 1-D array: one row per point, one column
per Slater function.  Other arrays are rejected. -/
theorem C62_formula :
    (∀ (bs : List (ℝ × ℕ)), (∀ b ∈ bs, 0 < b.1 ∧ 1 ≤ b.2) → ∀ x : List ℝ,
      radialSlater (fins (bs.map Prod.fst)) (bs.map Prod.snd) (ND.vec (fins x)) =
        .ok (x.map fun r => fins (bs.map fun b =>
          (2 * b.1) ^ b.2 * sqrt (2 * b.1 / (Nat.factorial (2 * b.2))) * r ^ (b.2 - 1) *
            exp (-b.1 * r)))) ∧
    (∀ exps nums (points : ND XR), points.ndim ≠ 1 →
      radialSlater exps nums points = raise .valueError) := by
  constructor
  · intro bs hb x
    exact radialSlater_fins bs hb x
  · intro exps nums points h
    unfold radialSlater
    rw [if_pos h]

/-- Two Slater functions at three points, one of them the origin. -/
example : ∀ b ∈ [((3 / 2 : ℝ), 1), (2, 3)], 0 < b.1 ∧ 1 ≤ b.2 := by
  simp

theorem hasDerivAt_slaterR (z : ℝ) (n : ℕ) (r : ℝ) (hn : 1 ≤ n) (hr : r ≠ 0) :
    HasDerivAt (slaterR z n) (slaterR' z n r) r := by
  unfold slaterR' slaterR
  set K := (2 * z) ^ n * sqrt (2 * z / (Nat.factorial (2 * n))) with hK
  have h1 : HasDerivAt (fun r : ℝ => r ^ (n - 1)) (((n - 1 : ℕ) : ℝ) * r ^ (n - 1 - 1)) r :=
    hasDerivAt_pow _ _
  have h2 : HasDerivAt (fun r : ℝ => exp (-z * r)) (exp (-z * r) * (-z * 1)) r :=
    ((hasDerivAt_id r).const_mul (-z)).exp
  have h3 := ((h1.const_mul K).mul h2)
  refine h3.congr_deriv ?_
  obtain ⟨m, rfl⟩ : ∃ m, n = m + 1 := ⟨n - 1, by omega⟩
  simp only [Nat.add_sub_cancel]
  rcases m with _ | m
  · simp
    ring
  · simp only [Nat.add_sub_cancel]
    push_cast
    field_simp
    ring

/-- `derivative_radial_slater_type_orbital` is the derivative of `radial_slater_orbital` at a distance
of at least `1e-10` from the origin and zero closer to it. -/
theorem C63_derivative (bs : List (ℝ × ℕ)) (hb : ∀ b ∈ bs, 0 < b.1 ∧ 1 ≤ b.2) :
    ∃ g g' : ℝ × ℕ → ℝ → ℝ,
      (∀ x : List ℝ, radialSlater (fins (bs.map Prod.fst)) (bs.map Prod.snd) (ND.vec (fins x)) =
        .ok (x.map fun r => fins (bs.map fun b => g b r))) ∧
      (∀ x : List ℝ, derivSlater (fins (bs.map Prod.fst)) (bs.map Prod.snd) (ND.vec (fins x)) =
        .ok (x.map fun r => fins (bs.map fun b => g' b r))) ∧
      ∀ b ∈ bs, ∀ r : ℝ, (1e-10 ≤ |r| → HasDerivAt (g b) (g' b r) r) ∧ (|r| < 1e-10 → g' b r = 0) := by
  refine ⟨fun b => slaterR b.1 b.2, fun b => cutD (slaterR' b.1 b.2), radialSlater_fins bs hb,
    derivSlater_fins bs hb, ?_⟩
  intro b hb' r
  constructor
  · intro hr
    have h0 : r ≠ 0 := by
      rintro rfl
      rw [abs_zero] at hr
      norm_num at hr
    simp only [cutD, if_neg (not_lt.mpr hr)]
    exact hasDerivAt_slaterR b.1 b.2 r (hb b hb').2 h0
  · intro hr
    simp only [cutD, if_pos hr]

theorem hasDerivAt_orbR (bs : List (ℝ × ℕ)) (c : List ℝ) (hb : ∀ b ∈ bs, 0 < b.1 ∧ 1 ≤ b.2) (r : ℝ)
    (hr : r ≠ 0) : HasDerivAt (orbR bs c) (orbR' bs c r) r := by
  induction bs generalizing c with
  | nil =>
    have : orbR [] c = fun _ => 0 := by funext r; simp [orbR]
    rw [this]
    simpa [orbR'] using hasDerivAt_const r (0 : ℝ)
  | cons b bs ih =>
    cases c with
    | nil =>
      have : orbR (b :: bs) [] = fun _ => 0 := by funext r; simp [orbR]
      rw [this]
      simpa [orbR'] using hasDerivAt_const r (0 : ℝ)
    | cons a c =>
      have h1 := hasDerivAt_slaterR b.1 b.2 r (hb b (by simp)).2 hr
      have h2 := ih c (fun b' h' => hb b' (by simp [h']))
      have e : orbR (b :: bs) (a :: c) = fun r => slaterR b.1 b.2 r * a + orbR bs c r := by
        funext r; simp [orbR]
      rw [e]
      refine ((h1.mul_const a).add h2).congr_deriv ?_
      simp [orbR']

/-! ### Density -/

theorem valW_length (core : Bool) (h : ℝ) (occ en : List ℝ) (n : ℕ) (ho : occ.length = n)
    (he : en.length = n) : (valW core h occ en).length = n := by
  simp [valW, ho, he]

theorem valW_bounds (core : Bool) (h : ℝ) (occ en : List ℝ) (ho : ∀ x ∈ occ, 0 ≤ x) :
    ∀ y ∈ valW core h occ en, 0 ≤ y := by
  induction occ generalizing en with
  | nil => simp [valW]
  | cons n occ ih =>
    cases en with
    | nil => simp [valW]
    | cons e en =>
      intro y hy
      simp only [valW, List.zipWith_cons_cons, List.mem_cons] at hy
      rcases hy with rfl | hy
      · have h1 : 0 ≤ n := ho n (by simp)
        have h2 : exp (-(e - h) ^ 2) ≤ 1 := exp_le_one_iff.mpr (by nlinarith [sq_nonneg (e - h)])
        have h3 := exp_pos (-(e - h) ^ 2)
        split
        · exact mul_nonneg h1 (by linarith)
        · exact mul_nonneg h1 h3.le
      · exact ih en (fun x hx => ho x (by simp [hx])) y hy

theorem valW_sum (h : ℝ) (f occ en : List ℝ) (hl : occ.length = en.length) :
    wsum f (valW true h occ en) + wsum f (valW false h occ en) = wsum f occ := by
  induction f generalizing occ en with
  | nil => simp
  | cons a f ih =>
    cases occ with
    | nil => simp [valW]
    | cons n occ =>
      cases en with
      | nil => simp at hl
      | cons e en =>
        have := ih occ en (by simpa using hl)
        simp only [valW, List.zipWith_cons_cons, wsum_cons, if_true, Bool.false_eq_true,
          if_false] at this ⊢
        linarith

theorem densR_nonneg (os : List Orb) (basis : Sub → List (ℝ × ℕ)) (c : Orb → List ℝ) (w : List ℝ)
    (hw : ∀ y ∈ w, 0 ≤ y) (r : ℝ) : 0 ≤ densR os basis c w r := by
  unfold densR
  apply div_nonneg _ (by positivity)
  apply wsum_nonneg
  · intro y hy
    simp only [List.mem_map] at hy
    obtain ⟨o, _, rfl⟩ := hy
    positivity
  · exact hw

theorem atomicDensity_total {A : SlaterAtom} {basis : Sub → List (ℝ × ℕ)} {c : Orb → List ℝ}
    {occ en : List ℝ} (h : IsSlater A basis c occ en) (x : List ℝ) :
    A.atomicDensity (ND.vec (fins x)) "total" = .ok (fins (x.map (densR A.orbitals basis c occ))) := by
  unfold SlaterAtom.atomicDensity
  rw [if_neg (by decide), if_neg (by decide), if_neg (by decide), h.occ_eq]
  exact densityWith_fins h x occ h.occ_len

theorem atomicDensity_valence {A : SlaterAtom} {basis : Sub → List (ℝ × ℕ)} {c : Orb → List ℝ}
    {occ en : List ℝ} (h : IsSlater A basis c occ en) (h0 : A.orbitals ≠ []) (x : List ℝ) :
    A.atomicDensity (ND.vec (fins x)) "valence" =
      .ok (fins (x.map (densR A.orbitals basis c (valW false (lastEn en) occ en)))) := by
  unfold SlaterAtom.atomicDensity
  rw [if_neg (by decide), if_pos rfl, weighted_fins h h0]
  exact densityWith_fins h x _ (valW_length _ _ _ _ _ h.occ_len h.en_len)

theorem atomicDensity_core {A : SlaterAtom} {basis : Sub → List (ℝ × ℕ)} {c : Orb → List ℝ}
    {occ en : List ℝ} (h : IsSlater A basis c occ en) (h0 : A.orbitals ≠ []) (x : List ℝ) :
    A.atomicDensity (ND.vec (fins x)) "core" =
      .ok (fins (x.map (densR A.orbitals basis c (valW true (lastEn en) occ en)))) := by
  unfold SlaterAtom.atomicDensity
  rw [if_neg (by decide), if_neg (by decide), if_pos rfl, weighted_fins h h0]
  exact densityWith_fins h x _ (valW_length _ _ _ _ _ h.occ_len h.en_len)

/-- The three modes of `atomic_density`: non-negative, core and valence add up to the total density
`Σ n_i φ_i² / 4π`, each of them is at most the total. -/
theorem C64_split {A : SlaterAtom} {basis : Sub → List (ℝ × ℕ)} {c : Orb → List ℝ} {occ en : List ℝ}
    (h : IsSlater A basis c occ en) (h0 : A.orbitals ≠ []) :
    ∃ t cr v : ℝ → ℝ,
      (∀ x : List ℝ, A.atomicDensity (ND.vec (fins x)) "total" = .ok (fins (x.map t)) ∧
        A.atomicDensity (ND.vec (fins x)) "core" = .ok (fins (x.map cr)) ∧
        A.atomicDensity (ND.vec (fins x)) "valence" = .ok (fins (x.map v))) ∧
      ∀ r : ℝ, 0 ≤ t r ∧ 0 ≤ cr r ∧ 0 ≤ v r ∧ t r = cr r + v r ∧ cr r ≤ t r ∧ v r ≤ t r ∧
        t r = (List.zipWith (fun o n => n * orbR (basis o.sub) (c o) r ^ 2) A.orbitals occ).sum /
          (4 * π) := by
  refine ⟨_, _, _, fun x => ⟨atomicDensity_total h x, atomicDensity_core h h0 x,
    atomicDensity_valence h h0 x⟩, fun r => ?_⟩
  have h1 := densR_nonneg A.orbitals basis c occ h.occ_nonneg r
  have h2 := densR_nonneg A.orbitals basis c _ (valW_bounds true (lastEn en) occ en h.occ_nonneg) r
  have h3 := densR_nonneg A.orbitals basis c _ (valW_bounds false (lastEn en) occ en h.occ_nonneg) r
  have h4 : densR A.orbitals basis c occ r = densR A.orbitals basis c (valW true (lastEn en) occ en) r +
      densR A.orbitals basis c (valW false (lastEn en) occ en) r := by
    unfold densR
    rw [← add_div, valW_sum _ _ _ _ (by rw [h.occ_len, h.en_len])]
  refine ⟨h1, h2, h3, h4, by linarith, by linarith, ?_⟩
  unfold densR wsum
  rw [List.zipWith_map_left]
  congr 3
  funext o n
  ring

/-- An unknown mode is rejected whatever the atom and the points. -/
theorem C64_unknown_mode (A : SlaterAtom) (points : ND XR) (mode : String)
    (h : mode ≠ "total" ∧ mode ≠ "valence" ∧ mode ≠ "core") :
    A.atomicDensity points mode = raise .valueError := by
  unfold SlaterAtom.atomicDensity
  rw [if_pos (by tauto)]

/-! ### Derivative of the density -/

theorem hasDerivAt_densR (os : List Orb) (basis : Sub → List (ℝ × ℕ)) (c : Orb → List ℝ) (w : List ℝ)
    (hb : ∀ o ∈ os, ∀ b ∈ basis o.sub, 0 < b.1 ∧ 1 ≤ b.2) (r : ℝ) (hr : r ≠ 0) :
    HasDerivAt (densR os basis c w)
      (wsum (os.map fun o => 2 * (orbR (basis o.sub) (c o) r * orbR' (basis o.sub) (c o) r)) w /
        (4 * π)) r := by
  unfold densR
  apply HasDerivAt.div_const
  induction os generalizing w with
  | nil => simpa using hasDerivAt_const r (0 : ℝ)
  | cons o os ih =>
    cases w with
    | nil => simpa using hasDerivAt_const r (0 : ℝ)
    | cons a w =>
      have h1 := (hasDerivAt_orbR (basis o.sub) (c o) (hb o (by simp)) r hr).pow 2
      have h2 := ih w (fun o' h' => hb o' (by simp [h']))
      simp only [List.map_cons, wsum_cons]
      refine ((h1.mul_const a).add h2).congr_deriv ?_
      simp only [Nat.cast_ofNat, Nat.add_one_sub_one, pow_one]
      ring

theorem derivDensity_fins {A : SlaterAtom} {basis : Sub → List (ℝ × ℕ)} {c : Orb → List ℝ}
    {occ en : List ℝ} (h : IsSlater A basis c occ en) (x : List ℝ) :
    A.derivDensity (ND.vec (fins x)) = .ok (fins (x.map fun r =>
      wsum (A.orbitals.map fun o => 2 * (orbR (basis o.sub) (c o) r *
        cutD (orbR' (basis o.sub) (c o)) r)) occ / (4 * π))) := by
  unfold SlaterAtom.derivDensity
  rw [phiMatrix_fins h, phiMatrix_fins h]
  simp only
  have e : List.zipWith (fun a b => List.zipWith (fun x y => XR.fin 2 * (x * y)) a b)
      (x.map fun r => fins (A.orbitals.map fun o => colVal basis c false o r))
      (x.map fun r => fins (A.orbitals.map fun o => colVal basis c true o r)) =
      x.map fun r => fins (A.orbitals.map fun o => 2 * (orbR (basis o.sub) (c o) r *
        cutD (orbR' (basis o.sub) (c o)) r)) := by
    rw [List.zipWith_map, List.zipWith_self]
    apply List.map_congr_left
    intro r _
    simp only [fins, List.map_map, List.zipWith_map, List.zipWith_self]
    apply List.map_congr_left
    intro o _
    simp [colVal]
  rw [e, h.occ_eq, matVec_fins _ _ _ _ h.occ_len]
  simp only [four_pi]
  congr 1
  simp only [fins, List.map_map]
  apply List.map_congr_left
  intro r _
  simp only [Function.comp]
  rw [XR.div_fin_of_ne _ four_pi_ne]

/-- `derivative_density` is the derivative of the total `atomic_density` at a distance of at least
`1e-10` from the origin and zero closer to it. -/
theorem C66_derivative {A : SlaterAtom} {basis : Sub → List (ℝ × ℕ)} {c : Orb → List ℝ} {occ en : List ℝ}
    (h : IsSlater A basis c occ en) :
    ∃ t d : ℝ → ℝ,
      (∀ x : List ℝ, A.atomicDensity (ND.vec (fins x)) "total" = .ok (fins (x.map t))) ∧
      (∀ x : List ℝ, A.derivDensity (ND.vec (fins x)) = .ok (fins (x.map d))) ∧
      ∀ r : ℝ, (1e-10 ≤ |r| → HasDerivAt t (d r) r) ∧ (|r| < 1e-10 → d r = 0) := by
  refine ⟨_, _, atomicDensity_total h, derivDensity_fins h, fun r => ⟨fun hr => ?_, fun hr => ?_⟩⟩
  · have h0 : r ≠ 0 := by
      rintro rfl
      rw [abs_zero] at hr
      norm_num at hr
    simp only [cutD, if_neg (not_lt.mpr hr)]
    exact hasDerivAt_densR _ _ _ _ h.pos r h0
  · simp only [cutD, if_pos hr, mul_zero, wsum_zero, zero_div]

/-! ### Kinetic energy density -/

/-- One entry of the kinetic energy matrix. -/
def kinVal (basis : Sub → List (ℝ × ℕ)) (c : Orb → List ℝ) (o : Orb) (r : ℝ) : ℝ :=
  cutD (fun r => orbR' (basis o.sub) (c o) r ^ 2 + angular o.sub * orbR (basis o.sub) (c o) r ^ 2 / r ^ 2) r

theorem kinColumn_fins {A : SlaterAtom} {basis : Sub → List (ℝ × ℕ)} {c : Orb → List ℝ} {occ en : List ℝ}
    (h : IsSlater A basis c occ en) (x : List ℝ) (o : Orb) (ho : o ∈ A.orbitals) :
    A.kinColumn (ND.vec (fins x)) o = .ok (fins (x.map (kinVal basis c o))) := by
  unfold SlaterAtom.kinColumn
  rw [phiColumn_fins h x true o ho, phiColumn_fins h x false o ho]
  simp only [ND.vec, fins, List.map_map]
  congr 1
  rw [List.zip_map', List.zipWith_map, List.zipWith_self]
  apply List.map_congr_left
  intro r _
  simp only [Function.comp, colVal, if_true, Bool.false_eq_true, if_false, kinVal, cutD]
  rw [XR.abs_fin, XR.lt_fin]
  by_cases hr : |r| < 1e-10
  · simp only [if_pos hr]
    simp
  · simp only [if_neg hr]
    have h0 : r ≠ 0 := by
      rintro rfl
      apply hr
      rw [abs_zero]; norm_num
    rw [XR.pow_fin_two, XR.pow_fin_two, XR.pow_fin_two, XR.mul_fin, XR.div_fin_of_ne _ (by positivity),
      XR.add_fin]

theorem kinetic_fins {A : SlaterAtom} {basis : Sub → List (ℝ × ℕ)} {c : Orb → List ℝ} {occ en : List ℝ}
    (h : IsSlater A basis c occ en) (x : List ℝ) :
    A.kinetic (ND.vec (fins x)) = .ok (fins (x.map fun r =>
      wsum (A.orbitals.map fun o => kinVal basis c o r) occ / 2 / (4 * π))) := by
  unfold SlaterAtom.kinetic
  simp only [ND.vec]
  have := mapPy_ok (f := A.kinColumn (ND.vec (fins x)))
    (g := fun o => fins (x.map (kinVal basis c o))) (l := A.orbitals)
    (fun o ho => kinColumn_fins h x o ho)
  simp only [ND.vec] at this
  rw [this]
  simp only
  rw [fins_length, ofColumns_fins, h.occ_eq, matVec_fins _ _ _ _ h.occ_len]
  simp only [four_pi]
  congr 1
  simp only [fins, List.map_map]
  apply List.map_congr_left
  intro r _
  simp only [Function.comp]
  rw [XR.div_fin_of_ne _ two_ne_zero, XR.div_fin_of_ne _ four_pi_ne]

/-- `positive_definite_kinetic_energy` is finite and non-negative at every point, the documented
formula at a distance of at least `1e-10` from the origin and zero closer to it. -/
theorem C68_kinetic {A : SlaterAtom} {basis : Sub → List (ℝ × ℕ)} {c : Orb → List ℝ} {occ en : List ℝ}
    (h : IsSlater A basis c occ en) :
    ∃ k : ℝ → ℝ,
      (∀ x : List ℝ, A.kinetic (ND.vec (fins x)) = .ok (fins (x.map k))) ∧
      (∀ r, 0 ≤ k r) ∧
      (∀ r : ℝ, 1e-10 ≤ |r| → k r = 1 / (8 * π) * (List.zipWith (fun o n => n *
        (deriv (orbR (basis o.sub) (c o)) r ^ 2 +
          (o.sub.l * (o.sub.l + 1) : ℝ) * orbR (basis o.sub) (c o) r ^ 2 / r ^ 2)) A.orbitals occ).sum) ∧
      ∀ r : ℝ, |r| < 1e-10 → k r = 0 := by
  refine ⟨_, kinetic_fins h, fun r => ?_, fun r hr => ?_, fun r hr => ?_⟩
  · apply div_nonneg _ (by positivity)
    apply div_nonneg _ (by norm_num)
    apply wsum_nonneg
    · intro y hy
      simp only [List.mem_map] at hy
      obtain ⟨o, _, rfl⟩ := hy
      unfold kinVal cutD
      split
      · exact le_rfl
      · have : 0 ≤ angular o.sub := by cases o.sub <;> simp [angular]
        positivity
    · exact h.occ_nonneg
  · have h0 : r ≠ 0 := by
      rintro rfl
      rw [abs_zero] at hr
      norm_num at hr
    have e : wsum (A.orbitals.map fun o => kinVal basis c o r) occ =
        (List.zipWith (fun o n => n * (deriv (orbR (basis o.sub) (c o)) r ^ 2 +
          (o.sub.l * (o.sub.l + 1) : ℝ) * orbR (basis o.sub) (c o) r ^ 2 / r ^ 2)) A.orbitals occ).sum := by
      have hp := h.pos
      generalize A.orbitals = os at hp
      clear h
      induction os generalizing occ with
      | nil => simp
      | cons o os ih =>
        cases occ with
        | nil => simp
        | cons n occ =>
          simp only [List.map_cons, wsum_cons, List.zipWith_cons_cons, List.sum_cons]
          rw [ih (fun o' h' => hp o' (by simp [h']))]
          congr 1
          rw [(hasDerivAt_orbR _ (c o) (hp o (by simp)) r h0).deriv]
          have ha : angular o.sub = (o.sub.l * (o.sub.l + 1) : ℝ) := by
            cases o.sub <;> norm_num [angular, Sub.l]
          simp only [kinVal, cutD, if_neg (not_lt.mpr hr), ha]
          ring
    rw [e]
    ring
  · have e : ∀ o, kinVal basis c o r = 0 := fun o => by simp only [kinVal, cutD, if_pos hr]
    simp only [e, wsum_zero, zero_div]

end
end BFit
