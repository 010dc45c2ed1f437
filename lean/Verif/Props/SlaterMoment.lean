import Verif.Props.SlaterEnergy

/-! Property C100: the radial moments of the densities of `SlaterAtoms`. -/

namespace BFit

open Real MeasureTheory Set

noncomputable section

/-- `∫ r² r^k R_a R_b dr` for two Slater functions. -/
def slMom (k : ℕ) (a b : ℝ × ℕ) : ℝ :=
  slNorm a * slNorm b * (Nat.factorial (a.2 + b.2 + k) / (a.1 + b.1) ^ (a.2 + b.2 + k + 1))

theorem slMom_integral (k : ℕ) (a b : ℝ × ℕ) (ha : 0 < a.1 ∧ 1 ≤ a.2) (hb : 0 < b.1 ∧ 1 ≤ b.2) :
    IntegrableOn (fun r => r ^ 2 * r ^ k * (slaterR a.1 a.2 r * slaterR b.1 b.2 r)) (Ioi 0) ∧
    ∫ r in Ioi (0 : ℝ), r ^ 2 * r ^ k * (slaterR a.1 a.2 r * slaterR b.1 b.2 r) = slMom k a b := by
  have e : ∀ r : ℝ, r ^ 2 * r ^ k * (slaterR a.1 a.2 r * slaterR b.1 b.2 r) =
      slNorm a * slNorm b * (r ^ (a.2 + b.2 + k) * exp (-(a.1 + b.1) * r)) := by
    intro r
    rw [show r ^ 2 * r ^ k * (slaterR a.1 a.2 r * slaterR b.1 b.2 r) =
      r ^ k * (r ^ 2 * (slaterR a.1 a.2 r * slaterR b.1 b.2 r)) by ring, slater_prod a b ha hb]
    ring
  simp only [e]
  refine ⟨(integrable_pow_exp (add_pos ha.1 hb.1) _).const_mul _, ?_⟩
  rw [integral_const_mul, integral_pow_exp (add_pos ha.1 hb.1)]
  rfl

/-- Moment of order `k` of the density of an orbital. -/
def orbMom (k : ℕ) (bs : List (ℝ × ℕ)) (c : List ℝ) : ℝ := bilin (slMom k) bs c bs c

theorem orb_moment (k : ℕ) (bs : List (ℝ × ℕ)) (c : List ℝ) (hb : ∀ b ∈ bs, 0 < b.1 ∧ 1 ≤ b.2) :
    IntegrableOn (fun r => r ^ 2 * r ^ k * orbR bs c r ^ 2) (Ioi 0) ∧
    ∫ r in Ioi (0 : ℝ), r ^ 2 * r ^ k * orbR bs c r ^ 2 = orbMom k bs c := by
  have := bilin_integral (fun r => r ^ 2 * r ^ k) (fun a r => slaterR a.1 a.2 r) (slMom k) (slMom_integral k)
    bs c hb bs c hb
  simp only [sq (orbR bs c _)]
  exact this

theorem dens_moment (k : ℕ) (os : List Orb) (basis : Sub → List (ℝ × ℕ)) (c : Orb → List ℝ) (w : List ℝ)
    (hb : ∀ o ∈ os, ∀ b ∈ basis o.sub, 0 < b.1 ∧ 1 ≤ b.2) :
    IntegrableOn (fun r => r ^ 2 * (r ^ k * densR os basis c w r)) (Ioi 0) ∧
    4 * π * ∫ r in Ioi (0 : ℝ), r ^ 2 * (r ^ k * densR os basis c w r) =
      wsum (os.map fun o => orbMom k (basis o.sub) (c o)) w := by
  have key : IntegrableOn (fun r : ℝ => r ^ 2 * r ^ k * wsum (os.map fun o => orbR (basis o.sub) (c o) r ^ 2) w)
      (Ioi 0) ∧ ∫ r in Ioi (0 : ℝ), r ^ 2 * r ^ k * wsum (os.map fun o => orbR (basis o.sub) (c o) r ^ 2) w =
      wsum (os.map fun o => orbMom k (basis o.sub) (c o)) w := by
    induction os generalizing w with
    | nil => simp
    | cons o os ih =>
      cases w with
      | nil => simp
      | cons n w =>
        obtain ⟨i1, i2⟩ := ih w (fun o' h' => hb o' (by simp [h']))
        obtain ⟨j1, j2⟩ := orb_moment k (basis o.sub) (c o) (hb o (by simp))
        have j1' := j1.mul_const n
        have e : ∀ r : ℝ, r ^ 2 * r ^ k * wsum ((o :: os).map fun o => orbR (basis o.sub) (c o) r ^ 2) (n :: w) =
            r ^ 2 * r ^ k * orbR (basis o.sub) (c o) r ^ 2 * n +
              r ^ 2 * r ^ k * wsum (os.map fun o => orbR (basis o.sub) (c o) r ^ 2) w := by
          intro r
          simp only [List.map_cons, wsum_cons]
          ring
        simp only [e]
        refine ⟨j1'.add i1, ?_⟩
        rw [integral_add j1' i1, i2, integral_mul_const, j2]
        simp
  have e : ∀ r : ℝ, r ^ 2 * (r ^ k * densR os basis c w r) =
      r ^ 2 * r ^ k * wsum (os.map fun o => orbR (basis o.sub) (c o) r ^ 2) w * (4 * π)⁻¹ := by
    intro r
    unfold densR
    ring
  simp only [e]
  refine ⟨key.1.mul_const _, ?_⟩
  rw [integral_mul_const, key.2]
  field_simp

theorem dens_moment_space (k : ℕ) (os : List Orb) (basis : Sub → List (ℝ × ℕ)) (c : Orb → List ℝ) (w : List ℝ)
    (hb : ∀ o ∈ os, ∀ b ∈ basis o.sub, 0 < b.1 ∧ 1 ≤ b.2) :
    Integrable (fun p : EuclideanSpace ℝ (Fin 3) => ‖p‖ ^ k * densR os basis c w ‖p‖) ∧
    ∫ p : EuclideanSpace ℝ (Fin 3), ‖p‖ ^ k * densR os basis c w ‖p‖ =
      wsum (os.map fun o => orbMom k (basis o.sub) (c o)) w := by
  obtain ⟨h1, h2⟩ := dens_moment k os basis c w hb
  exact ⟨(integrable_radial fun r => r ^ k * densR os basis c w r).mpr h1,
    by rw [integral_radial fun r => r ^ k * densR os basis c w r, h2]⟩

/-- **C100**.  All moments of the total density exist; the one of order `k` is the sum over the orbitals of the
occupation times `Σ_ab c_a c_b N_a N_b (n_a + n_b + k)! / (ζ_a + ζ_b)^(n_a + n_b + k + 1)`,
`N = (2ζ)^n sqrt (2ζ / (2n)!)`. -/
theorem C100_moments {A : SlaterAtom} {basis : Sub → List (ℝ × ℕ)} {c : Orb → List ℝ} {occ en : List ℝ}
    (h : IsSlater A basis c occ en) :
    ∃ t : ℝ → ℝ,
      (∀ x : List ℝ, A.atomicDensity (ND.vec (fins x)) "total" = .ok (fins (x.map t))) ∧
      ∀ k : ℕ, Integrable (fun p : EuclideanSpace ℝ (Fin 3) => ‖p‖ ^ k * t ‖p‖) ∧
        ∫ p : EuclideanSpace ℝ (Fin 3), ‖p‖ ^ k * t ‖p‖ =
          (List.zipWith (fun (o : Orb) (n : ℝ) => n * (List.zipWith (fun (a : ℝ × ℕ) (x : ℝ) =>
            (List.zipWith (fun (b : ℝ × ℕ) (y : ℝ) => x * y *
              ((2 * a.1) ^ a.2 * sqrt (2 * a.1 / Nat.factorial (2 * a.2)) *
                ((2 * b.1) ^ b.2 * sqrt (2 * b.1 / Nat.factorial (2 * b.2))) *
                (Nat.factorial (a.2 + b.2 + k) / (a.1 + b.1) ^ (a.2 + b.2 + k + 1))))
              (basis o.sub) (c o)).sum) (basis o.sub) (c o)).sum) A.orbitals occ).sum := by
  refine ⟨_, atomicDensity_total h, fun k => ?_⟩
  obtain ⟨h1, h2⟩ := dens_moment_space k A.orbitals basis c occ h.pos
  refine ⟨h1, h2.trans ?_⟩
  have : ∀ (os : List Orb) (w : List ℝ), wsum (os.map fun o => orbMom k (basis o.sub) (c o)) w =
      (List.zipWith (fun (o : Orb) (n : ℝ) => n * orbMom k (basis o.sub) (c o)) os w).sum := by
    intro os
    induction os with
    | nil => intro w; simp
    | cons o os ih =>
      intro w
      cases w with
      | nil => simp
      | cons n w => simp [ih, mul_comm n]
  rw [this]
  rfl

/-- C100 for a one-electron atom with one Slater function `1s` of exponent 3: `⟨r²⟩ = 3 / 3²`. -/
example : ∃ (A : SlaterAtom) (t : ℝ → ℝ),
    (∀ x : List ℝ, A.atomicDensity (ND.vec (fins x)) "total" = .ok (fins (x.map t))) ∧
    ∫ p : EuclideanSpace ℝ (Fin 3), ‖p‖ ^ 2 * t ‖p‖ = 1 / 3 := by
  have hA : IsSlater ⟨[⟨1, .S⟩], fun _ => some (fins [3]), fun _ => some [1], fun _ => some (fins [1]),
      fins [1], fins [-1]⟩ (fun _ => [(3, 1)]) (fun _ => [1]) [1] [-1] :=
    ⟨fun _ _ => rfl, fun _ _ => rfl, fun _ _ => rfl, by simp, by norm_num, rfl, rfl, by simp, rfl, rfl⟩
  obtain ⟨t, h1, h2⟩ := C100_moments hA
  refine ⟨_, t, h1, (h2 2).2.trans ?_⟩
  have e : (2 * (3 : ℝ)) ^ 1 * sqrt (2 * 3 / (Nat.factorial (2 * 1) : ℝ)) *
      ((2 * 3) ^ 1 * sqrt (2 * 3 / (Nat.factorial (2 * 1) : ℝ))) = 108 := by
    have := mul_self_sqrt (show (0 : ℝ) ≤ 2 * 3 / (Nat.factorial (2 * 1) : ℝ) by positivity)
    calc _ = (2 * 3) ^ 1 * (2 * 3) ^ 1 * (sqrt (2 * 3 / (Nat.factorial (2 * 1) : ℝ)) *
          sqrt (2 * 3 / (Nat.factorial (2 * 1) : ℝ))) := by ring
      _ = 108 := by rw [this]; norm_num [Nat.factorial]
  simp only [List.zipWith_cons_cons, List.zipWith_nil_right, List.sum_cons, List.sum_nil, e]
  norm_num [Nat.factorial]

/-- C100 for the two-orbital atom `beOuter`. -/
example : ∃ t : ℝ → ℝ,
    (∀ x : List ℝ, beOuter.atomicDensity (ND.vec (fins x)) "total" = .ok (fins (x.map t))) ∧
    Integrable fun p : EuclideanSpace ℝ (Fin 3) => ‖p‖ ^ 7 * t ‖p‖ := by
  obtain ⟨t, h1, h2⟩ := C100_moments beOuter_isSlater
  exact ⟨t, h1, (h2 7).1⟩

end
end BFit
