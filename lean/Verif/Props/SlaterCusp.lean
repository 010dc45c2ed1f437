import Verif.Props.SlaterEnergy

/-! Property C103: densities and orbitals of `SlaterAtoms` at the nucleus. -/

namespace BFit

open Real Set

noncomputable section

/-- Contribution of a Slater function to the value of `R(r) / r^l` at the nucleus. -/
def nucA (l : ℕ) (b : ℝ × ℕ) : ℝ := if b.2 = l + 1 then slNorm b else 0

/-- Contribution of a Slater function to the derivative of `R(r) / r^l` at the nucleus. -/
def nucB (l : ℕ) (b : ℝ × ℕ) : ℝ :=
  if b.2 = l + 1 then -(b.1 * slNorm b) else if b.2 = l + 2 then slNorm b else 0

/-- `R(r) / r^l`. -/
def nucQ (l : ℕ) (bs : List (ℝ × ℕ)) (c : List ℝ) (r : ℝ) : ℝ :=
  wsum (bs.map fun b => slNorm b * r ^ (b.2 - 1 - l) * exp (-b.1 * r)) c

theorem orbR_nucQ (l : ℕ) (bs : List (ℝ × ℕ)) (c : List ℝ) (h : ∀ b ∈ bs, l + 1 ≤ b.2) (r : ℝ) :
    orbR bs c r = r ^ l * nucQ l bs c r := by
  unfold orbR nucQ
  induction bs generalizing c with
  | nil => simp
  | cons b bs ih =>
    cases c with
    | nil => simp
    | cons x c =>
      simp only [List.map_cons, wsum_cons]
      rw [ih c fun b' hb' => h b' (List.mem_cons_of_mem _ hb'), mul_add]
      congr 1
      have hb := h b List.mem_cons_self
      unfold slaterR slNorm
      rw [show b.2 - 1 = l + (b.2 - 1 - l) by omega, pow_add, show l + (b.2 - 1 - l) - l = b.2 - 1 - l by omega]
      ring

theorem nucQ_zero (l : ℕ) (bs : List (ℝ × ℕ)) (c : List ℝ) (h : ∀ b ∈ bs, l + 1 ≤ b.2) :
    nucQ l bs c 0 = wsum (bs.map (nucA l)) c := by
  unfold nucQ
  congr 1
  apply List.map_congr_left
  intro b hb
  have := h b hb
  unfold nucA
  by_cases h1 : b.2 = l + 1
  · rw [if_pos h1, h1]
    simp
  · rw [if_neg h1, zero_pow (by omega)]
    simp

theorem nucQ_deriv (l : ℕ) (bs : List (ℝ × ℕ)) (c : List ℝ) (h : ∀ b ∈ bs, l + 1 ≤ b.2) :
    HasDerivAt (nucQ l bs c) (wsum (bs.map (nucB l)) c) 0 := by
  unfold nucQ
  induction bs generalizing c with
  | nil => simpa using hasDerivAt_const (0 : ℝ) (0 : ℝ)
  | cons b bs ih =>
    cases c with
    | nil => simpa using hasDerivAt_const (0 : ℝ) (0 : ℝ)
    | cons x c =>
      simp only [List.map_cons, wsum_cons]
      refine HasDerivAt.add ?_ (ih c fun b' hb' => h b' (List.mem_cons_of_mem _ hb'))
      refine HasDerivAt.mul_const ?_ x
      have hb := h b List.mem_cons_self
      have he : HasDerivAt (fun r : ℝ => exp (-b.1 * r)) (-b.1) 0 := by
        have := ((hasDerivAt_id (0 : ℝ)).const_mul (-b.1)).exp
        simpa using this
      have hp := ((hasDerivAt_pow (b.2 - 1 - l) (0 : ℝ)).const_mul (slNorm b)).mul he
      refine hp.congr_deriv ?_
      unfold nucB
      by_cases h1 : b.2 = l + 1
      · rw [if_pos h1, show b.2 - 1 - l = 0 by omega]
        simp
        ring
      · rw [if_neg h1]
        by_cases h2 : b.2 = l + 2
        · rw [if_pos h2, show b.2 - 1 - l = 1 by omega]
          simp
        · rw [if_neg h2, zero_pow (show b.2 - 1 - l ≠ 0 by omega), zero_pow (show b.2 - 1 - l - 1 ≠ 0 by omega)]
          simp

theorem dens_nucleus (os : List Orb) (basis : Sub → List (ℝ × ℕ)) (c : Orb → List ℝ) (w : List ℝ)
    (hb : ∀ o ∈ os, ∀ b ∈ basis o.sub, 1 ≤ b.2) :
    densR os basis c w 0 = wsum (os.map fun o => wsum ((basis o.sub).map (nucA 0)) (c o) ^ 2) w / (4 * π) ∧
    HasDerivAt (densR os basis c w)
      (wsum (os.map fun o => 2 * wsum ((basis o.sub).map (nucA 0)) (c o) *
        wsum ((basis o.sub).map (nucB 0)) (c o)) w / (4 * π)) 0 := by
  have h0 : ∀ o ∈ os, orbR (basis o.sub) (c o) 0 = wsum ((basis o.sub).map (nucA 0)) (c o) ∧
      HasDerivAt (orbR (basis o.sub) (c o)) (wsum ((basis o.sub).map (nucB 0)) (c o)) 0 := by
    intro o ho
    have h1 : ∀ b ∈ basis o.sub, 0 + 1 ≤ b.2 := fun b hb' => by simpa using hb o ho b hb'
    have e : orbR (basis o.sub) (c o) = nucQ 0 (basis o.sub) (c o) := by
      funext r
      rw [orbR_nucQ 0 _ _ h1 r, pow_zero, one_mul]
    rw [e]
    exact ⟨nucQ_zero 0 _ _ h1, nucQ_deriv 0 _ _ h1⟩
  unfold densR
  constructor
  · congr 2
    exact List.map_congr_left fun o ho => by rw [(h0 o ho).1]
  · refine HasDerivAt.div_const ?_ _
    clear hb
    induction os generalizing w with
    | nil => simpa using hasDerivAt_const (0 : ℝ) (0 : ℝ)
    | cons o os ih =>
      cases w with
      | nil => simpa using hasDerivAt_const (0 : ℝ) (0 : ℝ)
      | cons n w =>
        simp only [List.map_cons, wsum_cons]
        refine HasDerivAt.add ?_ (ih w fun o' ho' => h0 o' (List.mem_cons_of_mem _ ho'))
        refine HasDerivAt.mul_const ?_ n
        obtain ⟨e1, e2⟩ := h0 o List.mem_cons_self
        have := e2.mul e2
        rw [e1] at this
        refine (this.congr_deriv (by ring)).congr_of_eventuallyEq (Filter.Eventually.of_forall fun r => ?_)
        simp [pow_two]

/-- **C103** (nucleus).  The total density has a value and a slope at the nucleus: `Σ n a² / 4π` and
`Σ 2 n a b / 4π`, where `a = Σ c N` over the functions with number 1 of the orbital, `b = Σ c N` over those with
number 2 minus `Σ c N ζ` over those with number 1, `N = (2ζ)^n sqrt (2ζ / (2n)!)`.  `derivative_density` gives the
slope of the density at all points but those within `1e-10` of the nucleus, where it gives 0. -/
theorem C103_nucleus {A : SlaterAtom} {basis : Sub → List (ℝ × ℕ)} {c : Orb → List ℝ} {occ en : List ℝ}
    (h : IsSlater A basis c occ en) :
    ∃ t d : ℝ → ℝ,
      (∀ x : List ℝ, A.atomicDensity (ND.vec (fins x)) "total" = .ok (fins (x.map t))) ∧
      (∀ x : List ℝ, A.derivDensity (ND.vec (fins x)) = .ok (fins (x.map d))) ∧ d 0 = 0 ∧
      (∀ r, 1e-10 ≤ |r| → HasDerivAt t (d r) r) ∧
      ∃ a b : Orb → ℝ,
        (∀ o, a o = (List.zipWith (fun (f : ℝ × ℕ) (x : ℝ) => if f.2 = 1 then
          x * ((2 * f.1) ^ 1 * sqrt (2 * f.1 / 2)) else 0) (basis o.sub) (c o)).sum) ∧
        (∀ o, b o = (List.zipWith (fun (f : ℝ × ℕ) (x : ℝ) =>
          if f.2 = 1 then -(x * f.1 * ((2 * f.1) ^ 1 * sqrt (2 * f.1 / 2)))
          else if f.2 = 2 then x * ((2 * f.1) ^ 2 * sqrt (2 * f.1 / 24)) else 0) (basis o.sub) (c o)).sum) ∧
        t 0 = (List.zipWith (fun o n => n * a o ^ 2) A.orbitals occ).sum / (4 * π) ∧
        HasDerivAt t ((List.zipWith (fun o n => n * (2 * a o * b o)) A.orbitals occ).sum / (4 * π)) 0 := by
  obtain ⟨t, d, h1, h2, h3⟩ := C66_derivative h
  have ht : t = densR A.orbitals basis c occ := by
    funext r
    have := (h1 [r]).symm.trans (atomicDensity_total h [r])
    simpa [fins] using this
  obtain ⟨e1, e2⟩ := dens_nucleus A.orbitals basis c occ fun o ho b hb => (h.pos o ho b hb).2
  have key : ∀ (g : Orb → ℝ) (os : List Orb) (w : List ℝ),
      wsum (os.map g) w = (List.zipWith (fun o n => n * g o) os w).sum := by
    intro g os
    induction os with
    | nil => simp
    | cons o os ih =>
      intro w
      cases w with
      | nil => simp
      | cons n w => simp [ih, mul_comm n]
  have key2 : ∀ (g : ℝ × ℕ → ℝ) (k : ℝ × ℕ → ℝ → ℝ) (hk : ∀ f x, g f * x = k f x) (bs : List (ℝ × ℕ)) (w : List ℝ),
      wsum (bs.map g) w = (List.zipWith k bs w).sum := by
    intro g k hk bs
    induction bs with
    | nil => simp
    | cons o os ih =>
      intro w
      cases w with
      | nil => simp
      | cons n w => simp [ih, hk]
  refine ⟨t, d, h1, h2, (h3 0).2 (by norm_num), fun r => (h3 r).1,
    fun o => wsum ((basis o.sub).map (nucA 0)) (c o), fun o => wsum ((basis o.sub).map (nucB 0)) (c o),
    fun o => key2 _ _ ?_ _ _, fun o => key2 _ _ ?_ _ _, ?_, ?_⟩
  · intro f x
    unfold nucA slNorm
    by_cases hf : f.2 = 1
    · simp [hf]
      ring
    · simp [hf]
  · intro f x
    unfold nucB slNorm
    by_cases hf : f.2 = 1
    · simp [hf]
      ring
    · by_cases hf2 : f.2 = 2
      · simp [hf2, Nat.factorial]
        ring
      · simp [hf, hf2]
  · rw [ht, e1, key]
  · rw [ht]
    have := e2
    rwa [key] at this

/-- A hydrogen-like atom of charge 3: the slope at the nucleus is -6 times the value. -/
example : ∃ (A : SlaterAtom) (t d : ℝ → ℝ) (D : ℝ),
    (∀ x : List ℝ, A.atomicDensity (ND.vec (fins x)) "total" = .ok (fins (x.map t))) ∧
    (∀ x : List ℝ, A.derivDensity (ND.vec (fins x)) = .ok (fins (x.map d))) ∧
    0 < t 0 ∧ HasDerivAt t D 0 ∧ D = -6 * t 0 ∧ d 0 ≠ D := by
  have hA : IsSlater ⟨[⟨1, .S⟩], fun _ => some (fins [3]), fun _ => some [1], fun _ => some (fins [1]),
      fins [1], fins [-1]⟩ (fun _ => [(3, 1)]) (fun _ => [1]) [1] [-1] :=
    ⟨fun _ _ => rfl, fun _ _ => rfl, fun _ _ => rfl, by simp, by norm_num, rfl, rfl, by simp, rfl, rfl⟩
  obtain ⟨t, d, h1, h2, h3, -, a, b, ha, hb, e1, e2⟩ := C103_nucleus hA
  refine ⟨_, t, d, _, h1, h2, ?_, e2, ?_, ?_⟩ <;> simp only [List.zipWith_cons_cons, List.zipWith_nil_right,
    List.sum_cons, List.sum_nil, if_true] at e1 ha hb ⊢
  · rw [e1, ha]
    have : 0 < sqrt (2 * 3 / 2 : ℝ) := sqrt_pos.mpr (by norm_num)
    positivity
  · rw [e1, hb, ha]
    ring
  · rw [h3, hb, ha]
    have : 0 < sqrt (2 * 3 / 2 : ℝ) := sqrt_pos.mpr (by norm_num)
    apply ne_of_gt
    apply div_neg_of_neg_of_pos _ (by positivity)
    nlinarith [mul_pos this this]

end
end BFit
