import Verif.Props.SlaterKinetic
import Verif.Props.SlaterIntegral

/-! Property C87: the kinetic energy density integrates to the kinetic energy.  Property C88: scaling the
exponents of an atom. -/

namespace BFit

open Real MeasureTheory Set Classical

noncomputable section

/-- `Σ_jk d_j c_k v_jk`. -/
def bilin (v : ℝ × ℕ → ℝ × ℕ → ℝ) (as : List (ℝ × ℕ)) (d : List ℝ) (bs : List (ℝ × ℕ)) (c : List ℝ) : ℝ :=
  (List.zipWith (fun a x => (List.zipWith (fun b y => x * y * v a b) bs c).sum) as d).sum

/-- Integrals of products of two combinations of functions. -/
theorem bilin_integral (w : ℝ → ℝ) (g : ℝ × ℕ → ℝ → ℝ) (v : ℝ × ℕ → ℝ × ℕ → ℝ)
    (h : ∀ a b : ℝ × ℕ, 0 < a.1 ∧ 1 ≤ a.2 → 0 < b.1 ∧ 1 ≤ b.2 →
      IntegrableOn (fun r => w r * (g a r * g b r)) (Ioi 0) ∧
      ∫ r in Ioi (0 : ℝ), w r * (g a r * g b r) = v a b)
    (as : List (ℝ × ℕ)) (d : List ℝ) (ha : ∀ b ∈ as, 0 < b.1 ∧ 1 ≤ b.2)
    (bs : List (ℝ × ℕ)) (c : List ℝ) (hb : ∀ b ∈ bs, 0 < b.1 ∧ 1 ≤ b.2) :
    IntegrableOn (fun r => w r * (wsum (as.map fun a => g a r) d * wsum (bs.map fun b => g b r) c)) (Ioi 0) ∧
    ∫ r in Ioi (0 : ℝ), w r * (wsum (as.map fun a => g a r) d * wsum (bs.map fun b => g b r) c) =
      bilin v as d bs c := by
  have cross : ∀ (a : ℝ × ℕ) (x : ℝ), 0 < a.1 ∧ 1 ≤ a.2 → ∀ (bs : List (ℝ × ℕ)) (c : List ℝ),
      (∀ b ∈ bs, 0 < b.1 ∧ 1 ≤ b.2) →
      IntegrableOn (fun r => w r * (x * g a r * wsum (bs.map fun b => g b r) c)) (Ioi 0) ∧
      ∫ r in Ioi (0 : ℝ), w r * (x * g a r * wsum (bs.map fun b => g b r) c) =
        (List.zipWith (fun b y => x * y * v a b) bs c).sum := by
    intro a x ha bs
    induction bs with
    | nil => intro c _; simp
    | cons b bs ih =>
      intro c hb
      cases c with
      | nil => simp
      | cons y c =>
        obtain ⟨i1, i2⟩ := ih c (fun b' h' => hb b' (by simp [h']))
        obtain ⟨k1, k2⟩ := h a b ha (hb b (by simp))
        have j1 := k1.const_mul (x * y)
        have e : ∀ r : ℝ, w r * (x * g a r * wsum ((b :: bs).map fun b => g b r) (y :: c)) =
            x * y * (w r * (g a r * g b r)) + w r * (x * g a r * wsum (bs.map fun b => g b r) c) := by
          intro r
          simp only [List.map_cons, wsum_cons]
          ring
        simp only [e]
        refine ⟨j1.add i1, ?_⟩
        rw [integral_add j1 i1, i2, integral_const_mul, k2]
        simp
  induction as generalizing d with
  | nil => simp [bilin]
  | cons a as ih =>
    cases d with
    | nil => simp [bilin]
    | cons x d =>
      obtain ⟨i1, i2⟩ := ih d (fun b' h' => ha b' (by simp [h']))
      obtain ⟨j1, j2⟩ := cross a x (ha a (by simp)) bs c hb
      have e : ∀ r : ℝ, w r * (wsum ((a :: as).map fun a => g a r) (x :: d) * wsum (bs.map fun b => g b r) c) =
          w r * (x * g a r * wsum (bs.map fun b => g b r) c) +
            w r * (wsum (as.map fun a => g a r) d * wsum (bs.map fun b => g b r) c) := by
        intro r
        simp only [List.map_cons, wsum_cons]
        ring
      simp only [e]
      refine ⟨j1.add i1, ?_⟩
      rw [integral_add j1 i1, i2, j2]
      simp [bilin]

/-- Closed form of `∫ (r² R_a' R_b' + l (l+1) R_a R_b) dr`. -/
def slKin (l : ℕ) (a b : ℝ × ℕ) : ℝ :=
  slNorm a * slNorm b *
    ((((a.2 : ℝ) - 1) * (b.2 - 1) + l * (l + 1)) *
        (Nat.factorial (a.2 + b.2 - 2) / (a.1 + b.1) ^ (a.2 + b.2 - 1)) -
      (((a.2 : ℝ) - 1) * b.1 + (b.2 - 1) * a.1) *
        (Nat.factorial (a.2 + b.2 - 1) / (a.1 + b.1) ^ (a.2 + b.2)) +
      a.1 * b.1 * (Nat.factorial (a.2 + b.2) / (a.1 + b.1) ^ (a.2 + b.2 + 1)))

/-- The kinetic energy of an orbital. -/
def kinSq (l : ℕ) (bs : List (ℝ × ℕ)) (c : List ℝ) : ℝ := bilin (slKin l) bs c bs c / 2

/-- Closed form of `∫ R_a R_b dr`. -/
def slAng (a b : ℝ × ℕ) : ℝ :=
  slNorm a * slNorm b * (Nat.factorial (a.2 + b.2 - 2) / (a.1 + b.1) ^ (a.2 + b.2 - 1))

theorem slKin_split (l : ℕ) (a b : ℝ × ℕ) :
    slKin l a b = slKin 0 a b + (l * (l + 1) : ℝ) * slAng a b := by
  unfold slKin slAng
  push_cast
  ring

theorem bilin_add (u v : ℝ × ℕ → ℝ × ℕ → ℝ) (k : ℝ) (as : List (ℝ × ℕ)) (d : List ℝ) (bs : List (ℝ × ℕ))
    (c : List ℝ) : bilin (fun a b => u a b + k * v a b) as d bs c = bilin u as d bs c + k * bilin v as d bs c := by
  have inner : ∀ (a : ℝ × ℕ) (x : ℝ) (bs : List (ℝ × ℕ)) (c : List ℝ),
      (List.zipWith (fun b y => x * y * (u a b + k * v a b)) bs c).sum =
        (List.zipWith (fun b y => x * y * u a b) bs c).sum + k * (List.zipWith (fun b y => x * y * v a b) bs c).sum := by
    intro a x bs
    induction bs with
    | nil => intro c; simp
    | cons b bs ih =>
      intro c
      cases c with
      | nil => simp
      | cons y c =>
        simp only [List.zipWith_cons_cons, List.sum_cons, ih]
        ring
  unfold bilin
  simp only [inner]
  induction as generalizing d with
  | nil => simp
  | cons a as ih =>
    cases d with
    | nil => simp
    | cons x d =>
      simp only [List.zipWith_cons_cons, List.sum_cons, ih]
      ring

theorem slaterR'_pair (a b : ℝ × ℕ) (ha : 0 < a.1 ∧ 1 ≤ a.2) (hb : 0 < b.1 ∧ 1 ≤ b.2) (r : ℝ)
    (hr : r ≠ 0) :
    r ^ 2 * (slaterR' a.1 a.2 r * slaterR' b.1 b.2 r) =
    slNorm a * slNorm b * (
      (((a.2 : ℝ) - 1) * (b.2 - 1)) * (r ^ (a.2 + b.2 - 2) * exp (-(a.1 + b.1) * r)) -
      (((a.2 : ℝ) - 1) * b.1 + (b.2 - 1) * a.1) * (r ^ (a.2 + b.2 - 1) * exp (-(a.1 + b.1) * r)) +
      a.1 * b.1 * (r ^ (a.2 + b.2) * exp (-(a.1 + b.1) * r))) := by
  obtain ⟨m, hm⟩ : ∃ m, a.2 = m + 1 := ⟨a.2 - 1, by omega⟩
  obtain ⟨n, hn⟩ : ∃ n, b.2 = n + 1 := ⟨b.2 - 1, by omega⟩
  unfold slaterR' slaterR slNorm
  rw [show -(a.1 + b.1) * r = -a.1 * r + -b.1 * r by ring, exp_add, hm, hn]
  rw [show m + 1 + (n + 1) - 2 = m + n by omega, show m + 1 + (n + 1) - 1 = m + n + 1 by omega]
  simp only [Nat.add_sub_cancel]
  push_cast
  field_simp
  ring

theorem slaterR_pair (a b : ℝ × ℕ) (ha : 0 < a.1 ∧ 1 ≤ a.2) (hb : 0 < b.1 ∧ 1 ≤ b.2) (r : ℝ) :
    1 * (slaterR a.1 a.2 r * slaterR b.1 b.2 r) =
    slNorm a * slNorm b * (r ^ (a.2 + b.2 - 2) * exp (-(a.1 + b.1) * r)) := by
  obtain ⟨m, hm⟩ : ∃ m, a.2 = m + 1 := ⟨a.2 - 1, by omega⟩
  obtain ⟨n, hn⟩ : ∃ n, b.2 = n + 1 := ⟨b.2 - 1, by omega⟩
  unfold slaterR slNorm
  rw [show -(a.1 + b.1) * r = -a.1 * r + -b.1 * r by ring, exp_add, hm, hn,
    show m + 1 + (n + 1) - 2 = m + n by omega]
  simp only [Nat.add_sub_cancel]
  ring

theorem slaterR'_integral (a b : ℝ × ℕ) (ha : 0 < a.1 ∧ 1 ≤ a.2) (hb : 0 < b.1 ∧ 1 ≤ b.2) :
    IntegrableOn (fun r : ℝ => r ^ 2 * (slaterR' a.1 a.2 r * slaterR' b.1 b.2 r)) (Ioi 0) ∧
    ∫ r in Ioi (0 : ℝ), r ^ 2 * (slaterR' a.1 a.2 r * slaterR' b.1 b.2 r) = slKin 0 a b := by
  have hz : 0 < a.1 + b.1 := add_pos ha.1 hb.1
  have i0 := (integrable_pow_exp hz (a.2 + b.2 - 2)).const_mul (((a.2 : ℝ) - 1) * (b.2 - 1))
  have i1 := (integrable_pow_exp hz (a.2 + b.2 - 1)).const_mul (((a.2 : ℝ) - 1) * b.1 + (b.2 - 1) * a.1)
  have i2 := (integrable_pow_exp hz (a.2 + b.2)).const_mul (a.1 * b.1)
  have e : EqOn (fun r : ℝ => r ^ 2 * (slaterR' a.1 a.2 r * slaterR' b.1 b.2 r)) (fun r =>
      slNorm a * slNorm b * (
      (((a.2 : ℝ) - 1) * (b.2 - 1)) * (r ^ (a.2 + b.2 - 2) * exp (-(a.1 + b.1) * r)) -
      (((a.2 : ℝ) - 1) * b.1 + (b.2 - 1) * a.1) * (r ^ (a.2 + b.2 - 1) * exp (-(a.1 + b.1) * r)) +
      a.1 * b.1 * (r ^ (a.2 + b.2) * exp (-(a.1 + b.1) * r)))) (Ioi 0) :=
    fun r hr => slaterR'_pair a b ha hb r (ne_of_gt hr)
  constructor
  · rw [integrableOn_congr_fun e measurableSet_Ioi]
    exact ((i0.sub i1).add i2).const_mul _
  · rw [setIntegral_congr_fun measurableSet_Ioi e, integral_const_mul]
    have s1 := integral_add (i0.sub i1) i2
    have s2 := integral_sub i0 i1
    simp only [Pi.sub_apply] at s1
    rw [s1, s2, integral_const_mul, integral_const_mul, integral_const_mul, integral_pow_exp hz,
      integral_pow_exp hz, integral_pow_exp hz]
    unfold slKin
    rw [show a.2 + b.2 - 2 + 1 = a.2 + b.2 - 1 by omega, show a.2 + b.2 - 1 + 1 = a.2 + b.2 by omega]
    push_cast
    ring

theorem slaterR_integral (a b : ℝ × ℕ) (ha : 0 < a.1 ∧ 1 ≤ a.2) (hb : 0 < b.1 ∧ 1 ≤ b.2) :
    IntegrableOn (fun r : ℝ => 1 * (slaterR a.1 a.2 r * slaterR b.1 b.2 r)) (Ioi 0) ∧
    ∫ r in Ioi (0 : ℝ), 1 * (slaterR a.1 a.2 r * slaterR b.1 b.2 r) = slAng a b := by
  have hz : 0 < a.1 + b.1 := add_pos ha.1 hb.1
  simp only [slaterR_pair a b ha hb]
  refine ⟨(integrable_pow_exp hz (a.2 + b.2 - 2)).const_mul _, ?_⟩
  rw [integral_const_mul, integral_pow_exp hz, slAng, show a.2 + b.2 - 2 + 1 = a.2 + b.2 - 1 by omega]

/-- The integral for one orbital. -/
theorem orb_kinetic (l : ℕ) (bs : List (ℝ × ℕ)) (c : List ℝ) (hb : ∀ b ∈ bs, 0 < b.1 ∧ 1 ≤ b.2) :
    IntegrableOn (fun r : ℝ => r ^ 2 * (orbR' bs c r ^ 2 + (l * (l + 1) : ℝ) * orbR bs c r ^ 2 / r ^ 2))
      (Ioi 0) ∧
    ∫ r in Ioi (0 : ℝ), r ^ 2 * (orbR' bs c r ^ 2 + (l * (l + 1) : ℝ) * orbR bs c r ^ 2 / r ^ 2) =
      2 * kinSq l bs c := by
  obtain ⟨i1, i2⟩ := bilin_integral (fun r => r ^ 2) (fun a r => slaterR' a.1 a.2 r) (slKin 0)
    slaterR'_integral bs c hb bs c hb
  obtain ⟨j1, j2⟩ := bilin_integral (fun _ => 1) (fun a r => slaterR a.1 a.2 r) slAng
    slaterR_integral bs c hb bs c hb
  have j1' := j1.const_mul (l * (l + 1) : ℝ)
  have e : EqOn (fun r : ℝ => r ^ 2 * (orbR' bs c r ^ 2 + (l * (l + 1) : ℝ) * orbR bs c r ^ 2 / r ^ 2))
      (fun r => r ^ 2 * (wsum (bs.map fun a => slaterR' a.1 a.2 r) c *
          wsum (bs.map fun a => slaterR' a.1 a.2 r) c) +
        (l * (l + 1) : ℝ) * (1 * (wsum (bs.map fun a => slaterR a.1 a.2 r) c *
          wsum (bs.map fun a => slaterR a.1 a.2 r) c))) (Ioi 0) := by
    intro r hr
    have hr' : r ≠ 0 := ne_of_gt hr
    unfold orbR orbR'
    field_simp
  constructor
  · rw [integrableOn_congr_fun e measurableSet_Ioi]
    exact i1.add j1'
  · rw [setIntegral_congr_fun measurableSet_Ioi e]
    have s := integral_add i1 j1'
    simp only at s
    rw [s, i2, integral_const_mul, j2, kinSq, ← bilin_add]
    have : (fun a b => slKin 0 a b + (l * (l + 1) : ℝ) * slAng a b) = slKin l := by
      funext a b
      rw [slKin_split l]
    rw [this]
    ring

/-- The kinetic energy density without the cut at the origin. -/
def kinR (os : List Orb) (basis : Sub → List (ℝ × ℕ)) (c : Orb → List ℝ) (w : List ℝ) (r : ℝ) : ℝ :=
  wsum (os.map fun o => orbR' (basis o.sub) (c o) r ^ 2 +
    (o.sub.l * (o.sub.l + 1) : ℝ) * orbR (basis o.sub) (c o) r ^ 2 / r ^ 2) w / 2 / (4 * π)

theorem kinR_integral (os : List Orb) (basis : Sub → List (ℝ × ℕ)) (c : Orb → List ℝ) (w : List ℝ)
    (hb : ∀ o ∈ os, ∀ b ∈ basis o.sub, 0 < b.1 ∧ 1 ≤ b.2) :
    IntegrableOn (fun r : ℝ => r ^ 2 * kinR os basis c w r) (Ioi 0) ∧
    4 * π * ∫ r in Ioi (0 : ℝ), r ^ 2 * kinR os basis c w r =
      wsum (os.map fun o => kinSq o.sub.l (basis o.sub) (c o)) w := by
  set F : Orb → ℝ → ℝ := fun o r => orbR' (basis o.sub) (c o) r ^ 2 +
    (o.sub.l * (o.sub.l + 1) : ℝ) * orbR (basis o.sub) (c o) r ^ 2 / r ^ 2 with hF
  have key : IntegrableOn (fun r : ℝ => r ^ 2 * wsum (os.map fun o => F o r) w) (Ioi 0) ∧
      ∫ r in Ioi (0 : ℝ), r ^ 2 * wsum (os.map fun o => F o r) w =
        2 * wsum (os.map fun o => kinSq o.sub.l (basis o.sub) (c o)) w := by
    induction os generalizing w with
    | nil => simp
    | cons o os ih =>
      cases w with
      | nil => simp
      | cons n w =>
        obtain ⟨i1, i2⟩ := ih w (fun o' h' => hb o' (by simp [h']))
        obtain ⟨j1, j2⟩ := orb_kinetic o.sub.l (basis o.sub) (c o) (hb o (by simp))
        have j1' := j1.mul_const n
        have e : ∀ r : ℝ, r ^ 2 * wsum ((o :: os).map fun o => F o r) (n :: w) =
            r ^ 2 * (orbR' (basis o.sub) (c o) r ^ 2 +
              (o.sub.l * (o.sub.l + 1) : ℝ) * orbR (basis o.sub) (c o) r ^ 2 / r ^ 2) * n +
              r ^ 2 * wsum (os.map fun o => F o r) w := by
          intro r
          simp only [List.map_cons, wsum_cons, hF]
          ring
        simp only [e]
        refine ⟨j1'.add i1, ?_⟩
        rw [integral_add j1' i1, i2, integral_mul_const, j2]
        simp only [List.map_cons, wsum_cons]
        ring
  have e : ∀ r : ℝ, r ^ 2 * kinR os basis c w r =
      r ^ 2 * wsum (os.map fun o => F o r) w * (2 * (4 * π))⁻¹ := by
    intro r
    unfold kinR
    rw [mul_inv]
    ring
  simp only [e]
  refine ⟨key.1.mul_const _, ?_⟩
  rw [integral_mul_const, key.2]
  field_simp

/-- **C87**.  The kinetic energy density integrates to the kinetic energy: there is a function `k` whose
values `positive_definite_kinetic_energy` returns at all points at a distance of at least `1e-10` from the
origin (closer to it the code returns zero), it is integrable over space, and its integral is
`½ Σ n_i Σ_jk c_ij c_ik K_jk` with the closed form of the matrix elements of the Slater functions. -/
theorem C87_kinetic_energy {A : SlaterAtom} {basis : Sub → List (ℝ × ℕ)} {c : Orb → List ℝ} {occ en : List ℝ}
    (h : IsSlater A basis c occ en) :
    ∃ k : ℝ → ℝ,
      (∀ x : List ℝ, (∀ r ∈ x, 1e-10 ≤ |r|) → A.kinetic (ND.vec (fins x)) = .ok (fins (x.map k))) ∧
      Integrable (fun p : EuclideanSpace ℝ (Fin 3) => k ‖p‖) ∧
      ∫ p : EuclideanSpace ℝ (Fin 3), k ‖p‖ =
        wsum (A.orbitals.map fun o => bilin (slKin o.sub.l) (basis o.sub) (c o) (basis o.sub) (c o) / 2) occ := by
  obtain ⟨i1, i2⟩ := kinR_integral A.orbitals basis c occ h.pos
  refine ⟨kinR A.orbitals basis c occ, fun x hx => ?_, (integrable_radial _).mpr i1, ?_⟩
  · rw [kinetic_fins h x]
    congr 2
    apply List.map_congr_left
    intro r hr
    unfold kinR
    congr 4
    funext o
    have ha : angular o.sub = (o.sub.l * (o.sub.l + 1) : ℝ) := by
      cases o.sub <;> norm_num [angular, Sub.l]
    simp only [kinVal, cutD, if_neg (not_lt.mpr (hx r hr)), ha]
  · rw [integral_radial, i2]
    rfl

/-! ### Scaling -/

/-- The same atom with all exponents multiplied by `u`. -/
def SlaterAtom.scaled (A : SlaterAtom) (u : ℝ) : SlaterAtom :=
  { A with exps := fun s => (A.exps s).map fun l => l.map fun z => XR.fin u * z }

theorem scaled_isSlater {A : SlaterAtom} {basis : Sub → List (ℝ × ℕ)} {c : Orb → List ℝ} {occ en : List ℝ}
    (h : IsSlater A basis c occ en) {u : ℝ} (hu : 0 < u) :
    IsSlater (A.scaled u) (fun s => (basis s).map fun b => (u * b.1, b.2)) c occ en where
  exps := fun o ho => by
    simp only [SlaterAtom.scaled, h.exps o ho, Option.map_some, fins, List.map_map]
    rfl
  nums := fun o ho => by
    simp only [SlaterAtom.scaled, h.nums o ho, List.map_map]
    rfl
  coeff := h.coeff
  width := fun o ho => by
    rw [List.length_map]
    exact h.width o ho
  pos := fun o ho b hb => by
    obtain ⟨b', hb', rfl⟩ := List.mem_map.mp hb
    exact ⟨mul_pos hu (h.pos o ho b' hb').1, (h.pos o ho b' hb').2⟩
  occ_eq := h.occ_eq
  occ_len := h.occ_len
  occ_nonneg := h.occ_nonneg
  en_eq := h.en_eq
  en_len := h.en_len

theorem slaterR_scale {u : ℝ} (hu : 0 < u) (z : ℝ) (n : ℕ) (hn : 1 ≤ n) (r : ℝ) :
    slaterR (u * z) n r = u * sqrt u * slaterR z n (u * r) := by
  obtain ⟨m, rfl⟩ : ∃ m, n = m + 1 := ⟨n - 1, by omega⟩
  unfold slaterR
  rw [show 2 * (u * z) / (Nat.factorial (2 * (m + 1)) : ℝ) = u * (2 * z / Nat.factorial (2 * (m + 1))) by ring,
    sqrt_mul hu.le, Nat.add_sub_cancel, show -(u * z) * r = -z * (u * r) by ring]
  ring

theorem orbR_scale {u : ℝ} (hu : 0 < u) (bs : List (ℝ × ℕ)) (c : List ℝ) (hb : ∀ b ∈ bs, 0 < b.1 ∧ 1 ≤ b.2)
    (r : ℝ) : orbR (bs.map fun b => (u * b.1, b.2)) c r = u * sqrt u * orbR bs c (u * r) := by
  unfold orbR
  induction bs generalizing c with
  | nil => simp
  | cons b bs ih =>
    cases c with
    | nil => simp
    | cons y c =>
      have ih' := ih c (fun b' h' => hb b' (by simp [h']))
      simp only [List.map_cons, wsum_cons] at ih' ⊢
      rw [ih', slaterR_scale hu b.1 b.2 (hb b (by simp)).2]
      ring

theorem orbR'_scale {u : ℝ} (hu : 0 < u) (bs : List (ℝ × ℕ)) (c : List ℝ) (hb : ∀ b ∈ bs, 0 < b.1 ∧ 1 ≤ b.2)
    (r : ℝ) (hr : r ≠ 0) :
    orbR' (bs.map fun b => (u * b.1, b.2)) c r = u * (u * sqrt u) * orbR' bs c (u * r) := by
  unfold orbR'
  induction bs generalizing c with
  | nil => simp
  | cons b bs ih =>
    cases c with
    | nil => simp
    | cons y c =>
      have ih' := ih c (fun b' h' => hb b' (by simp [h']))
      have e : slaterR' (u * b.1) b.2 r = u * (u * sqrt u) * slaterR' b.1 b.2 (u * r) := by
        unfold slaterR'
        rw [slaterR_scale hu b.1 b.2 (hb b (by simp)).2]
        field_simp
      simp only [List.map_cons, wsum_cons] at ih' ⊢
      rw [ih', e]
      ring

theorem wsum_smul {α : Type} (os : List α) (f g : α → ℝ) (k : ℝ) (w : List ℝ) (h : ∀ o ∈ os, f o = k * g o) :
    wsum (os.map f) w = k * wsum (os.map g) w := by
  induction os generalizing w with
  | nil => simp
  | cons o os ih =>
    cases w with
    | nil => simp
    | cons n w =>
      simp only [List.map_cons, wsum_cons]
      rw [ih w (fun o' h' => h o' (by simp [h'])), h o (by simp)]
      ring

theorem sq_scale {u : ℝ} (hu : 0 < u) : (u * sqrt u) ^ 2 = u ^ 3 := by
  rw [mul_pow, sq_sqrt hu.le]
  ring

/-- **C88**.  If all exponents of an atom are multiplied by `u > 0`, the three densities become `u³ ρ(u r)`;
at a distance of at least `1e-10` from the origin, before and after scaling, the derivative of the density
becomes `u⁴ ρ'(u r)` and the kinetic energy density `u⁵ k(u r)`. -/
theorem C88_scaling {A : SlaterAtom} {basis : Sub → List (ℝ × ℕ)} {c : Orb → List ℝ} {occ en : List ℝ}
    (h : IsSlater A basis c occ en) (h0 : A.orbitals ≠ []) {u : ℝ} (hu : 0 < u) (x : List ℝ) :
    (∀ mode ∈ ["total", "valence", "core"], ∃ t : List ℝ,
      A.atomicDensity (ND.vec (fins (x.map (u * ·)))) mode = .ok (fins t) ∧
      (A.scaled u).atomicDensity (ND.vec (fins x)) mode = .ok (fins (t.map (u ^ 3 * ·)))) ∧
    ((∀ r ∈ x, 1e-10 ≤ |r| ∧ 1e-10 ≤ |u * r|) → ∃ d k : List ℝ,
      A.derivDensity (ND.vec (fins (x.map (u * ·)))) = .ok (fins d) ∧
      (A.scaled u).derivDensity (ND.vec (fins x)) = .ok (fins (d.map (u ^ 4 * ·))) ∧
      A.kinetic (ND.vec (fins (x.map (u * ·)))) = .ok (fins k) ∧
      (A.scaled u).kinetic (ND.vec (fins x)) = .ok (fins (k.map (u ^ 5 * ·)))) := by
  have hs := scaled_isSlater h hu
  have hd : ∀ w r, densR A.orbitals (fun s => (basis s).map fun b => (u * b.1, b.2)) c w r =
      u ^ 3 * densR A.orbitals basis c w (u * r) := by
    intro w r
    unfold densR
    rw [wsum_smul A.orbitals _ (fun o => orbR (basis o.sub) (c o) (u * r) ^ 2) (u ^ 3), mul_div_assoc]
    intro o ho
    rw [orbR_scale hu _ _ (h.pos o ho), mul_pow, sq_scale hu]
  have hd' : ∀ w, x.map (densR A.orbitals (fun s => (basis s).map fun b => (u * b.1, b.2)) c w) =
      ((x.map (u * ·)).map (densR A.orbitals basis c w)).map (u ^ 3 * ·) := by
    intro w
    rw [List.map_map, List.map_map]
    exact List.map_congr_left fun r _ => hd w r
  refine ⟨fun mode hm => ?_, fun hx => ?_⟩
  · simp only [List.mem_cons, List.not_mem_nil, or_false] at hm
    rcases hm with rfl | rfl | rfl
    · exact ⟨_, atomicDensity_total h _, by rw [← hd']; exact atomicDensity_total hs x⟩
    · exact ⟨_, atomicDensity_valence h h0 _, by rw [← hd']; exact atomicDensity_valence hs h0 x⟩
    · exact ⟨_, atomicDensity_core h h0 _, by rw [← hd']; exact atomicDensity_core hs h0 x⟩
  · refine ⟨_, _, derivDensity_fins h _, ?_, kinetic_fins h _, ?_⟩
    · rw [derivDensity_fins hs, List.map_map, List.map_map]
      congr 2
      apply List.map_congr_left
      intro r hr
      obtain ⟨h1, h2⟩ := hx r hr
      have hr0 : r ≠ 0 := by
        rintro rfl
        rw [abs_zero] at h1
        norm_num at h1
      simp only [Function.comp]
      rw [← mul_div_assoc]
      congr 1
      apply wsum_smul
      intro o ho
      simp only [cutD, if_neg (not_lt.mpr h1), if_neg (not_lt.mpr h2)]
      rw [orbR_scale hu _ _ (h.pos o ho), orbR'_scale hu _ _ (h.pos o ho) r hr0,
        show u ^ 4 = u * (u * sqrt u) ^ 2 by rw [sq_scale hu]; ring]
      ring
    · rw [kinetic_fins hs, List.map_map, List.map_map]
      congr 2
      apply List.map_congr_left
      intro r hr
      obtain ⟨h1, h2⟩ := hx r hr
      have hr0 : r ≠ 0 := by
        rintro rfl
        rw [abs_zero] at h1
        norm_num at h1
      simp only [Function.comp]
      rw [← mul_div_assoc, ← mul_div_assoc]
      congr 2
      apply wsum_smul
      intro o ho
      simp only [kinVal, cutD, if_neg (not_lt.mpr h1), if_neg (not_lt.mpr h2)]
      rw [orbR_scale hu _ _ (h.pos o ho), orbR'_scale hu _ _ (h.pos o ho) r hr0,
        mul_pow (u * (u * sqrt u)), mul_pow u (u * sqrt u), mul_pow (u * sqrt u), sq_scale hu]
      field_simp

/-- C87 for a one-electron atom with one Slater function `1s` of exponent 3: kinetic energy 9/2. -/
example : ∃ (A : SlaterAtom) (k : ℝ → ℝ),
    (∀ x : List ℝ, (∀ r ∈ x, 1e-10 ≤ |r|) → A.kinetic (ND.vec (fins x)) = .ok (fins (x.map k))) ∧
    ∫ p : EuclideanSpace ℝ (Fin 3), k ‖p‖ = 9 / 2 := by
  have hA : IsSlater ⟨[⟨1, .S⟩], fun _ => some (fins [3]), fun _ => some [1], fun _ => some (fins [1]),
      fins [1], fins [-1]⟩ (fun _ => [(3, 1)]) (fun _ => [1]) [1] [-1] :=
    ⟨fun _ _ => rfl, fun _ _ => rfl, fun _ _ => rfl, by simp, by norm_num, rfl, rfl, by simp, rfl, rfl⟩
  obtain ⟨k, h1, -, h3⟩ := C87_kinetic_energy hA
  refine ⟨_, k, h1, h3.trans ?_⟩
  have e : slNorm (3, 1) * slNorm (3, 1) = 108 := by
    unfold slNorm
    have := mul_self_sqrt (show (0 : ℝ) ≤ 2 * 3 / (Nat.factorial (2 * 1) : ℝ) by positivity)
    calc _ = (2 * 3) ^ 1 * (2 * 3) ^ 1 * (sqrt (2 * 3 / (Nat.factorial (2 * 1) : ℝ)) *
          sqrt (2 * 3 / (Nat.factorial (2 * 1) : ℝ))) := by ring
      _ = 108 := by rw [this]; norm_num [Nat.factorial]
  simp only [List.map_cons, List.map_nil, wsum_cons, bilin, List.zipWith_cons_cons, List.zipWith_nil_right,
    List.sum_cons, List.sum_nil, slKin, e]
  norm_num [Nat.factorial, Sub.l]

/-- C88 for the two-orbital atom `beOuter`, exponents doubled. -/
example : ∃ t : List ℝ, beOuter.atomicDensity (ND.vec (fins [0, 1])) "valence" = .ok (fins t) ∧
    (beOuter.scaled 2).atomicDensity (ND.vec (fins [0, 1 / 2])) "valence" = .ok (fins (t.map (8 * ·))) := by
  have := (C88_scaling beOuter_isSlater (by simp [beOuter]) (show (0 : ℝ) < 2 by norm_num) [0, 1 / 2]).1
    "valence" (by simp)
  obtain ⟨t, h1, h2⟩ := this
  refine ⟨t, ?_, ?_⟩
  · simpa using h1
  · rw [h2]
    norm_num

end
end BFit
