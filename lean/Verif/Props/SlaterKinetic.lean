import Verif.Props.SlaterHomo

/-! Property C82: the kinetic energy density is bounded below by the von Weizsäcker one. -/

namespace BFit

open Real Classical

noncomputable section

/-- Cauchy-Schwarz for weighted sums of lists. -/
theorem wsum_cs {α : Type} (l : List α) (x y : α → ℝ) (w : List ℝ) (hw : ∀ a ∈ w, 0 ≤ a) :
    wsum (l.map fun o => x o * y o) w ^ 2 ≤
      wsum (l.map fun o => x o ^ 2) w * wsum (l.map fun o => y o ^ 2) w ∧
    0 ≤ wsum (l.map fun o => x o ^ 2) w ∧ 0 ≤ wsum (l.map fun o => y o ^ 2) w := by
  induction l generalizing w with
  | nil => simp
  | cons o l ih =>
    cases w with
    | nil => simp
    | cons a w =>
      obtain ⟨h1, h2, h3⟩ := ih w fun b hb => hw b (List.mem_cons_of_mem _ hb)
      have ha := hw a (by simp)
      simp only [List.map_cons, wsum_cons]
      generalize wsum (l.map fun o => x o * y o) w = s at h1
      generalize wsum (l.map fun o => x o ^ 2) w = p at h1 h2
      generalize wsum (l.map fun o => y o ^ 2) w = q at h1 h3
      generalize x o = u
      generalize y o = v
      refine ⟨?_, by positivity, by positivity⟩
      have h4 : 2 * (s * (u * v)) ≤ p * v ^ 2 + q * u ^ 2 := by
        apply le_of_sq_le_sq _ (by positivity)
        calc (2 * (s * (u * v))) ^ 2 = 4 * s ^ 2 * (u * v) ^ 2 := by ring
          _ ≤ 4 * (p * q) * (u * v) ^ 2 := by gcongr
          _ ≤ (p * v ^ 2 + q * u ^ 2) ^ 2 := by nlinarith [sq_nonneg (p * v ^ 2 - q * u ^ 2)]
      have h5 := mul_le_mul_of_nonneg_left h4 ha
      nlinarith
where
  le_of_sq_le_sq {a b : ℝ} (h : a ^ 2 ≤ b ^ 2) (hb : 0 ≤ b) : a ≤ b := abs_le_of_sq_le_sq' h hb |>.2

/-- **C82**.  At every point the kinetic energy density `k`, the density `t` and its derivative `d` that
the three methods return satisfy `d² ≤ 8 t k`: the kinetic energy density is at least the von Weizsäcker
one, `d² / (8 t)`.  For an atom with a single orbital of type S the two are equal. -/
theorem C82_weizsaecker {A : SlaterAtom} {basis : Sub → List (ℝ × ℕ)} {c : Orb → List ℝ} {occ en : List ℝ}
    (h : IsSlater A basis c occ en) (x : List ℝ) :
    ∃ t d k : List ℝ, A.atomicDensity (ND.vec (fins x)) "total" = .ok (fins t) ∧
      A.derivDensity (ND.vec (fins x)) = .ok (fins d) ∧ A.kinetic (ND.vec (fins x)) = .ok (fins k) ∧
      t.length = x.length ∧ d.length = x.length ∧ k.length = x.length ∧
      (∀ i < x.length, vec d i ^ 2 ≤ 8 * vec t i * vec k i) ∧
      ((∃ n, A.orbitals = [⟨n, .S⟩]) → ∀ i < x.length, vec d i ^ 2 = 8 * vec t i * vec k i) := by
  refine ⟨_, _, _, atomicDensity_total h x, derivDensity_fins h x, kinetic_fins h x, by simp, by simp,
    by simp, ?_, ?_⟩
  · intro i hi
    have hv : ∀ g : ℝ → ℝ, vec (x.map g) i = g x[i] := by
      intro g
      simp [vec, List.getD_eq_getElem?_getD, hi]
    rw [hv, hv, hv]
    generalize x[i] = r
    obtain ⟨h1, h2, h3⟩ := wsum_cs A.orbitals (fun o => orbR (basis o.sub) (c o) r)
      (fun o => cutD (orbR' (basis o.sub) (c o)) r) occ h.occ_nonneg
    have h4 : wsum (A.orbitals.map fun o => cutD (orbR' (basis o.sub) (c o)) r ^ 2) occ ≤
        wsum (A.orbitals.map fun o => kinVal basis c o r) occ := by
      have hp := h.occ_nonneg
      clear h1 h2 h3 h hv hi
      generalize A.orbitals = os
      induction os generalizing occ with
      | nil => simp
      | cons o os ih =>
        cases occ with
        | nil => simp
        | cons a occ =>
          simp only [List.map_cons, wsum_cons]
          refine add_le_add (mul_le_mul_of_nonneg_right ?_ (hp a (by simp)))
            (ih fun b hb => hp b (List.mem_cons_of_mem _ hb))
          unfold kinVal cutD
          split
          · simp
          · have : 0 ≤ angular o.sub := by cases o.sub <;> simp [angular]
            have : 0 ≤ angular o.sub * orbR (basis o.sub) (c o) r ^ 2 / r ^ 2 := by positivity
            linarith
    have e1 : wsum (A.orbitals.map fun o => 2 * (orbR (basis o.sub) (c o) r *
        cutD (orbR' (basis o.sub) (c o)) r)) occ =
        2 * wsum (A.orbitals.map fun o => orbR (basis o.sub) (c o) r *
          cutD (orbR' (basis o.sub) (c o)) r) occ := by
      clear h1 h2 h3 h4 h hv hi
      generalize A.orbitals = os
      induction os generalizing occ with
      | nil => simp
      | cons o os ih =>
        cases occ with
        | nil => simp
        | cons a occ =>
          simp only [List.map_cons, wsum_cons]
          rw [ih]
          ring
    rw [e1]
    unfold densR
    have hpi := pi_pos
    generalize wsum (A.orbitals.map fun o => orbR (basis o.sub) (c o) r *
      cutD (orbR' (basis o.sub) (c o)) r) occ = s at h1
    generalize wsum (A.orbitals.map fun o => orbR (basis o.sub) (c o) r ^ 2) occ = p at h1 h2
    generalize wsum (A.orbitals.map fun o => cutD (orbR' (basis o.sub) (c o)) r ^ 2) occ = q at h1 h3 h4
    generalize wsum (A.orbitals.map fun o => kinVal basis c o r) occ = k at h4
    have h5 : s ^ 2 ≤ p * k := h1.trans (mul_le_mul_of_nonneg_left h4 h2)
    have e2 : (2 * s / (4 * π)) ^ 2 = s ^ 2 / (4 * π ^ 2) := by field_simp; ring
    have e3 : 8 * (p / (4 * π)) * (k / 2 / (4 * π)) = p * k / (4 * π ^ 2) := by field_simp; ring
    rw [e2, e3]
    gcongr
  · rintro ⟨n, ho⟩ i hi
    have hv : ∀ g : ℝ → ℝ, vec (x.map g) i = g x[i] := by
      intro g
      simp [vec, List.getD_eq_getElem?_getD, hi]
    rw [hv, hv, hv]
    generalize x[i] = r
    have hl := h.occ_len
    rw [ho] at hl
    obtain ⟨a, rfl⟩ : ∃ a, occ = [a] := by
      match occ, hl with
      | [a], _ => exact ⟨a, rfl⟩
    unfold densR
    rw [ho]
    simp only [List.map_cons, List.map_nil, wsum_cons, wsum_nil_left, add_zero]
    have hk : kinVal basis c ⟨n, .S⟩ r = cutD (orbR' (basis .S) (c ⟨n, .S⟩)) r ^ 2 := by
      unfold kinVal cutD
      split <;> simp [angular]
    rw [hk]
    have hpi := pi_pos
    field_simp
    ring

/-- C82 for the two-orbital atom `beOuter` on three points. -/
example : ∃ t d k : List ℝ, beOuter.atomicDensity (ND.vec (fins [0, 1, 2])) "total" = .ok (fins t) ∧
    beOuter.derivDensity (ND.vec (fins [0, 1, 2])) = .ok (fins d) ∧
    beOuter.kinetic (ND.vec (fins [0, 1, 2])) = .ok (fins k) ∧ vec d 1 ^ 2 ≤ 8 * vec t 1 * vec k 1 := by
  obtain ⟨t, d, k, h1, h2, h3, -, -, -, h4, -⟩ := C82_weizsaecker beOuter_isSlater [0, 1, 2]
  exact ⟨t, d, k, h1, h2, h3, h4 1 (by simp)⟩

/-- A one-orbital atom, the case of equality. -/
def heOuter : SlaterAtom where
  orbitals := [⟨1, .S⟩]
  exps := fun _ => some (fins [1.4, 2.5])
  nums := fun _ => some [1, 1]
  coeff := fun _ => some (fins [0.8, 0.2])
  occ := fins [2]
  energies := fins [-0.9179555]

theorem heOuter_isSlater :
    IsSlater heOuter (fun _ => [(1.4, 1), (2.5, 1)]) (fun _ => [0.8, 0.2]) [2] [-0.9179555] where
  exps := fun _ _ => rfl
  nums := fun _ _ => rfl
  coeff := fun _ _ => rfl
  width := by simp
  pos := by norm_num
  occ_eq := rfl
  occ_len := rfl
  occ_nonneg := by simp
  en_eq := rfl
  en_len := rfl

/-- C82 for the one-orbital atom: equality at every point. -/
example : ∃ t d k : List ℝ, heOuter.atomicDensity (ND.vec (fins [0, 1, 2])) "total" = .ok (fins t) ∧
    heOuter.derivDensity (ND.vec (fins [0, 1, 2])) = .ok (fins d) ∧
    heOuter.kinetic (ND.vec (fins [0, 1, 2])) = .ok (fins k) ∧ vec d 1 ^ 2 = 8 * vec t 1 * vec k 1 := by
  obtain ⟨t, d, k, h1, h2, h3, -, -, -, -, h4⟩ := C82_weizsaecker heOuter_isSlater [0, 1, 2]
  exact ⟨t, d, k, h1, h2, h3, h4 ⟨1, rfl⟩ 1 (by simp)⟩

end
end BFit
