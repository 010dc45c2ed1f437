import Verif.Props.Slater

/-! Property C65: which energy the core and valence weights refer to. -/

namespace BFit

open Real Classical

noncomputable section

/-- The documented valence density relative to the energy `h`: `Σ n_i e^{-|e_i - h|²} φ_i² / 4π`. -/
def valenceDensSpec (os : List Orb) (basis : Sub → List (ℝ × ℕ)) (c : Orb → List ℝ) (occ en : List ℝ) (h r : ℝ) :
    ℝ :=
  (List.zipWith (fun o ne => ne.1 * exp (-|ne.2 - h| ^ 2) * orbR (basis o.sub) (c o) r ^ 2) os
    (List.zip occ en)).sum / (4 * π)

/-- The documented core density relative to the energy `h`. -/
def coreDensSpec (os : List Orb) (basis : Sub → List (ℝ × ℕ)) (c : Orb → List ℝ) (occ en : List ℝ) (h r : ℝ) :
    ℝ :=
  (List.zipWith (fun o ne => ne.1 * (1 - exp (-|ne.2 - h| ^ 2)) * orbR (basis o.sub) (c o) r ^ 2) os
    (List.zip occ en)).sum / (4 * π)

theorem densR_valW (os : List Orb) (basis : Sub → List (ℝ × ℕ)) (c : Orb → List ℝ) (occ en : List ℝ)
    (h r : ℝ) :
    densR os basis c (valW false h occ en) r = valenceDensSpec os basis c occ en h r ∧
    densR os basis c (valW true h occ en) r = coreDensSpec os basis c occ en h r := by
  unfold densR valenceDensSpec coreDensSpec
  constructor <;> congr 1
  all_goals
    induction os generalizing occ en with
    | nil => simp
    | cons o os ih =>
      cases occ with
      | nil => simp [valW]
      | cons n occ =>
        cases en with
        | nil => simp [valW]
        | cons e en =>
          have := ih occ en
          simp only [valW, List.map_cons, List.zipWith_cons_cons, wsum_cons, List.zip_cons_cons,
            List.sum_cons, sq_abs, if_true, Bool.false_eq_true, if_false] at this ⊢
          rw [this]
          ring

/-- For every atom the weights refer to the energy of the orbital listed last. -/
theorem C65_uses_last {A : SlaterAtom} {basis : Sub → List (ℝ × ℕ)} {c : Orb → List ℝ} {occ en : List ℝ}
    (h : IsSlater A basis c occ en) (e : ℝ) (he : en.getLast? = some e) (x : List ℝ) :
    A.atomicDensity (ND.vec (fins x)) "valence" =
        .ok (fins (x.map (valenceDensSpec A.orbitals basis c occ en e))) ∧
      A.atomicDensity (ND.vec (fins x)) "core" =
        .ok (fins (x.map (coreDensSpec A.orbitals basis c occ en e))) := by
  have h0 : A.orbitals ≠ [] := by
    intro h1
    have := h.en_len
    rw [h1] at this
    rw [List.length_eq_zero_iff.mp this] at he
    simp at he
  have hl : lastEn en = e := by
    rw [lastEn, List.getLastD_eq_getLast?, he]
    rfl
  rw [atomicDensity_valence h h0, atomicDensity_core h h0, hl]
  constructor
  · congr 2
    apply List.map_congr_left
    intro r _
    exact (densR_valW _ _ _ _ _ _ _).1
  · congr 2
    apply List.map_congr_left
    intro r _
    exact (densR_valW _ _ _ _ _ _ _).2

/-- The documented weights, provided that the orbital listed last has the highest energy `e`.  Missing:
atoms whose last orbital is not the highest, for which it is false (`C65_fails`). -/
theorem C65_homo_partial {A : SlaterAtom} {basis : Sub → List (ℝ × ℕ)} {c : Orb → List ℝ}
    {occ en : List ℝ} (h : IsSlater A basis c occ en) (last : ℝ) (hl : en.getLast? = some last)
    (hmax : ∀ e ∈ en, e ≤ last) (homo : ℝ) (hm : homo ∈ en ∧ ∀ e ∈ en, e ≤ homo) (x : List ℝ) :
    A.atomicDensity (ND.vec (fins x)) "valence" =
        .ok (fins (x.map (valenceDensSpec A.orbitals basis c occ en homo))) ∧
      A.atomicDensity (ND.vec (fins x)) "core" =
        .ok (fins (x.map (coreDensSpec A.orbitals basis c occ en homo))) := by
  have : homo = last := le_antisymm (hmax _ hm.1) (hm.2 _ (List.mem_of_getLast? hl))
  rw [this]
  exact C65_uses_last h last hl x

/-! ### The outer orbitals of xenon -/

/-- One Slater function for each of the subshells P and D. -/
def xeBasis : Sub → List (ℝ × ℕ)
  | .P => [(1, 2)]
  | .D => [(1, 3)]
  | _ => []

/-- Orbitals 5P and 4D with the energies of `data/neutral/xe.slater`, in the order of the loader. -/
def xeOuter : SlaterAtom where
  orbitals := [⟨5, .P⟩, ⟨4, .D⟩]
  exps := fun s => some (fins ((xeBasis s).map Prod.fst))
  nums := fun s => some ((xeBasis s).map Prod.snd)
  coeff := fun _ => some (fins [1])
  occ := fins [6, 10]
  energies := fins [-0.4572897, -2.7778799]

theorem xeOuter_isSlater :
    IsSlater xeOuter xeBasis (fun _ => [1]) [6, 10] [-0.4572897, -2.7778799] where
  exps := fun _ _ => rfl
  nums := fun _ _ => rfl
  coeff := fun _ _ => rfl
  width := by simp [xeOuter, xeBasis]
  pos := by simp [xeOuter, xeBasis]
  occ_eq := rfl
  occ_len := rfl
  occ_nonneg := by simp
  en_eq := rfl
  en_len := rfl

theorem slaterR_sq_p : slaterR 1 2 1 ^ 2 = 4 / 3 * exp (-1) ^ 2 := by
  unfold slaterR
  rw [mul_pow, mul_pow, mul_pow, sq_sqrt (by positivity)]
  norm_num [Nat.factorial]

theorem slaterR_sq_d : slaterR 1 3 1 ^ 2 = 8 / 45 * exp (-1) ^ 2 := by
  unfold slaterR
  rw [mul_pow, mul_pow, mul_pow, sq_sqrt (by positivity)]
  norm_num [Nat.factorial]

/-- The code does not use the highest occupied orbital: for the outer orbitals of xenon the reference
is 4D though 5P lies higher, and the valence density at `r = 1` differs from the documented one. -/
theorem C65_fails :
    ∃ (A : SlaterAtom) (basis : Sub → List (ℝ × ℕ)) (c : Orb → List ℝ) (occ en : List ℝ) (homo v s : ℝ),
      IsSlater A basis c occ en ∧ (homo ∈ en ∧ ∀ e ∈ en, e ≤ homo) ∧
      A.atomicDensity (ND.vec (fins [1])) "valence" = .ok (fins [v]) ∧
      s = valenceDensSpec A.orbitals basis c occ en homo 1 ∧ v < s := by
  refine ⟨xeOuter, xeBasis, fun _ => [1], [6, 10], [-0.4572897, -2.7778799], -0.4572897, _, _,
    xeOuter_isSlater, ⟨by simp, by norm_num⟩,
    (C65_uses_last xeOuter_isSlater (-2.7778799) (by simp) [1]).1, rfl, ?_⟩
  simp only [valenceDensSpec, xeOuter, List.zip_cons_cons, List.zip_nil_right, List.zipWith_cons_cons,
    List.zipWith_nil_right, List.sum_cons, List.sum_nil, xeBasis, orbR, List.map_cons, List.map_nil,
    wsum_cons, wsum_nil_left, mul_one, add_zero, slaterR_sq_p, slaterR_sq_d]
  apply div_lt_div_of_pos_right _ (by positivity)
  set E := exp (-1 : ℝ) ^ 2 with hE
  have hE0 : 0 < E := by positivity
  rw [show |(-0.4572897 : ℝ) - -0.4572897| = 0 by norm_num,
    show |(-2.7778799 : ℝ) - -2.7778799| = 0 by norm_num,
    show |(-0.4572897 : ℝ) - -2.7778799| = 2.3205902 by rw [abs_of_pos] <;> norm_num,
    show |(-2.7778799 : ℝ) - -0.4572897| = 2.3205902 by rw [abs_of_neg] <;> norm_num]
  have h1 : exp (-(2.3205902 : ℝ) ^ 2) < 1 := by rw [Real.exp_lt_one_iff]; norm_num
  have h2 : exp (-(0 : ℝ) ^ 2) = 1 := by simp
  rw [h2]
  nlinarith [mul_pos hE0 (sub_pos.mpr h1)]

/-- An atom listed with its highest orbital last: the hypotheses of `C65_homo_partial`. -/
def beOuter : SlaterAtom where
  orbitals := [⟨1, .S⟩, ⟨2, .S⟩]
  exps := fun _ => some (fins [3, 1])
  nums := fun _ => some [1, 2]
  coeff := fun o => some (fins (if o.n = 1 then [0.9, 0.1] else [-0.2, 1.1]))
  occ := fins [2, 2]
  energies := fins [-4.7326699, -0.3092695]

theorem beOuter_isSlater :
    IsSlater beOuter (fun _ => [(3, 1), (1, 2)]) (fun o => if o.n = 1 then [0.9, 0.1] else [-0.2, 1.1])
      [2, 2] [-4.7326699, -0.3092695] where
  exps := fun _ _ => rfl
  nums := fun _ _ => rfl
  coeff := fun _ _ => rfl
  width := by simp [beOuter]
  pos := by simp
  occ_eq := rfl
  occ_len := rfl
  occ_nonneg := by simp
  en_eq := rfl
  en_len := rfl

example : [-4.7326699, (-0.3092695 : ℝ)].getLast? = some (-0.3092695) ∧
    (∀ e ∈ [-4.7326699, (-0.3092695 : ℝ)], e ≤ -0.3092695) ∧ beOuter.orbitals ≠ [] := by
  refine ⟨rfl, ?_, ?_⟩
  · norm_num
  · simp [beOuter]

end
end BFit
