import Mathlib.Analysis.Calculus.LocalExtr.Rolle
import Mathlib.Analysis.Calculus.MeanValue
import Mathlib.Analysis.SpecialFunctions.ExpDeriv
import Mathlib.Algebra.Polynomial.Derivative
import Mathlib.Analysis.Calculus.Deriv.Polynomial
import Mathlib.Data.Finset.Sort

/-! Zeros of combinations of exponentials with polynomial coefficients. -/

namespace BFit

open Real Classical Polynomial

noncomputable section

/-- Between `n + 1` zeros of a function lie `n` zeros of its derivative. -/
theorem rolle_count {f f' : ℝ → ℝ} (hf : ∀ x, HasDerivAt f (f' x) x) {n : ℕ} (Z : Finset ℝ) (hc : n + 1 ≤ Z.card)
    (hz : ∀ z ∈ Z, f z = 0) : ∃ Z' : Finset ℝ, Z'.card = n ∧ ∀ z ∈ Z', f' z = 0 := by
  obtain ⟨Y, hY, hYc⟩ := Finset.exists_subset_card_eq hc
  set zs := Y.orderEmbOfFin hYc with hzs
  have hmem : ∀ i, zs i ∈ Y := fun i => Finset.orderEmbOfFin_mem Y hYc i
  have hlt : ∀ i : Fin n, zs i.castSucc < zs i.succ := fun i => zs.strictMono (Fin.castSucc_lt_succ)
  have hex : ∀ i : Fin n, ∃ x ∈ Set.Ioo (zs i.castSucc) (zs i.succ), f' x = 0 := by
    intro i
    refine exists_hasDerivAt_eq_zero (hlt i) ?_ ?_ fun x _ => hf x
    · exact fun x _ => (hf x).continuousAt.continuousWithinAt
    · rw [hz _ (hY (hmem _)), hz _ (hY (hmem _))]
  choose ξ hξ hξ0 using hex
  have hmono : StrictMono ξ := by
    intro i j hij
    have h1 := (hξ i).2
    have h2 := (hξ j).1
    have : zs i.succ ≤ zs j.castSucc := zs.monotone (by
      rw [Fin.le_def]; simp only [Fin.val_succ, Fin.val_castSucc]; exact hij)
    linarith
  refine ⟨Finset.univ.map ⟨ξ, hmono.injective⟩, by simp, fun z hz' => ?_⟩
  simp only [Finset.mem_map, Finset.mem_univ, true_and, Function.Embedding.coeFn_mk] at hz'
  obtain ⟨i, rfl⟩ := hz'
  exact hξ0 i

/-- A term `p(x) exp(a x)` with a bound for the number of coefficients of `p`. -/
structure ETerm where
  p : ℝ[X]
  a : ℝ
  d : ℕ

/-- Its value. -/
def ETerm.val (t : ETerm) (x : ℝ) : ℝ := t.p.eval x * exp (t.a * x)

/-- The sum of the terms. -/
def efun (L : List ETerm) (x : ℝ) : ℝ := (L.map fun t => t.val x).sum

/-- Derivative of the term after multiplication by `exp(-a x)`. -/
def ETerm.step (a : ℝ) (t : ETerm) : ETerm := ⟨derivative t.p + C (t.a - a) * t.p, t.a - a, t.d⟩

theorem ETerm.step_deriv (a : ℝ) (t : ETerm) (x : ℝ) :
    HasDerivAt (fun y => t.val y * exp (-a * y)) ((t.step a).val x) x := by
  have h1 := t.p.hasDerivAt x
  have h2 : HasDerivAt (fun y => exp ((t.a - a) * y)) (exp ((t.a - a) * x) * (t.a - a)) x := by
    have := ((hasDerivAt_id x).const_mul (t.a - a)).exp
    simpa using this
  have h3 := h1.mul h2
  have e : (fun y => t.val y * exp (-a * y)) = fun y => t.p.eval y * exp ((t.a - a) * y) := by
    funext y
    unfold ETerm.val
    rw [mul_assoc, ← exp_add]
    congr 2
    ring
  rw [e]
  refine h3.congr_deriv ?_
  simp only [ETerm.step, ETerm.val, eval_add, eval_mul, eval_C]
  ring

theorem efun_step (a : ℝ) (L : List ETerm) (x : ℝ) :
    HasDerivAt (fun y => efun L y * exp (-a * y)) (efun (L.map (ETerm.step a)) x) x := by
  induction L with
  | nil => simpa [efun] using hasDerivAt_const x (0 : ℝ)
  | cons t L ih =>
    have h := (t.step_deriv a x).add ih
    simp only [efun, List.map_cons, List.sum_cons] at h ⊢
    refine (h.congr_of_eventuallyEq (Filter.Eventually.of_forall fun y => ?_))
    simp only [Pi.add_apply]
    ring

theorem ETerm.step_deg (a : ℝ) {t : ETerm} (h : t.p.degree < t.d) : (t.step a).p.degree < (t.step a).d := by
  simp only [ETerm.step]
  refine (degree_add_le _ _).trans_lt (max_lt ?_ ?_)
  · exact (degree_derivative_le).trans_lt h
  · refine (degree_mul_le _ _).trans_lt ?_
    calc (C (t.a - a)).degree + t.p.degree ≤ 0 + t.p.degree := by gcongr; exact degree_C_le
      _ = t.p.degree := zero_add _
      _ < t.d := h

/-- A combination of exponentials with as many zeros as coefficients vanishes. -/
theorem efun_zero : ∀ (n : ℕ) (L : List ETerm), (L.map ETerm.d).sum + L.length ≤ n →
    (∀ t ∈ L, t.p.degree < t.d) → ∀ Z : Finset ℝ, (L.map ETerm.d).sum ≤ Z.card → (∀ z ∈ Z, efun L z = 0) →
    ∀ x, efun L x = 0 := by
  intro n
  induction n with
  | zero =>
    intro L hn _ Z _ _ x
    have : L = [] := by
      apply List.eq_nil_of_length_eq_zero; omega
    subst this
    simp [efun]
  | succ n ih =>
    intro L hn hdeg Z hZ hz x
    cases L with
    | nil => simp [efun]
    | cons t L =>
      have ht := hdeg t (by simp)
      have hL : ∀ u ∈ L, u.p.degree < u.d := fun u hu => hdeg u (List.mem_cons_of_mem _ hu)
      simp only [List.map_cons, List.sum_cons, List.length_cons] at hn hZ
      obtain ⟨d, hd⟩ : ∃ d, d = t.d := ⟨_, rfl⟩
      cases d with
      | zero =>
        have hp : t.p = 0 := by
          rw [← hd] at ht
          rw [← degree_eq_bot]
          simpa using ht
        have e : ∀ y, efun (t :: L) y = efun L y := by
          intro y; simp [efun, ETerm.val, hp]
        rw [e]
        exact ih L (by omega) hL Z (by omega) (fun z h => (e z).symm.trans (hz z h)) x
      | succ d =>
        -- the terms of the derivative
        set u : ETerm := ⟨derivative t.p, 0, d⟩ with hu
        have hderiv := efun_step t.a (t :: L)
        have e : ∀ y, efun ((t :: L).map (ETerm.step t.a)) y = efun (u :: L.map (ETerm.step t.a)) y := by
          intro y
          simp [efun, ETerm.val, ETerm.step, hu]
        have hd' : ∀ y, HasDerivAt (fun y => efun (t :: L) y * exp (-t.a * y))
            (efun (u :: L.map (ETerm.step t.a)) y) y := fun y => (e y) ▸ hderiv y
        have hsum : ((L.map (ETerm.step t.a)).map ETerm.d).sum = (L.map ETerm.d).sum := by
          rw [List.map_map]; rfl
        obtain ⟨Z', hc', hz'⟩ := rolle_count hd' (n := d + (L.map ETerm.d).sum) Z (by omega)
          (fun z h => by simp only [hz z h, zero_mul])
        have hud : u.p.degree < u.d := by
          simp only [hu]
          by_cases h0 : t.p = 0
          · rw [h0, derivative_zero, degree_zero]; exact WithBot.bot_lt_coe _
          · have h1 := degree_derivative_lt h0
            rw [← hd] at ht
            have h2 : t.p.degree ≤ d := by
              rw [degree_eq_natDegree h0] at ht ⊢
              exact_mod_cast Nat.lt_succ_iff.mp (by exact_mod_cast ht)
            exact h1.trans_le h2
        have hzero := ih (u :: L.map (ETerm.step t.a))
          (by simp only [List.map_cons, List.sum_cons, List.length_cons, List.length_map, hsum, hu]; omega)
          (by
            intro v hv
            rcases List.mem_cons.mp hv with rfl | hv
            · exact hud
            · obtain ⟨w, hw, rfl⟩ := List.mem_map.mp hv
              exact ETerm.step_deg _ (hL w hw)) Z'
          (by simp only [List.map_cons, List.sum_cons, hsum, hu]; omega) hz'
        -- so the product with the exponential is constant
        obtain ⟨z₀, hz₀⟩ : Z.Nonempty := Finset.card_pos.mp (by omega)
        have hconst := is_const_of_deriv_eq_zero (f := fun y => efun (t :: L) y * exp (-t.a * y))
          (fun y => (hd' y).differentiableAt) (fun y => by rw [(hd' y).deriv, hzero y]) x z₀
        simp only [hz z₀ hz₀, zero_mul] at hconst
        exact (mul_eq_zero.mp hconst).resolve_right (exp_pos _).ne'

end

end BFit
