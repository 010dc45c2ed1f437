import Verif.Model.Gauss
import Verif.Spec.Gauss
import Verif.Lemmas.Trapz
import Mathlib.Analysis.SpecialFunctions.Pow.Deriv
import Mathlib.Analysis.SpecialFunctions.ExpDeriv
import Mathlib.Analysis.Calculus.Deriv.Add
import Mathlib.Tactic.FieldSimp
import Mathlib.Tactic.NormNum

/-! Evaluation of the Gaussian models on finite input, derivative lemmas. -/

namespace BFit

open Real

noncomputable section

/-- Derivative of `sBasis` in the exponent. -/
def dsBasis (norm : Bool) (a r : ℝ) : ℝ :=
  if norm then
    -((a / π) ^ (3 / 2 : ℝ) * exp (-a * r ^ 2)) * r ^ 2 +
      1.5 * exp (-a * r ^ 2) * a ^ (1 / 2 : ℝ) / π ^ (3 / 2 : ℝ)
  else -(exp (-a * r ^ 2)) * r ^ 2

/-- Derivative of `pBasis` in the exponent. -/
def dpBasis (norm : Bool) (b r : ℝ) : ℝ :=
  if norm then
    -(2 * b ^ (5 / 2 : ℝ) / (3 * π ^ (3 / 2 : ℝ)) * (r ^ 2 * exp (-b * r ^ 2))) * r ^ 2 +
      5 * (exp (-b * r ^ 2) * r ^ 2) * b ^ (3 / 2 : ℝ) / (3 * π ^ (3 / 2 : ℝ))
  else -(r ^ 2 * exp (-b * r ^ 2)) * r ^ 2

theorem hasDerivAt_gauss (a r : ℝ) :
    HasDerivAt (fun a => exp (-a * r ^ 2)) (-(exp (-a * r ^ 2)) * r ^ 2) a := by
  have h1 : HasDerivAt (fun a : ℝ => -a * r ^ 2) (-1 * r ^ 2) a :=
    ((hasDerivAt_id a).neg).mul_const _
  have h2 := h1.exp
  convert h2 using 1
  ring

theorem hasDerivAt_sBasis (norm : Bool) (a r : ℝ) (h : norm = true → 0 < a) :
    HasDerivAt (fun a => sBasis norm a r) (dsBasis norm a r) a := by
  cases norm with
  | false => simpa [sBasis, dsBasis] using hasDerivAt_gauss a r
  | true =>
    have ha := h rfl
    have h1 : HasDerivAt (fun a : ℝ => (a / π) ^ (3 / 2 : ℝ))
        (1 / π * (3 / 2 : ℝ) * (a / π) ^ ((3 / 2 : ℝ) - 1)) a :=
      ((hasDerivAt_id a).div_const π).rpow_const (Or.inl (by positivity))
    have h2 := h1.mul (hasDerivAt_gauss a r)
    simp only [sBasis, dsBasis, if_true]
    refine HasDerivAt.congr_deriv h2 ?_
    have e1 : ((3 / 2 : ℝ) - 1) = 1 / 2 := by norm_num
    have e2 : π ^ (3 / 2 : ℝ) = π * π ^ (1 / 2 : ℝ) := by
      rw [← Real.rpow_one_add' pi_pos.le (by norm_num)]; norm_num
    rw [e1, Real.div_rpow ha.le pi_pos.le, e2]
    have hp : (π ^ (1 / 2 : ℝ)) ≠ 0 := (Real.rpow_pos_of_pos pi_pos _).ne'
    field_simp
    ring

theorem hasDerivAt_pBasis (norm : Bool) (b r : ℝ) (h : norm = true → 0 < b) :
    HasDerivAt (fun b => pBasis norm b r) (dpBasis norm b r) b := by
  have h0 : HasDerivAt (fun b => r ^ 2 * exp (-b * r ^ 2)) (r ^ 2 * (-(exp (-b * r ^ 2)) * r ^ 2)) b :=
    (hasDerivAt_gauss b r).const_mul _
  cases norm with
  | false =>
    simp only [pBasis, dpBasis, Bool.false_eq_true, if_false, one_mul]
    convert h0 using 1
    ring
  | true =>
    have hb := h rfl
    have h1 : HasDerivAt (fun b : ℝ => 2 * b ^ (5 / 2 : ℝ) / (3 * π ^ (3 / 2 : ℝ)))
        (2 * (1 * (5 / 2 : ℝ) * b ^ ((5 / 2 : ℝ) - 1)) / (3 * π ^ (3 / 2 : ℝ))) b :=
      (((hasDerivAt_id b).rpow_const (Or.inl hb.ne')).const_mul 2).div_const _
    have h2 := h1.mul h0
    simp only [pBasis, dpBasis, if_true]
    refine HasDerivAt.congr_deriv h2 ?_
    have e1 : ((5 / 2 : ℝ) - 1) = 3 / 2 := by norm_num
    rw [e1]
    have hp : (π ^ (3 / 2 : ℝ)) ≠ 0 := (Real.rpow_pos_of_pos pi_pos _).ne'
    field_simp
    ring

/-! ### rows on finite input -/

theorem gaussRow_fins (r : ℝ) (e : List ℝ) :
    gaussRow (XR.fin r) (fins e) = fins (e.map fun a => exp (-a * r ^ 2)) := by
  simp [gaussRow, fins, Function.comp_def]

theorem zipWith_map_self {α β : Type} (f : β → α → β) (g : α → β) (l : List α) :
    List.zipWith f (l.map g) l = l.map (fun a => f (g a) a) := by
  induction l with
  | nil => rfl
  | cons a l ih => simp [ih]

theorem evalSRow_unnorm (r : ℝ) (row c e : List ℝ) :
    evalSRow false (XR.fin r) (fins row) (fins c) (fins e) =
      (XR.fin (wsum row c), fins (row ++ List.zipWith (fun m c => -m * r ^ 2 * c) row c)) := by
  simp only [evalSRow, Bool.false_eq_true, if_false, npDot_fins, fins_append]
  rw [zipWith_fins (g := fun m c => -m * r ^ 2 * c) (by simp)]
  rfl

theorem evalSRow_norm (r : ℝ) (c e : List ℝ) (he : ∀ a ∈ e, 0 ≤ a) :
    evalSRow true (XR.fin r) (gaussRow (XR.fin r) (fins e)) (fins c) (fins e) =
      (XR.fin (wsum (e.map fun a => sBasis true a r) c),
        fins (e.map (fun a => sBasis true a r) ++
          List.zipWith (fun a c => c * dsBasis true a r) e c)) := by
  have hm : List.zipWith (fun m e => m * XR.pow (e / XR.fin π) 1.5)
      (fins (e.map fun a => exp (-a * r ^ 2))) (fins e) = fins (e.map fun a => sBasis true a r) := by
    rw [fins, fins, List.map_map, List.zipWith_map, List.zipWith_self, fins, List.map_map]
    apply List.map_congr_left
    intro a ha
    have h0 : 0 ≤ a / π := div_nonneg (he a ha) pi_pos.le
    simp only [Function.comp, XR.div_fin_of_ne _ pi_ne_zero, sBasis, if_true]
    rw [XR.pow_fin_of_nonneg h0 (by norm_num), XR.mul_fin, mul_comm]
    norm_num
  have hpi : (π ^ (1.5 : ℝ)) ≠ 0 := (Real.rpow_pos_of_pos pi_pos _).ne'
  have h2 : List.zipWith (fun c e => c * XR.pow e 0.5) (fins c) (fins e) =
      fins (List.zipWith (fun a c => c * a ^ (1 / 2 : ℝ)) e c) := by
    rw [List.zipWith_comm]
    clear hm
    induction e generalizing c with
    | nil => simp
    | cons a e ih =>
      cases c with
      | nil => simp
      | cons x c =>
        simp only [fins_cons, List.zipWith_cons_cons]
        rw [ih c (fun b hb => he b (by simp [hb])),
          XR.pow_fin_of_nonneg (he a (by simp)) (by norm_num), XR.mul_fin]
        norm_num
  simp only [evalSRow, if_true, gaussRow_fins, hm, npDot_fins, h2, fins_append]
  rw [zipWith_fins (g := fun m c => -m * r ^ 2 * c) (by simp),
    zipWith_fins (g := fun m ce => 1.5 * m * ce / π ^ (1.5 : ℝ)) (by
      intro a b; simp only [XR.mul_fin, XR.div_fin_of_ne _ hpi]),
    zipWith_fins (g := (· + ·)) (fun a b => XR.add_fin a b)]
  refine Prod.ext rfl ?_
  simp only []
  congr 2
  clear hm h2 he
  induction e generalizing c with
  | nil => simp
  | cons a e ih =>
    cases c with
    | nil => simp
    | cons x c =>
      simp only [List.map_cons, List.zipWith_cons_cons, ih c, List.cons.injEq, and_true]
      simp only [sBasis, dsBasis, if_true]
      norm_num
      ring

theorem evalPRow_unnorm (r : ℝ) (c e : List ℝ) :
    evalPRow false (XR.fin r) (gaussRow (XR.fin r) (fins e)) (fins c) (fins e) =
      (XR.fin (wsum (e.map fun a => pBasis false a r) c),
        fins (e.map (fun a => pBasis false a r) ++
          List.zipWith (fun a c => c * dpBasis false a r) e c)) := by
  have h1 : (gaussRow (XR.fin r) (fins e)).map (fun m => m * XR.pow (XR.fin r) 2) =
      fins (e.map fun a => pBasis false a r) := by
    rw [gaussRow_fins]
    simp [fins, Function.comp_def, pBasis, mul_comm]
  simp only [evalPRow, Bool.false_eq_true, not_false_eq_true, if_true]
  rw [h1, evalSRow_unnorm]
  congr 3
  rw [List.zipWith_map_left]
  congr 1
  funext a c
  simp [pBasis, dpBasis]; ring

theorem evalPRow_norm (r : ℝ) (c e : List ℝ) (he : ∀ a ∈ e, 0 ≤ a) :
    evalPRow true (XR.fin r) (gaussRow (XR.fin r) (fins e)) (fins c) (fins e) =
      (XR.fin (wsum (e.map fun a => pBasis true a r) c),
        fins (e.map (fun a => pBasis true a r) ++
          List.zipWith (fun a c => c * dpBasis true a r) e c)) := by
  have hpi : (π ^ (1.5 : ℝ)) ≠ 0 := (Real.rpow_pos_of_pos pi_pos _).ne'
  have h1 : (gaussRow (XR.fin r) (fins e)).map (fun m => m * XR.pow (XR.fin r) 2) =
      fins (e.map fun a => exp (-a * r ^ 2) * r ^ 2) := by
    rw [gaussRow_fins]
    simp [fins, Function.comp_def]
  have hm : List.zipWith (fun m e => m * (XR.pow e 2.5 / XR.fin (π ^ (1.5 : ℝ))) / XR.fin 1.5)
      (fins (e.map fun a => exp (-a * r ^ 2) * r ^ 2)) (fins e) =
      fins (e.map fun a => pBasis true a r) := by
    rw [fins, fins, List.map_map, List.zipWith_map, List.zipWith_self, fins, List.map_map]
    apply List.map_congr_left
    intro a ha
    simp only [Function.comp]
    rw [XR.pow_fin_of_nonneg (he a ha) (by norm_num), XR.div_fin_of_ne _ hpi, XR.mul_fin,
      XR.div_fin_of_ne _ (by norm_num)]
    simp only [pBasis, if_true, XR.fin_inj]
    norm_num
    field_simp
  have h2 : List.zipWith (fun c e => c * XR.pow e 1.5) (fins c) (fins e) =
      fins (List.zipWith (fun a c => c * a ^ (3 / 2 : ℝ)) e c) := by
    rw [List.zipWith_comm]
    clear hm
    clear h1
    induction e generalizing c with
    | nil => simp
    | cons a e ih =>
      cases c with
      | nil => simp
      | cons x c =>
        simp only [fins_cons, List.zipWith_cons_cons]
        rw [ih c (fun b hb => he b (by simp [hb])),
          XR.pow_fin_of_nonneg (he a (by simp)) (by norm_num), XR.mul_fin]
        norm_num
  simp only [evalPRow, not_true_eq_false, if_false, h1, hm, npDot_fins, h2, fins_append]
  rw [zipWith_fins (g := fun m c => -m * r ^ 2 * c) (by simp),
    zipWith_fins (g := fun m ce => 5 * m * ce / (3 * π ^ (1.5 : ℝ))) (by
      intro a b
      simp only [XR.mul_fin, XR.div_fin_of_ne _ (mul_ne_zero three_ne_zero hpi)]),
    zipWith_fins (g := (· + ·)) (fun a b => XR.add_fin a b)]
  refine Prod.ext rfl ?_
  simp only []
  congr 2
  clear hm h2 he h1
  induction e generalizing c with
  | nil => simp
  | cons a e ih =>
    cases c with
    | nil => simp
    | cons x c =>
      simp only [List.map_cons, List.zipWith_cons_cons, ih c, List.cons.injEq, and_true]
      simp only [pBasis, dpBasis, if_true]
      norm_num
      ring

theorem evalSRow_fins (norm : Bool) (r : ℝ) (c e : List ℝ) (he : norm = true → ∀ a ∈ e, 0 ≤ a) :
    evalSRow norm (XR.fin r) (gaussRow (XR.fin r) (fins e)) (fins c) (fins e) =
      (XR.fin (wsum (e.map fun a => sBasis norm a r) c),
        fins (e.map (fun a => sBasis norm a r) ++
          List.zipWith (fun a c => c * dsBasis norm a r) e c)) := by
  cases norm with
  | true => exact evalSRow_norm r c e (he rfl)
  | false =>
    rw [gaussRow_fins, evalSRow_unnorm]
    have : (e.map fun a => exp (-a * r ^ 2)) = e.map fun a => sBasis false a r := by
      simp [sBasis]
    rw [this]
    congr 3
    rw [List.zipWith_map_left]
    congr 1
    funext a c
    simp [sBasis, dsBasis]; ring

theorem evalPRow_fins (norm : Bool) (r : ℝ) (c e : List ℝ) (he : norm = true → ∀ a ∈ e, 0 ≤ a) :
    evalPRow norm (XR.fin r) (gaussRow (XR.fin r) (fins e)) (fins c) (fins e) =
      (XR.fin (wsum (e.map fun a => pBasis norm a r) c),
        fins (e.map (fun a => pBasis norm a r) ++
          List.zipWith (fun a c => c * dpBasis norm a r) e c)) := by
  cases norm with
  | true => exact evalPRow_norm r c e (he rfl)
  | false => exact evalPRow_unnorm r c e

/-- The basis functions of an atom at radius `r`. -/
def basisRow (ns : ℕ) (norm : Bool) (e : List ℝ) (r : ℝ) : List ℝ :=
  (e.take ns).map (fun a => sBasis norm a r) ++ (e.drop ns).map (fun a => pBasis norm a r)

/-- Derivatives of the basis functions in their exponent, times the coefficients. -/
def dexpRow (ns : ℕ) (norm : Bool) (c e : List ℝ) (r : ℝ) : List ℝ :=
  List.zipWith (fun a c => c * dsBasis norm a r) (e.take ns) (c.take ns) ++
    List.zipWith (fun a c => c * dpBasis norm a r) (e.drop ns) (c.drop ns)

theorem basisRow_length (ns : ℕ) (norm : Bool) (e : List ℝ) (r : ℝ) :
    (basisRow ns norm e r).length = e.length := by
  simp [basisRow]; omega

theorem dexpRow_length (ns : ℕ) (norm : Bool) (c e : List ℝ) (r : ℝ) (h : c.length = e.length) :
    (dexpRow ns norm c e r).length = e.length := by
  simp [dexpRow, h]; omega

theorem wsum_append (a b c d : List ℝ) (h : a.length = c.length) :
    wsum (a ++ b) (c ++ d) = wsum a c + wsum b d := by
  simp [wsum, List.zipWith_append h]

theorem sliceTo_fins (l : List ℝ) (n : ℤ) : sliceTo (fins l) n = fins (sliceTo l n) := by
  unfold sliceTo; split <;> simp [fins, List.map_take]

theorem sliceFrom_fins (l : List ℝ) (n : ℤ) : sliceFrom (fins l) n = fins (sliceFrom l n) := by
  unfold sliceFrom; split <;> simp [fins, List.map_drop]

theorem gaussRow_sliceTo (r : XR) (e : List XR) (n : ℤ) :
    sliceTo (gaussRow r e) n = gaussRow r (sliceTo e n) := by
  unfold sliceTo gaussRow; split <;> simp [List.map_take]

theorem gaussRow_sliceFrom (r : XR) (e : List XR) (n : ℤ) :
    sliceFrom (gaussRow r e) n = gaussRow r (sliceFrom e n) := by
  unfold sliceFrom gaussRow; split <;> simp [List.map_drop]

/-- The row computed by `evaluate` on finite input. -/
theorem evalRow_fins (m : Atomic) (ns np : ℕ) (hs : m.ns = ns) (hp : m.np = np) (r : ℝ)
    (c e : List ℝ) (hc : c.length = ns + np) (hel : e.length = ns + np)
    (he : m.normalized = true → ∀ a ∈ e, 0 ≤ a) :
    m.evalRow (XR.fin r) (fins c) (fins e) =
      (XR.fin (wsum (basisRow ns m.normalized e r) c),
        fins (basisRow ns m.normalized e r ++ dexpRow ns m.normalized c e r)) := by
  unfold Atomic.evalRow
  rw [hs, hp]
  simp only []
  by_cases hp0 : np = 0
  · subst hp0
    rw [if_pos (by simp), evalSRow_fins _ _ _ _ he]
    have ht : e.take ns = e := List.take_of_length_le (by omega)
    have hd : e.drop ns = [] := List.drop_of_length_le (by omega)
    have ht' : c.take ns = c := List.take_of_length_le (by omega)
    simp [basisRow, dexpRow, ht, hd, ht']
  · rw [if_neg (by exact_mod_cast hp0)]
    by_cases hs0 : ns = 0
    · subst hs0
      rw [if_pos (by simp), evalPRow_fins _ _ _ _ he]
      simp [basisRow, dexpRow]
    · rw [if_neg (by exact_mod_cast hs0)]
      have h1 : ∀ a ∈ e.take ns, a ∈ e := fun a ha => List.mem_of_mem_take ha
      have h2 : ∀ a ∈ e.drop ns, a ∈ e := fun a ha => List.mem_of_mem_drop ha
      rw [gaussRow_sliceTo, gaussRow_sliceFrom, sliceTo_fins, sliceTo_fins, sliceFrom_fins,
        sliceFrom_fins]
      simp only [sliceTo_nat, sliceFrom_nat]
      rw [evalSRow_fins _ _ _ _ (fun hn a ha => he hn a (h1 a ha)),
        evalPRow_fins _ _ _ _ (fun hn a ha => he hn a (h2 a ha))]
      have hlt : (e.take ns).length = ns := by simp [hel]
      have hld : (e.drop ns).length = np := by simp [hel]
      simp only [XR.add_fin]
      refine Prod.ext ?_ ?_
      · simp only [basisRow, XR.fin_inj]
        conv_rhs => rw [← List.take_append_drop ns c]
        rw [wsum_append _ _ _ _ (by simp [hc, hel])]
      · simp only [← fins_append, fins, ← List.map_take, ← List.map_drop]
        congr 1
        rw [List.take_left' (by simp [hel]), List.take_left' (by simp [hel]),
          List.drop_left' (by simp [hel]), List.drop_left' (by simp [hel])]
        simp [basisRow, dexpRow]

/-! ### sums over the basis -/

theorem wsum_eq_sum (a b : List ℝ) (n : ℕ) (ha : a.length = n) (hb : b.length = n) :
    wsum a b = ∑ k ∈ Finset.range n, a.getD k 0 * b.getD k 0 := by
  induction a generalizing b n with
  | nil => subst ha; simp
  | cons x a ih =>
    cases b with
    | nil => simp at hb; simp [← hb] at ha
    | cons y b =>
      subst ha
      rw [wsum_cons, ih b a.length rfl (by simpa using hb), List.length_cons,
        Finset.sum_range_succ']
      simp [add_comm]

theorem basisRow_getD (ns : ℕ) (norm : Bool) (e : List ℝ) (r : ℝ) (k : ℕ) (hk : k < e.length) :
    (basisRow ns norm e r).getD k 0 = basisFn ns norm k (e.getD k 0) r := by
  unfold basisRow basisFn
  rw [List.getD_eq_getElem?_getD, List.getD_eq_getElem?_getD, List.getElem?_append]
  simp only [List.length_map, List.length_take]
  by_cases h : k < ns
  · rw [if_pos (by omega), if_pos h, List.getElem?_map, List.getElem?_take_of_lt h,
      List.getElem?_eq_getElem hk]; rfl
  · rw [if_neg (by omega), if_neg h, List.getElem?_map, List.getElem?_drop]
    have : ns + (k - min ns e.length) = k := by omega
    rw [this, List.getElem?_eq_getElem hk]; rfl

theorem dexpRow_getD (ns : ℕ) (norm : Bool) (c e : List ℝ) (r : ℝ) (k : ℕ) (hk : k < e.length)
    (hc : c.length = e.length) :
    (dexpRow ns norm c e r).getD k 0 = c.getD k 0 *
      (if k < ns then dsBasis norm (e.getD k 0) r else dpBasis norm (e.getD k 0) r) := by
  unfold dexpRow
  simp only [List.getD_eq_getElem?_getD]
  rw [List.getElem?_append]
  simp only [List.length_zipWith, List.length_take, hc, min_self]
  by_cases h : k < ns
  · rw [if_pos (by omega), if_pos h, List.getElem?_zipWith, List.getElem?_take_of_lt h,
      List.getElem?_take_of_lt h, List.getElem?_eq_getElem hk,
      List.getElem?_eq_getElem (by omega)]; rfl
  · rw [if_neg (by omega), if_neg h, List.getElem?_zipWith, List.getElem?_drop, List.getElem?_drop]
    have : ns + (k - min ns e.length) = k := by omega
    rw [this, List.getElem?_eq_getElem hk, List.getElem?_eq_getElem (by omega)]; rfl

theorem wsum_basisRow (ns np : ℕ) (norm : Bool) (c e : List ℝ) (r : ℝ) (hc : c.length = ns + np)
    (he : e.length = ns + np) :
    wsum (basisRow ns norm e r) c = atomDensity ns np norm c e r := by
  rw [wsum_eq_sum _ _ (ns + np) (by rw [basisRow_length, he]) hc, atomDensity]
  apply Finset.sum_congr rfl
  intro k hk
  rw [basisRow_getD _ _ _ _ _ (by rw [he]; exact Finset.mem_range.mp hk), mul_comm]

end
end BFit
