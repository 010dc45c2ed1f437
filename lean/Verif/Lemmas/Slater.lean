import Verif.Spec.Slater
import Verif.Lemmas.FPI

/-! The Slater model on finite data. -/

namespace BFit

open Real Classical

noncomputable section

theorem slaterEntry_fin (z : ℝ) (n : ℕ) (r : ℝ) (hz : 0 ≤ z) (hn : 1 ≤ n) :
    slaterEntry (XR.fin z) n (XR.fin r) = XR.fin (slaterR z n r) := by
  unfold slaterEntry slaterR
  have h1 : ((n : ℝ) - 1) = ((n - 1 : ℕ) : ℝ) := by rw [Nat.cast_sub hn]; simp
  have h2 : ((Nat.factorial (2 * n) : ℕ) : ℝ) ≠ 0 := by exact_mod_cast Nat.factorial_ne_zero _
  rw [h1, XR.mul_fin, XR.pow_fin_natCast, XR.pow_fin_natCast, XR.div_fin_of_ne _ h2,
    XR.sqrt_fin_of_nonneg (by positivity)]
  simp

theorem pairUp_fins (bs : List (ℝ × ℕ)) :
    pairUp (fins (bs.map Prod.fst)) (bs.map Prod.snd) = .ok (bs.map fun b => (XR.fin b.1, b.2)) := by
  unfold pairUp
  rw [if_pos (by simp)]
  congr 1
  induction bs with
  | nil => rfl
  | cons b bs ih => simpa using ih

theorem radialSlater_fins (bs : List (ℝ × ℕ)) (hb : ∀ b ∈ bs, 0 < b.1 ∧ 1 ≤ b.2) (x : List ℝ) :
    radialSlater (fins (bs.map Prod.fst)) (bs.map Prod.snd) (ND.vec (fins x)) =
      .ok (x.map fun r => fins (bs.map fun b => slaterR b.1 b.2 r)) := by
  unfold radialSlater
  rw [if_neg (by simp [ND.ndim, ND.vec]), pairUp_fins]
  simp only [ND.vec, fins, List.map_map]
  congr 1
  apply List.map_congr_left
  intro r _
  simp only [Function.comp]
  apply List.map_congr_left
  intro b hb'
  exact slaterEntry_fin b.1 b.2 r (hb b hb').1.le (hb b hb').2

/-- The value of the derivative routine: zero near the origin. -/
def cutD (d : ℝ → ℝ) (r : ℝ) : ℝ := if |r| < 1e-10 then 0 else d r

theorem derivPref_fin (z : ℝ) (n : ℕ) (r : ℝ) :
    derivPref (XR.fin z) n (XR.fin r) = XR.fin (cutD (fun r => ((n : ℝ) - 1) / r - z) r) := by
  unfold derivPref cutD
  rw [XR.abs_fin, XR.lt_fin]
  by_cases h : |r| < 1e-10
  · rw [if_pos h, if_pos h]
  · rw [if_neg h, if_neg h]
    have hr : r ≠ 0 := by
      rintro rfl
      apply h
      rw [abs_zero]; norm_num
    rw [XR.div_fin_of_ne _ hr, XR.sub_fin]

theorem derivSlater_fins (bs : List (ℝ × ℕ)) (hb : ∀ b ∈ bs, 0 < b.1 ∧ 1 ≤ b.2) (x : List ℝ) :
    derivSlater (fins (bs.map Prod.fst)) (bs.map Prod.snd) (ND.vec (fins x)) =
      .ok (x.map fun r => fins (bs.map fun b => cutD (slaterR' b.1 b.2) r)) := by
  unfold derivSlater
  rw [radialSlater_fins bs hb, pairUp_fins]
  simp only [ND.vec, fins, List.zipWith_map, List.zipWith_self]
  congr 1
  apply List.map_congr_left
  intro r _
  simp only [List.map_map]
  rw [List.zipWith_map_right, List.zipWith_self]
  apply List.map_congr_left
  intro b _
  simp only [Function.comp]
  rw [derivPref_fin, XR.mul_fin]
  congr 1
  unfold cutD slaterR'
  split <;> simp

/-- The orbital value or its derivative, as the matrix holds it. -/
def colVal (basis : Sub → List (ℝ × ℕ)) (c : Orb → List ℝ) (deriv : Bool) (o : Orb) (r : ℝ) : ℝ :=
  if deriv then cutD (orbR' (basis o.sub) (c o)) r else orbR (basis o.sub) (c o) r

theorem wsum_zero {α : Type} (l : List α) (c : List ℝ) : wsum (l.map fun _ => (0 : ℝ)) c = 0 := by
  induction l generalizing c with
  | nil => simp
  | cons a l ih => cases c <;> simp_all [wsum]

theorem phiColumn_fins {A : SlaterAtom} {basis : Sub → List (ℝ × ℕ)} {c : Orb → List ℝ} {occ en : List ℝ}
    (h : IsSlater A basis c occ en) (x : List ℝ) (deriv : Bool) (o : Orb) (ho : o ∈ A.orbitals) :
    A.phiColumn (ND.vec (fins x)) deriv o = .ok (fins (x.map (colVal basis c deriv o))) := by
  unfold SlaterAtom.phiColumn
  rw [h.exps o ho, h.nums o ho]
  simp only
  have hs : (if deriv then derivSlater (fins ((basis o.sub).map Prod.fst)) ((basis o.sub).map Prod.snd)
        (ND.vec (fins x)) else radialSlater (fins ((basis o.sub).map Prod.fst))
        ((basis o.sub).map Prod.snd) (ND.vec (fins x))) =
      .ok (x.map fun r => fins ((basis o.sub).map fun b =>
        if deriv then cutD (slaterR' b.1 b.2) r else slaterR b.1 b.2 r)) := by
    cases deriv with
    | true => simp only [if_true]; exact derivSlater_fins _ (h.pos o ho) x
    | false =>
      simp only [Bool.false_eq_true, if_false]
      exact radialSlater_fins _ (h.pos o ho) x
  rw [hs]
  simp only
  rw [h.coeff o ho, pairUp_fins]
  simp only
  unfold matVec
  rw [if_neg (by simp [h.width o ho])]
  simp only [fins, List.map_map]
  congr 1
  apply List.map_congr_left
  intro r _
  simp only [Function.comp]
  have := npDot_fins ((basis o.sub).map fun b =>
        if deriv then cutD (slaterR' b.1 b.2) r else slaterR b.1 b.2 r) (c o)
  simp only [fins, List.map_map] at this
  rw [this]
  congr 1
  unfold colVal
  cases deriv with
  | false => simp only [Bool.false_eq_true, if_false]; rfl
  | true =>
    simp only [if_true]
    unfold cutD orbR'
    by_cases hr : |r| < 1e-10
    · rw [if_pos hr]
      simp only [if_pos hr]
      exact wsum_zero (basis o.sub) (c o)
    · rw [if_neg hr]
      simp only [if_neg hr]
      rfl

theorem ofColumns_fins {α : Type} (x : List ℝ) (os : List α) (f : α → ℝ → ℝ) :
    ofColumns x.length (os.map fun o => fins (x.map (f o))) = x.map fun r => fins (os.map fun o => f o r) := by
  unfold ofColumns
  refine List.ext_getElem (by simp) ?_
  intro i h1 h2
  have hi : i < x.length := by simpa using h1
  simp only [List.getElem_map, List.getElem_range, List.map_map, fins]
  apply List.map_congr_left
  intro o _
  simp [List.getD_eq_getElem?_getD, hi]

theorem phiMatrix_fins {A : SlaterAtom} {basis : Sub → List (ℝ × ℕ)} {c : Orb → List ℝ} {occ en : List ℝ}
    (h : IsSlater A basis c occ en) (x : List ℝ) (deriv : Bool) :
    A.phiMatrix (ND.vec (fins x)) deriv =
      .ok (x.map fun r => fins (A.orbitals.map fun o => colVal basis c deriv o r)) := by
  unfold SlaterAtom.phiMatrix
  simp only [ND.vec]
  have := mapPy_ok (f := A.phiColumn (ND.vec (fins x)) deriv)
    (g := fun o => fins (x.map (colVal basis c deriv o))) (l := A.orbitals)
    (fun o ho => phiColumn_fins h x deriv o ho)
  simp only [ND.vec] at this
  rw [this]
  simp only
  rw [fins_length, ofColumns_fins]

theorem matVec_fins {α : Type} (x : List α) (w : ℕ) (row : α → List ℝ) (v : List ℝ)
    (hv : v.length = w) :
    matVec w (x.map fun r => fins (row r)) (fins v) = .ok (fins (x.map fun r => wsum (row r) v)) := by
  unfold matVec
  rw [if_neg (by simp [hv])]
  simp only [fins, List.map_map]
  congr 1
  apply List.map_congr_left
  intro r _
  exact npDot_fins _ _

/-- Density with real weights. -/
def densR (os : List Orb) (basis : Sub → List (ℝ × ℕ)) (c : Orb → List ℝ) (w : List ℝ) (r : ℝ) : ℝ :=
  wsum (os.map fun o => orbR (basis o.sub) (c o) r ^ 2) w / (4 * π)

theorem four_pi : XR.fin 4 * XR.fin π = XR.fin (4 * π) := rfl

theorem four_pi_ne : (4 * π : ℝ) ≠ 0 := by positivity

theorem densityWith_fins {A : SlaterAtom} {basis : Sub → List (ℝ × ℕ)} {c : Orb → List ℝ} {occ en : List ℝ}
    (h : IsSlater A basis c occ en) (x : List ℝ) (w : List ℝ) (hw : w.length = A.orbitals.length) :
    A.densityWith (ND.vec (fins x)) (fins w) = .ok (fins (x.map (densR A.orbitals basis c w))) := by
  unfold SlaterAtom.densityWith
  rw [phiMatrix_fins h]
  simp only
  have e1 : (x.map fun r => fins (A.orbitals.map fun o => colVal basis c false o r)).map
      (fun row => row.map fun y => XR.pow y 2) =
      x.map fun r => fins (A.orbitals.map fun o => orbR (basis o.sub) (c o) r ^ 2) := by
    rw [List.map_map]
    apply List.map_congr_left
    intro r _
    simp only [Function.comp, fins, List.map_map]
    apply List.map_congr_left
    intro o _
    simp [colVal]
  rw [e1, matVec_fins _ _ _ _ hw]
  simp only [four_pi]
  congr 1
  simp only [fins, List.map_map]
  apply List.map_congr_left
  intro r _
  simp only [Function.comp]
  rw [XR.div_fin_of_ne _ four_pi_ne]
  rfl

/-- The energy the code takes for the highest orbital: the last one. -/
def lastEn (en : List ℝ) : ℝ := en.getLastD 0

/-- Valence and core weights relative to the energy `h`. -/
def valW (core : Bool) (h : ℝ) (occ en : List ℝ) : List ℝ :=
  List.zipWith (fun n e => n * (if core then 1 - exp (-(e - h) ^ 2) else exp (-(e - h) ^ 2))) occ en

theorem getLast'_fins (en : List ℝ) (n : ℕ) (hn : n = en.length) (h0 : en ≠ []) :
    getLast' (fins en) n = .ok (XR.fin (lastEn en)) := by
  unfold getLast' lastEn
  have hpos : 0 < en.length := List.length_pos_iff.mpr h0
  rw [if_neg (by omega)]
  have : (fins en)[n - 1]? = some (XR.fin (en.getLastD 0)) := by
    rw [hn, fins, List.getElem?_map]
    rw [List.getLastD_eq_getLast?, List.getLast?_eq_getElem?]
    have : en.length - 1 < en.length := by omega
    simp [this]
  rw [this]

theorem weighted_fins {A : SlaterAtom} {basis : Sub → List (ℝ × ℕ)} {c : Orb → List ℝ} {occ en : List ℝ}
    (h : IsSlater A basis c occ en) (h0 : A.orbitals ≠ []) (core : Bool) :
    A.weighted core = .ok (fins (valW core (lastEn en) occ en)) := by
  unfold SlaterAtom.weighted
  have hne : en ≠ [] := by
    intro h1
    apply h0
    have := h.en_len
    rw [h1] at this
    exact List.length_eq_zero_iff.mp this.symm
  rw [h.en_eq, h.occ_eq, getLast'_fins en _ (by rw [fins_length, h.occ_len, h.en_len]) hne]
  simp only
  unfold bcast
  rw [if_pos (by simp [h.occ_len, h.en_len])]
  congr 1
  unfold valW
  simp only [fins, List.map_map, List.zipWith_map, List.map_zipWith]
  congr 1
  funext n e
  simp only [Function.comp, XR.sub_fin, XR.pow_fin_two, XR.neg_fin, XR.exp_fin]
  cases core <;> simp

end
end BFit
