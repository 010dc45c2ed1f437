import Verif.Props.Gauss

/-! The loop of `MolecularGaussianDensity.evaluate` on finite input. -/

namespace BFit

open Real

noncomputable section

theorem molOffset_zero (ats : List (ℕ × ℕ)) : molOffset ats 0 = 0 := by simp [molOffset]

theorem molOffset_cons (b : ℕ × ℕ) (ats : List (ℕ × ℕ)) (a : ℕ) :
    molOffset (b :: ats) (a + 1) = (b.1 + b.2) + molOffset ats a := by
  simp [molOffset]

theorem molDensity_nil (norm : Bool) (ρ : ℕ → ℝ) (c e : List ℝ) :
    molDensity norm [] ρ c e = 0 := by simp [molDensity]

theorem molDensity_cons (norm : Bool) (b : ℕ × ℕ) (ats : List (ℕ × ℕ)) (ρ : ℕ → ℝ)
    (c e : List ℝ) :
    molDensity norm (b :: ats) ρ c e =
      atomDensity b.1 b.2 norm (c.take (b.1 + b.2)) (e.take (b.1 + b.2)) (ρ 0) +
      molDensity norm ats (fun a => ρ (a + 1)) (c.drop (b.1 + b.2)) (e.drop (b.1 + b.2)) := by
  unfold molDensity
  rw [List.length_cons, Finset.sum_range_succ', add_comm]
  simp only [List.getD_cons_succ, List.getD_cons_zero, molOffset_cons, molOffset_zero,
    List.drop_drop, List.drop_zero]

/-- Concatenated basis functions of all centres. -/
def molBasis (norm : Bool) : List (ℕ × ℕ) → (ℕ → ℝ) → List ℝ → List ℝ
  | [], _, _ => []
  | b :: ats, ρ, e => basisRow b.1 norm (e.take (b.1 + b.2)) (ρ 0) ++
      molBasis norm ats (fun a => ρ (a + 1)) (e.drop (b.1 + b.2))

/-- Concatenated exponent derivatives of all centres. -/
def molDexp (norm : Bool) : List (ℕ × ℕ) → (ℕ → ℝ) → List ℝ → List ℝ → List ℝ
  | [], _, _, _ => []
  | b :: ats, ρ, c, e => dexpRow b.1 norm (c.take (b.1 + b.2)) (e.take (b.1 + b.2)) (ρ 0) ++
      molDexp norm ats (fun a => ρ (a + 1)) (c.drop (b.1 + b.2)) (e.drop (b.1 + b.2))

/-- Total number of basis functions. -/
def molNb (ats : List (ℕ × ℕ)) : ℕ := (ats.map fun b => b.1 + b.2).sum

theorem molNb_cons (b : ℕ × ℕ) (ats : List (ℕ × ℕ)) : molNb (b :: ats) = b.1 + b.2 + molNb ats := by
  simp [molNb]

theorem molBasis_length (norm : Bool) (ats : List (ℕ × ℕ)) (ρ : ℕ → ℝ) (e : List ℝ)
    (h : e.length = molNb ats) : (molBasis norm ats ρ e).length = molNb ats := by
  induction ats generalizing ρ e with
  | nil => rfl
  | cons b ats ih =>
    rw [molNb_cons] at h
    rw [molBasis, List.length_append, basisRow_length, ih _ _ (by simp [h]), molNb_cons]
    simp [h]

theorem molDexp_length (norm : Bool) (ats : List (ℕ × ℕ)) (ρ : ℕ → ℝ) (c e : List ℝ)
    (hc : c.length = molNb ats) (h : e.length = molNb ats) :
    (molDexp norm ats ρ c e).length = molNb ats := by
  induction ats generalizing ρ c e with
  | nil => rfl
  | cons b ats ih =>
    rw [molNb_cons] at h hc
    rw [molDexp, List.length_append, dexpRow_length _ _ _ _ _ (by simp [hc, h]),
      ih _ _ _ (by simp [hc]) (by simp [h]), molNb_cons]
    simp [h]

/-- A centre of the molecular model: `b.1` s-type and `b.2` p-type functions, and the radius of
point `x` is `ρ x`. -/
def IsCentre {P : Type} (X : List P) (norm : Bool) (m : Atomic) (b : ℕ × ℕ) (ρ : P → ℝ) : Prop :=
  IsAtom m (X.map ρ) b.1 b.2 ∧ m.normalized = norm

/-- The centres of a molecular model. -/
inductive AreCentres {P : Type} (X : List P) (norm : Bool) :
    List Atomic → List (ℕ × ℕ) → (ℕ → P → ℝ) → Prop
  | nil (ρ) : AreCentres X norm [] [] ρ
  | cons {m ms b ats ρ} (h : IsCentre X norm m b (ρ 0))
      (hs : AreCentres X norm ms ats (fun a => ρ (a + 1))) : AreCentres X norm (m :: ms) (b :: ats) ρ

theorem setSlice_mid (A B C v : List XR) (h : B.length = v.length) :
    setSlice (A ++ (B ++ C)) A.length v = A ++ (v ++ C) := by
  unfold setSlice
  rw [List.take_left' rfl, List.append_assoc, ← List.drop_drop, List.drop_left' rfl,
    List.drop_left' h]

theorem zipWith_map_map' {P α β γ : Type} (f : α → β → γ) (g : P → α) (h : P → β) (X : List P) :
    List.zipWith f (X.map g) (X.map h) = X.map fun x => f (g x) (h x) := by
  rw [List.zipWith_map]
  induction X with
  | nil => rfl
  | cons x X ih => simp

/-- The accumulating loop. -/
theorem foldl_centres {P : Type} (X : List P) (norm : Bool) (ms : List Atomic)
    (ats : List (ℕ × ℕ)) (ρ : ℕ → P → ℝ) (hms : AreCentres X norm ms ats ρ) (n : ℕ)
    (C E : List ℝ) (hE : norm = true → ∀ a ∈ E, 0 ≤ a) (deriv : Bool) (count : ℕ) (hn : n = count + molNb ats)
    (hC : C.length = n) (hEl : E.length = n) (g : P → ℝ) (bd dd : P → List ℝ)
    (hbd : ∀ x, (bd x).length = count) (hdd : ∀ x, (dd x).length = count) :
    ms.foldlM (Molecular.addCenter n (fins C) (fins E) deriv)
      (X.map (fun x => XR.fin (g x)),
        X.map (fun x => fins (bd x) ++ (List.replicate (molNb ats) (XR.fin 0) ++
          (fins (dd x) ++ List.replicate (molNb ats) (XR.fin 0)))), count) =
    (.ok (X.map (fun x => XR.fin (g x +
        molDensity norm ats (fun a => ρ a x) (C.drop count) (E.drop count))),
      X.map (fun x => if deriv then
        fins (bd x) ++ (fins (molBasis norm ats (fun a => ρ a x) (E.drop count)) ++
          (fins (dd x) ++ fins (molDexp norm ats (fun a => ρ a x) (C.drop count) (E.drop count))))
        else fins (bd x) ++ (List.replicate (molNb ats) (XR.fin 0) ++
          (fins (dd x) ++ List.replicate (molNb ats) (XR.fin 0)))), n) :
      Py (List XR × List (List XR) × ℕ)) := by
  induction hms generalizing count g bd dd with
  | nil ρ =>
    simp [molNb] at hn
    subst hn
    simp [molNb, molDensity_nil, molBasis, molDexp, pure, Except.pure]
  | @cons m ms b ats ρ h hs ih =>
    obtain ⟨hm, hnorm⟩ := h
    rw [molNb_cons] at hn
    have hnb : m.nbasis.toNat = b.1 + b.2 := by
      simp only [Atomic.nbasis, hm.hs, hm.hp]; omega
    have hcs : ((fins C).drop count).take m.nbasis.toNat =
        fins ((C.drop count).take (b.1 + b.2)) := by
      rw [hnb]; simp [fins, List.map_take, List.map_drop]
    have hes : ((fins E).drop count).take m.nbasis.toNat =
        fins ((E.drop count).take (b.1 + b.2)) := by
      rw [hnb]; simp [fins, List.map_take, List.map_drop]
    have hlc : ((C.drop count).take (b.1 + b.2)).length = b.1 + b.2 := by simp; omega
    have hle : ((E.drop count).take (b.1 + b.2)).length = b.1 + b.2 := by simp; omega
    have hev := evaluate_fins hm _ _ hlc hle
      (fun hn' a ha => hE (hnorm ▸ hn') a (List.mem_of_mem_drop (List.mem_of_mem_take ha))) deriv
    rw [hnorm] at hev
    rw [List.foldlM_cons]
    simp only [Molecular.addCenter, hcs, hes, hev, bind, Except.bind, pure, Except.pure]
    rw [if_pos (by simp [fins])]
    have hg : List.zipWith (· + ·) (X.map fun x => XR.fin (g x)) (fins ((X.map (ρ 0)).map
        (atomDensity b.1 b.2 norm ((C.drop count).take (b.1 + b.2))
          ((E.drop count).take (b.1 + b.2))))) =
        X.map fun x => XR.fin (g x + atomDensity b.1 b.2 norm ((C.drop count).take (b.1 + b.2))
          ((E.drop count).take (b.1 + b.2)) (ρ 0 x)) := by
      rw [fins, List.map_map, List.map_map, zipWith_map_map']
      simp
    rw [hg, hnb]
    cases deriv with
    | false =>
      simp only [Bool.false_eq_true, if_false]
      have hzero : (X.map fun x => fins (bd x) ++ (List.replicate (molNb (b :: ats)) (XR.fin 0) ++
          (fins (dd x) ++ List.replicate (molNb (b :: ats)) (XR.fin 0)))) =
          X.map fun x => fins (bd x ++ List.replicate (b.1 + b.2) 0) ++
            (List.replicate (molNb ats) (XR.fin 0) ++
            (fins (dd x ++ List.replicate (b.1 + b.2) 0) ++ List.replicate (molNb ats) (XR.fin 0))) := by
        apply List.map_congr_left
        intro x _
        rw [molNb_cons, List.replicate_add, fins_append, fins_append]
        simp only [fins, List.map_replicate, List.append_assoc]
      rw [hzero]
      have := ih (count + (b.1 + b.2)) (by omega) (fun x => g x + atomDensity b.1 b.2 norm
          ((C.drop count).take (b.1 + b.2)) ((E.drop count).take (b.1 + b.2)) (ρ 0 x))
        (fun x => bd x ++ List.replicate (b.1 + b.2) 0) (fun x => dd x ++ List.replicate (b.1 + b.2) 0)
        (by intro x; simp [hbd]) (by intro x; simp [hdd])
      simp only [Bool.false_eq_true, if_false] at this
      rw [this]
      congr 3
      funext x
      rw [molDensity_cons, List.drop_drop, List.drop_drop, add_assoc]
    | true =>
      simp only [if_true]
      have hrow : List.zipWith (fun row drow =>
          setSlice (setSlice row count (drow.take (b.1 + b.2))) (n + count) (drow.drop (b.1 + b.2)))
          (X.map fun x => fins (bd x) ++ (List.replicate (molNb (b :: ats)) (XR.fin 0) ++
            (fins (dd x) ++ List.replicate (molNb (b :: ats)) (XR.fin 0))))
          ((X.map (ρ 0)).map fun r => fins (basisRow b.1 norm ((E.drop count).take (b.1 + b.2)) r ++
            dexpRow b.1 norm ((C.drop count).take (b.1 + b.2)) ((E.drop count).take (b.1 + b.2)) r)) =
          X.map fun x => fins (bd x ++ basisRow b.1 norm ((E.drop count).take (b.1 + b.2)) (ρ 0 x)) ++
            (List.replicate (molNb ats) (XR.fin 0) ++
            (fins (dd x ++ dexpRow b.1 norm ((C.drop count).take (b.1 + b.2))
              ((E.drop count).take (b.1 + b.2)) (ρ 0 x)) ++ List.replicate (molNb ats) (XR.fin 0))) := by
        rw [List.map_map, zipWith_map_map']
        apply List.map_congr_left
        intro x _
        simp only [Function.comp]
        generalize hB : basisRow b.1 norm ((E.drop count).take (b.1 + b.2)) (ρ 0 x) = B
        generalize hD : dexpRow b.1 norm ((C.drop count).take (b.1 + b.2))
          ((E.drop count).take (b.1 + b.2)) (ρ 0 x) = D
        have hBl : B.length = b.1 + b.2 := by rw [← hB, basisRow_length, hle]
        have hDl : D.length = b.1 + b.2 := by
          rw [← hD, dexpRow_length _ _ _ _ _ (by rw [hlc, hle]), hle]
        rw [fins_append, List.take_left' (by simp [hBl]), List.drop_left' (by simp [hBl]),
          molNb_cons, List.replicate_add]
        have hl1 : (fins (bd x)).length = count := by simp [hbd]
        have e1 := setSlice_mid (fins (bd x)) (List.replicate (b.1 + b.2) (XR.fin 0))
          (List.replicate (molNb ats) (XR.fin 0) ++ (fins (dd x) ++
            (List.replicate (b.1 + b.2) (XR.fin 0) ++ List.replicate (molNb ats) (XR.fin 0)))) (fins B)
          (by simp [hBl])
        rw [hl1] at e1
        rw [show fins (bd x) ++ (List.replicate (b.1 + b.2) (XR.fin 0) ++
            List.replicate (molNb ats) (XR.fin 0) ++ (fins (dd x) ++
            (List.replicate (b.1 + b.2) (XR.fin 0) ++ List.replicate (molNb ats) (XR.fin 0)))) =
          fins (bd x) ++ (List.replicate (b.1 + b.2) (XR.fin 0) ++
            (List.replicate (molNb ats) (XR.fin 0) ++ (fins (dd x) ++
            (List.replicate (b.1 + b.2) (XR.fin 0) ++ List.replicate (molNb ats) (XR.fin 0))))) by
          simp only [List.append_assoc], e1]
        have e2 := setSlice_mid (fins (bd x) ++ (fins B ++ (List.replicate (molNb ats) (XR.fin 0) ++
          fins (dd x)))) (List.replicate (b.1 + b.2) (XR.fin 0))
          (List.replicate (molNb ats) (XR.fin 0)) (fins D) (by simp [hDl])
        have hl2 : (fins (bd x) ++ (fins B ++ (List.replicate (molNb ats) (XR.fin 0) ++
          fins (dd x)))).length = n + count := by simp [hbd, hdd, hBl]; omega
        rw [hl2] at e2
        simp only [List.append_assoc] at e2
        rw [e2]
        simp only [fins_append, List.append_assoc]
      rw [hrow]
      have := ih (count + (b.1 + b.2)) (by omega) (fun x => g x + atomDensity b.1 b.2 norm
          ((C.drop count).take (b.1 + b.2)) ((E.drop count).take (b.1 + b.2)) (ρ 0 x))
        (fun x => bd x ++ basisRow b.1 norm ((E.drop count).take (b.1 + b.2)) (ρ 0 x))
        (fun x => dd x ++ dexpRow b.1 norm ((C.drop count).take (b.1 + b.2))
              ((E.drop count).take (b.1 + b.2)) (ρ 0 x))
        (by intro x; simp only [List.length_append, hbd, basisRow_length, hle])
        (by intro x; rw [List.length_append, hdd, dexpRow_length _ _ _ _ _ (by rw [hlc, hle]), hle])
      simp only [if_true] at this
      rw [this]
      congr 3
      · funext x
        rw [molDensity_cons, List.drop_drop, List.drop_drop, add_assoc]
      · congr 1
        funext x
        simp only [molBasis, molDexp, List.drop_drop, fins_append, List.append_assoc]

/-- A molecular model on the points `X`. -/
structure IsMol {P : Type} (m : Molecular) (X : List P) (norm : Bool) (ats : List (ℕ × ℕ))
    (ρ : ℕ → P → ℝ) : Prop where
  centres : AreCentres X norm m.centers ats ρ
  basis : m.basis = ats.map fun b => ((b.1 : ℤ), (b.2 : ℤ))
  pts : m.points.len = X.length

theorem mol_nbasis {P : Type} {m : Molecular} {X : List P} {norm : Bool} {ats : List (ℕ × ℕ)}
    {ρ : ℕ → P → ℝ} (hm : IsMol m X norm ats ρ) : m.nbasis = (molNb ats : ℤ) := by
  unfold Molecular.nbasis molNb
  rw [hm.basis, List.map_map]
  clear hm
  induction ats with
  | nil => rfl
  | cons b ats ih => simp only [List.map_cons, List.sum_cons, ih, Function.comp]; push_cast; rfl

theorem mol_evaluate_fins {P : Type} {m : Molecular} {X : List P} {norm : Bool}
    {ats : List (ℕ × ℕ)} {ρ : ℕ → P → ℝ} (hm : IsMol m X norm ats ρ) (C E : List ℝ)
    (hC : C.length = molNb ats) (hEl : E.length = molNb ats) (hE : norm = true → ∀ a ∈ E, 0 ≤ a)
    (deriv : Bool) :
    m.evaluate (ND.vec (fins C)) (ND.vec (fins E)) deriv =
      .ok (fins (X.map fun x => molDensity norm ats (fun a => ρ a x) C E),
        if deriv then some (X.map fun x => fins (molBasis norm ats (fun a => ρ a x) E ++
          molDexp norm ats (fun a => ρ a x) C E)) else none) := by
  unfold Molecular.evaluate
  have hnb := mol_nbasis hm
  rw [if_neg (by simp [ND.ndim, ND.vec]), if_neg (by simp [ND.size, ND.vec, hC, hEl, hnb]), hnb]
  have hf := foldl_centres X norm m.centers ats ρ hm.centres (molNb ats) C E hE deriv 0 (by simp)
    hC hEl (fun _ => 0) (fun _ => []) (fun _ => []) (by simp) (by simp)
  have h0 : (List.replicate m.points.len (XR.fin 0)) = X.map fun _ => XR.fin 0 := by
    rw [hm.pts]; simp
  have h1 : (List.replicate m.points.len (List.replicate (2 * molNb ats) (XR.fin 0))) =
      X.map fun _ => fins [] ++ (List.replicate (molNb ats) (XR.fin 0) ++
          (fins [] ++ List.replicate (molNb ats) (XR.fin 0))) := by
    rw [hm.pts]; simp [two_mul]
  simp only [ND.vec, Int.toNat_natCast, h0, h1, hf, bind, Except.bind, pure, Except.pure, zero_add,
    List.drop_zero]
  congr 2
  · simp [fins]
  · cases deriv <;> simp [fins]

end
end BFit
