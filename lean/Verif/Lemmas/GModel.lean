import Verif.Spec.Fit
import Verif.Props.Molecular

/-! Atomic and molecular models in the flat view. -/

namespace BFit

open Real Classical

noncomputable section

/-- Derivative of `bf` in the exponent. -/
def dbf (isS norm : Bool) (e r : ℝ) : ℝ := if isS then dsBasis norm e r else dpBasis norm e r

theorem hasDerivAt_bf (s norm : Bool) (e r : ℝ) (h : norm = true → 0 < e) :
    HasDerivAt (fun t => bf s norm t r) (dbf s norm e r) e := by
  cases s
  · simpa [bf, dbf] using hasDerivAt_pBasis norm e r h
  · simpa [bf, dbf] using hasDerivAt_sBasis norm e r h

/-- `m` is a valid model object with the flat description `S` on `N` points: this is what the fitting
classes use of it. -/
structure IsModel (m : GModel) (norm : Bool) (S : Shape) (N : ℕ) : Prop where
  nbasis : m.nbasis = (S.nb : ℤ)
  nb_pos : 0 < S.nb
  pref : m.prefactor = fins ((List.range S.nb).map fun k => if S.isS k then 3 / 2 else 5 / 2)
  radii : ∀ k < S.nb, m.radiiFor k = .ok (fins ((List.range N).map (S.rad k)))
  eval : ∀ (c e : List ℝ) (deriv : Bool), c.length = S.nb → e.length = S.nb →
    (norm = true → ∀ a ∈ e, 0 ≤ a) →
    m.evaluate (fins c) (fins e) deriv =
      .ok (fins ((List.range N).map (S.dens norm (vec c) (vec e))),
        if deriv then some ((List.range N).map fun i =>
          fins ((List.range S.nb).map (fun k => bf (S.isS k) norm (vec e k) (S.rad k i)) ++
            (List.range S.nb).map (fun k => vec c k * dbf (S.isS k) norm (vec e k) (S.rad k i))))
        else none)

theorem map_eq_range_map {α : Type} (l : List ℝ) (f : ℝ → α) :
    l.map f = (List.range l.length).map (fun i => f (l.getD i 0)) := by
  apply List.ext_getElem
  · simp
  · intro i h1 h2
    simp only [List.length_map] at h1
    simp [List.getD_eq_getElem?_getD, List.getElem?_eq_getElem h1]

theorem eq_range_map (l : List ℝ) (n : ℕ) (h : l.length = n) : l = (List.range n).map (vec l) := by
  subst h
  exact (List.map_id l).symm.trans (map_eq_range_map l id)

theorem length_eq_range_map {l : List ℝ} {n : ℕ} {f : ℕ → ℝ} (h : l.length = n)
    (hf : ∀ k < n, l.getD k 0 = f k) : l = (List.range n).map f := by
  rw [eq_range_map l n h]
  apply List.map_congr_left
  intro k hk
  exact hf k (List.mem_range.mp hk)

/-- Flat description of an atomic model. -/
def atomShape (rs : List ℝ) (ns np : ℕ) : Shape := ⟨ns + np, fun k => decide (k < ns), fun _ i => vec rs i⟩

theorem bf_basisFn (ns : ℕ) (norm : Bool) (k : ℕ) (e r : ℝ) :
    bf (decide (k < ns)) norm e r = basisFn ns norm k e r := by
  simp [bf, basisFn]

theorem atom_isModel {m : Atomic} {rs : List ℝ} {ns np : ℕ} (hm : IsAtom m rs ns np)
    (hpos : ns + np ≠ 0) : IsModel (.atom m) m.normalized (atomShape rs ns np) rs.length := by
  refine ⟨?_, Nat.pos_of_ne_zero hpos, ?_, ?_, ?_⟩
  · simp [GModel.nbasis, Atomic.nbasis, hm.hs, hm.hp, atomShape]
  · simp only [GModel.prefactor, Atomic.prefactor, hm.hs, hm.hp, Int.toNat_natCast, atomShape]
    rw [show List.replicate ns (XR.fin 1.5) ++ List.replicate np (XR.fin 2.5) =
      fins (List.replicate ns (3 / 2) ++ List.replicate np (5 / 2)) by
        simp [fins]; norm_num]
    congr 1
    refine length_eq_range_map (by simp) ?_
    intro k hk
    simp only [decide_eq_true_eq]
    by_cases h : k < ns
    · rw [if_pos h, List.getD_append _ _ _ _ (by simpa using h)]
      simp [List.getD_eq_getElem?_getD, h]
    · rw [if_neg h, List.getD_append_right _ _ _ _ (by simpa using h)]
      simp [List.getD_eq_getElem?_getD, show k - ns < np by omega]
  · intro k _
    simp only [GModel.radiiFor, hm.radii, atomShape]
    rw [← eq_range_map rs _ rfl]
  · intro c e deriv hc he hpos
    simp only [GModel.evaluate]
    rw [evaluate_fins hm c e hc he hpos deriv]
    congr 2
    · congr 1
      rw [map_eq_range_map]
      apply List.map_congr_left
      intro i _
      unfold atomDensity Shape.dens
      apply Finset.sum_congr rfl
      intro k _
      simp only [atomShape, bf_basisFn]
      rfl
    · cases deriv with
      | false => rfl
      | true =>
        simp only [if_true, Option.some.injEq]
        rw [map_eq_range_map]
        apply List.map_congr_left
        intro i _
        congr 2
        · refine length_eq_range_map (by rw [basisRow_length]; exact he) ?_
          intro k hk
          rw [basisRow_getD _ _ _ _ _ (by rw [he]; exact hk)]
          simp only [atomShape, bf_basisFn]
          rfl
        · refine length_eq_range_map ?_ ?_
          · rw [dexpRow_length _ _ _ _ _ (by rw [hc, he]), he]
          intro k hk
          rw [dexpRow_getD _ _ _ _ _ _ (by rw [he]; exact hk) (by rw [hc, he])]
          simp only [atomShape, dbf, decide_eq_true_eq]
          rfl

/-! ### molecular models -/

/-- Type and centre of basis function `k` of a molecule. -/
def flatTy : List (ℕ × ℕ) → ℕ → Bool × ℕ
  | [], _ => (false, 0)
  | b :: ats, k =>
    if k < b.1 + b.2 then (decide (k < b.1), 0)
    else ((flatTy ats (k - (b.1 + b.2))).1, (flatTy ats (k - (b.1 + b.2))).2 + 1)

theorem flatTy_spec (ats : List (ℕ × ℕ)) (k : ℕ) (hk : k < molNb ats) :
    (flatTy ats k).2 < ats.length ∧ molOffset ats (flatTy ats k).2 ≤ k ∧
      k < molOffset ats ((flatTy ats k).2 + 1) := by
  induction ats generalizing k with
  | nil => simp [molNb] at hk
  | cons b ats ih =>
    rw [molNb_cons] at hk
    unfold flatTy
    by_cases h : k < b.1 + b.2
    · rw [if_pos h]
      simp only [molOffset_zero, molOffset_cons]
      refine ⟨by simp, by omega, by omega⟩
    · rw [if_neg h]
      obtain ⟨h1, h2, h3⟩ := ih (k - (b.1 + b.2)) (by omega)
      simp only [molOffset_cons, List.length_cons]
      omega

theorem getD_drop (l : List ℝ) (n k : ℕ) : (l.drop n).getD k 0 = l.getD (n + k) 0 := by
  simp [List.getD_eq_getElem?_getD]

theorem getD_take (l : List ℝ) (n k : ℕ) (h : k < n) : (l.take n).getD k 0 = l.getD k 0 := by
  simp [List.getD_eq_getElem?_getD, List.getElem?_take_of_lt h]

theorem molDensity_flat (norm : Bool) (ats : List (ℕ × ℕ)) (ρ : ℕ → ℝ) (c e : List ℝ) :
    molDensity norm ats ρ c e = ∑ k ∈ Finset.range (molNb ats),
      vec c k * bf (flatTy ats k).1 norm (vec e k) (ρ (flatTy ats k).2) := by
  induction ats generalizing ρ c e with
  | nil => simp [molDensity_nil, molNb]
  | cons b ats ih =>
    rw [molDensity_cons, molNb_cons, Finset.sum_range_add, ih]
    congr 1
    · unfold atomDensity
      apply Finset.sum_congr rfl
      intro k hk
      have hk := Finset.mem_range.mp hk
      rw [getD_take _ _ _ hk, getD_take _ _ _ hk]
      simp only [flatTy, hk, if_true, bf_basisFn]
      rfl
    · apply Finset.sum_congr rfl
      intro k _
      have h : ¬ (b.1 + b.2 + k < b.1 + b.2) := by omega
      simp only [flatTy, h, if_false, Nat.add_sub_cancel_left, vec, getD_drop]

theorem molBasis_getD (norm : Bool) (ats : List (ℕ × ℕ)) (ρ : ℕ → ℝ) (e : List ℝ)
    (he : e.length = molNb ats) (k : ℕ) (hk : k < molNb ats) :
    (molBasis norm ats ρ e).getD k 0 = bf (flatTy ats k).1 norm (vec e k) (ρ (flatTy ats k).2) := by
  induction ats generalizing ρ e k with
  | nil => simp [molNb] at hk
  | cons b ats ih =>
    rw [molNb_cons] at he hk
    have hlt : (e.take (b.1 + b.2)).length = b.1 + b.2 := by simp [he]
    rw [molBasis]
    by_cases h : k < b.1 + b.2
    · rw [List.getD_append _ _ _ _ (by rw [basisRow_length, hlt]; exact h),
        basisRow_getD _ _ _ _ _ (by rw [hlt]; exact h), getD_take _ _ _ h]
      simp only [flatTy, h, if_true, bf_basisFn]
      rfl
    · rw [List.getD_append_right _ _ _ _ (by rw [basisRow_length, hlt]; omega), basisRow_length, hlt,
        ih _ _ (by simp [he]) _ (by omega)]
      simp only [flatTy, h, if_false, vec, getD_drop]
      rw [show b.1 + b.2 + (k - (b.1 + b.2)) = k by omega]

theorem molDexp_getD (norm : Bool) (ats : List (ℕ × ℕ)) (ρ : ℕ → ℝ) (c e : List ℝ)
    (hc : c.length = molNb ats) (he : e.length = molNb ats) (k : ℕ) (hk : k < molNb ats) :
    (molDexp norm ats ρ c e).getD k 0 =
      vec c k * dbf (flatTy ats k).1 norm (vec e k) (ρ (flatTy ats k).2) := by
  induction ats generalizing ρ c e k with
  | nil => simp [molNb] at hk
  | cons b ats ih =>
    rw [molNb_cons] at he hk hc
    have hlt : (e.take (b.1 + b.2)).length = b.1 + b.2 := by simp [he]
    have hlc : (c.take (b.1 + b.2)).length = (e.take (b.1 + b.2)).length := by simp [he, hc]
    rw [molDexp]
    by_cases h : k < b.1 + b.2
    · rw [List.getD_append _ _ _ _ (by rw [dexpRow_length _ _ _ _ _ hlc, hlt]; exact h),
        dexpRow_getD _ _ _ _ _ _ (by rw [hlt]; exact h) hlc, getD_take _ _ _ h, getD_take _ _ _ h]
      simp only [flatTy, h, if_true, dbf, decide_eq_true_eq]
      rfl
    · rw [List.getD_append_right _ _ _ _ (by rw [dexpRow_length _ _ _ _ _ hlc, hlt]; omega),
        dexpRow_length _ _ _ _ _ hlc, hlt, ih _ _ _ (by simp [hc]) (by simp [he]) _ (by omega)]
      simp only [flatTy, h, if_false, vec, getD_drop]
      rw [show b.1 + b.2 + (k - (b.1 + b.2)) = k by omega]

/-- Flat description of a molecular model. -/
def molShape {P : Type} (X : List P) (ats : List (ℕ × ℕ)) (ρ : ℕ → P → ℝ) : Shape :=
  ⟨molNb ats, fun k => (flatTy ats k).1, fun k i => (X.map (ρ (flatTy ats k).2)).getD i 0⟩

theorem areCentres_radii {P : Type} {X : List P} {norm : Bool} {ms : List Atomic}
    {ats : List (ℕ × ℕ)} {ρ : ℕ → P → ℝ} (h : AreCentres X norm ms ats ρ) (a : ℕ)
    (ha : a < ats.length) : (ms.map Atomic.radii)[a]? = some (fins (X.map (ρ a))) := by
  induction h generalizing a with
  | nil => simp at ha
  | cons h _ ih =>
    cases a with
    | zero => simp [h.1.radii]
    | succ a => simpa using ih a (by simpa using ha)

theorem areCentres_pref {P : Type} {X : List P} {norm : Bool} {ms : List Atomic}
    {ats : List (ℕ × ℕ)} {ρ : ℕ → P → ℝ} (h : AreCentres X norm ms ats ρ) :
    (ms.map Atomic.prefactor).flatten =
      fins ((List.range (molNb ats)).map fun k => if (flatTy ats k).1 then (3 / 2 : ℝ) else 5 / 2) := by
  induction h with
  | nil => simp [molNb]
  | @cons m ms b ats ρ h _ ih =>
    rw [List.map_cons, List.flatten_cons, ih, molNb_cons]
    by_cases h0 : b.1 + b.2 = 0
    · have h1 : b.1 = 0 := by omega
      have h2 : b.2 = 0 := by omega
      simp only [Atomic.prefactor, h.1.hs, h.1.hp, h1, h2]
      simp [flatTy, h1, h2]
    · have hpre := (atom_isModel h.1 h0).pref
      simp only [GModel.prefactor, atomShape] at hpre
      rw [hpre, ← fins_append]
      congr 1
      rw [List.range_add (n := b.1 + b.2) (m := molNb ats), List.map_append, List.map_map]
      congr 1
      · apply List.map_congr_left
        intro k hk
        have hk := List.mem_range.mp hk
        by_cases h5 : k < b.1 <;> simp [flatTy, hk, h5]
      · apply List.map_congr_left
        intro k _
        have h : ¬ (b.1 + b.2 + k < b.1 + b.2) := by omega
        simp only [Function.comp, flatTy, h, if_false, Nat.add_sub_cancel_left]

theorem molNb_eq_offset (ats : List (ℕ × ℕ)) : molNb ats = molOffset ats ats.length := by
  simp [molNb, molOffset]

theorem areCentres_length {P : Type} {X : List P} {norm : Bool} {ms : List Atomic}
    {ats : List (ℕ × ℕ)} {ρ : ℕ → P → ℝ} (h : AreCentres X norm ms ats ρ) :
    ms.length = ats.length := by
  induction h with
  | nil => rfl
  | cons _ _ ih => simp [ih]

theorem mol_isModel {P : Type} {m : Molecular} {X : List P} {norm : Bool} {ats : List (ℕ × ℕ)}
    {ρ : ℕ → P → ℝ} (hm : IsMol m X norm ats ρ) (hpos : molNb ats ≠ 0) :
    IsModel (.mol m) norm (molShape X ats ρ) X.length := by
  have hmap : ∀ (α : Type) (F : (ℕ → ℝ) → α) (G : ℕ → α),
      (∀ i (hi : i < X.length), F (fun a => ρ a X[i]) = G i) →
      X.map (fun x => F (fun a => ρ a x)) = (List.range X.length).map G := by
    intro α F G h
    apply List.ext_getElem
    · simp
    · intro i h1 h2
      simp only [List.length_map] at h1
      simp [h i h1]
  have hrad : ∀ i (hi : i < X.length) k, (molShape X ats ρ).rad k i = ρ (flatTy ats k).2 X[i] := by
    intro i hi k
    simp [molShape, List.getD_eq_getElem?_getD, hi]
  refine ⟨?_, Nat.pos_of_ne_zero hpos, ?_, ?_, ?_⟩
  · exact mol_nbasis hm
  · exact areCentres_pref hm.centres
  · intro k hk
    have hk : k < molNb ats := hk
    obtain ⟨h1, h2, h3⟩ := flatTy_spec ats k hk
    have hr := areCentres_radii hm.centres (flatTy ats k).2 h1
    have hgoal : fins ((List.range X.length).map ((molShape X ats ρ).rad k)) =
        fins (X.map (ρ (flatTy ats k).2)) := by
      congr 1
      have := (eq_range_map (X.map (ρ (flatTy ats k).2)) X.length (by simp)).symm
      exact this
    rw [hgoal]
    simp only [GModel.radiiFor]
    by_cases hlen : m.basis.length = 1
    · rw [if_pos hlen]
      have hal : ats.length = 1 := by simpa [hm.basis] using hlen
      have hml := areCentres_length hm.centres
      have hz : (flatTy ats k).2 = 0 := by omega
      rw [hz] at hr ⊢
      unfold Molecular.radii
      rcases hms : m.centers with _ | ⟨a, _ | ⟨b, l⟩⟩
      · rw [hms] at hml; simp at hml; omega
      · rw [hms] at hr
        simp at hr
        simp [hr]
      · rw [hms] at hml; simp at hml; omega
    · rw [if_neg hlen]
      obtain ⟨j, hj, _, _, _, huniq⟩ := (C16_assign m ats hm.basis k).1 (by rw [← molNb_eq_offset]; exact hk)
      rw [hj]
      have : (flatTy ats k).2 = j := huniq _ h2 h3
      simp only
      unfold Molecular.radii
      rw [← this, hr]
  · intro c e deriv hc he hpos'
    simp only [GModel.evaluate]
    rw [mol_evaluate_fins hm c e hc he hpos' deriv]
    congr 2
    · congr 1
      refine hmap ℝ (fun r => molDensity norm ats r c e) _ ?_
      intro i hi
      rw [molDensity_flat]
      unfold Shape.dens
      apply Finset.sum_congr rfl
      intro k _
      rw [hrad i hi k]
      rfl
    · cases deriv with
      | false => rfl
      | true =>
        simp only [if_true, Option.some.injEq]
        refine hmap (List XR) (fun r => fins (molBasis norm ats r e ++ molDexp norm ats r c e)) _ ?_
        intro i hi
        congr 2
        · refine length_eq_range_map (molBasis_length _ _ _ _ he) ?_
          intro k hk
          rw [molBasis_getD _ _ _ _ he _ hk, hrad i hi k]
          rfl
        · refine length_eq_range_map (molDexp_length _ _ _ _ _ hc he) ?_
          intro k hk
          rw [molDexp_getD _ _ _ _ _ hc he _ hk, hrad i hi k]
          rfl

end
end BFit
