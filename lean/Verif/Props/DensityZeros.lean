import Verif.Lemmas.ExpPoly
import Verif.Props.ElementFit

/-! Property C127: atomic densities have few zeros, so they can be fitted on every large enough grid. -/

namespace BFit

open Real Classical

noncomputable section

/-! ### Zeros of orbitals and densities -/

/-- The terms of an orbital. -/
def orbTerms : List (ℝ × ℕ) → List ℝ → List ETerm
  | b :: bs, a :: c => ⟨Polynomial.monomial (b.2 - 1) (slNorm b * a), -b.1, b.2⟩ :: orbTerms bs c
  | _, _ => []

theorem orb_efun (bs : List (ℝ × ℕ)) (c : List ℝ) (r : ℝ) : orbR bs c r = efun (orbTerms bs c) r := by
  unfold orbR efun
  induction bs generalizing c with
  | nil => simp [orbTerms]
  | cons b bs ih =>
    cases c with
    | nil => simp [orbTerms]
    | cons a c =>
      simp only [List.map_cons, wsum_cons, orbTerms, List.sum_cons, ih c, add_left_inj]
      simp only [ETerm.val, Polynomial.eval_monomial, slaterR, slNorm]
      ring

theorem orbTerms_deg {bs : List (ℝ × ℕ)} (h : ∀ b ∈ bs, 1 ≤ b.2) (c : List ℝ) :
    ∀ t ∈ orbTerms bs c, t.p.degree < t.d := by
  induction bs generalizing c with
  | nil => simp [orbTerms]
  | cons b bs ih =>
    cases c with
    | nil => simp [orbTerms]
    | cons a c =>
      intro t ht
      simp only [orbTerms, List.mem_cons] at ht
      rcases ht with rfl | ht
      · refine (Polynomial.degree_monomial_le _ _).trans_lt ?_
        have := h b (by simp)
        exact_mod_cast (by omega : b.2 - 1 < b.2)
      · exact ih (fun b hb => h b (List.mem_cons_of_mem _ hb)) c t ht

theorem orbTerms_sum (bs : List (ℝ × ℕ)) (c : List ℝ) :
    ((orbTerms bs c).map ETerm.d).sum ≤ (bs.map Prod.snd).sum := by
  induction bs generalizing c with
  | nil => simp [orbTerms]
  | cons b bs ih =>
    cases c with
    | nil => simp [orbTerms]
    | cons a c =>
      simp only [orbTerms, List.map_cons, List.sum_cons]
      have := ih c
      omega

/-- An orbital with as many zeros as the numbers of its Slater functions add up to vanishes. -/
theorem orb_zero {bs : List (ℝ × ℕ)} (h : ∀ b ∈ bs, 1 ≤ b.2) (c : List ℝ) (Z : Finset ℝ)
    (hZ : (bs.map Prod.snd).sum ≤ Z.card) (hz : ∀ z ∈ Z, orbR bs c z = 0) (r : ℝ) : orbR bs c r = 0 := by
  rw [orb_efun]
  exact efun_zero _ _ le_rfl (orbTerms_deg h c) Z ((orbTerms_sum bs c).trans hZ)
    (fun z hz' => by rw [← orb_efun]; exact hz z hz') r

/-- A sum of squares with non-negative weights vanishes where all squares with a positive weight do. -/
theorem wsum_sq_zero {α : Type} (l : List α) (g : α → ℝ) (w : List ℝ) (hw : ∀ y ∈ w, 0 ≤ y) :
    wsum (l.map fun o => g o ^ 2) w = 0 ↔ ∀ p ∈ l.zip w, 0 < p.2 → g p.1 = 0 := by
  induction l generalizing w with
  | nil => simp
  | cons o l ih =>
    cases w with
    | nil => simp
    | cons y w =>
      have hy : 0 ≤ y := hw y (by simp)
      have hw' : ∀ a ∈ w, 0 ≤ a := fun a ha => hw a (List.mem_cons_of_mem _ ha)
      have h1 : 0 ≤ wsum (l.map fun o => g o ^ 2) w := wsum_nonneg _ _ (by
        intro a ha
        obtain ⟨o, -, rfl⟩ := List.mem_map.mp ha
        positivity) hw'
      have h2 : 0 ≤ g o ^ 2 * y := mul_nonneg (sq_nonneg _) hy
      simp only [List.map_cons, wsum_cons, List.zip_cons_cons, List.mem_cons, forall_eq_or_imp]
      rw [← ih w hw']
      constructor
      · intro h
        refine ⟨fun hp => ?_, by linarith⟩
        have h3 : g o ^ 2 * y = 0 := by linarith
        rcases mul_eq_zero.mp h3 with h4 | h4
        · exact pow_eq_zero_iff (two_ne_zero) |>.mp h4
        · exact absurd h4 hp.ne'
      · rintro ⟨h3, h4⟩
        rw [h4, add_zero]
        rcases hy.lt_or_eq with hp | hp
        · rw [h3 hp]; ring
        · rw [← hp, mul_zero]

/-- **C127** (orbitals).  A radial orbital of an atom is zero everywhere if it is zero at as many different radii
as the principal quantum numbers of the Slater functions of its subshell add up to. -/
theorem C127_orbital {A : SlaterAtom} {basis : Sub → List (ℝ × ℕ)} {c : Orb → List ℝ} {occ en : List ℝ}
    (h : IsSlater A basis c occ en) (phi : Orb → ℝ → ℝ)
    (hphi : ∀ x : List ℝ, A.phiMatrix (ND.vec (fins x)) false =
      .ok (x.map fun r => fins (A.orbitals.map fun o => phi o r)))
    (o : Orb) (ho : o ∈ A.orbitals) (l : List ℕ) (hl : A.nums o.sub = some l) (Z : Finset ℝ) (hZ : l.sum ≤ Z.card)
    (hz : ∀ z ∈ Z, phi o z = 0) (r : ℝ) : phi o r = 0 := by
  have e : ∀ r, phi o r = orbR (basis o.sub) (c o) r := by
    intro r
    have := (hphi [r]).symm.trans (phiMatrix_fins h [r] false)
    simp only [List.map_cons, List.map_nil, Except.ok.injEq, List.cons.injEq, and_true, fins, List.map_map,
      List.map_inj_left] at this
    have := this o ho
    simpa [colVal] using this
  have hl' : l = (basis o.sub).map Prod.snd := by
    have := h.nums o ho
    rw [hl] at this
    simpa using this
  subst hl'
  rw [e]
  exact orb_zero (fun b hb => (h.pos o ho b hb).2) _ Z hZ (fun z hz' => by rw [← e]; exact hz z hz') r

/-- **C127** (densities).  The total density of an atom is zero everywhere if it is zero at as many different
radii as the principal quantum numbers of the Slater functions of a subshell at most add up to. -/
theorem C127_density {A : SlaterAtom} {basis : Sub → List (ℝ × ℕ)} {c : Orb → List ℝ} {occ en : List ℝ}
    (h : IsSlater A basis c occ en) (t : ℝ → ℝ)
    (ht : ∀ x : List ℝ, A.atomicDensity (ND.vec (fins x)) "total" = .ok (fins (x.map t))) (N : ℕ)
    (hN : ∀ o ∈ A.orbitals, ∀ l, A.nums o.sub = some l → l.sum ≤ N) (Z : Finset ℝ) (hZ : N ≤ Z.card)
    (hz : ∀ z ∈ Z, t z = 0) (r : ℝ) : t r = 0 := by
  have e : t = densR A.orbitals basis c occ := by
    funext r
    have := (ht [r]).symm.trans (atomicDensity_total h [r])
    simpa [fins] using this
  subst e
  have key : ∀ r, densR A.orbitals basis c occ r = 0 ↔
      ∀ p ∈ A.orbitals.zip occ, 0 < p.2 → orbR (basis p.1.sub) (c p.1) r = 0 := by
    intro r
    unfold densR
    rw [div_eq_zero_iff, or_iff_left four_pi_ne]
    exact wsum_sq_zero _ _ _ h.occ_nonneg
  rw [key]
  intro p hp hp0
  have ho : p.1 ∈ A.orbitals := (List.of_mem_zip hp).1
  refine orb_zero (fun b hb => (h.pos p.1 ho b hb).2) _ Z ((hN p.1 ho _ (h.nums p.1 ho)).trans hZ) ?_ r
  exact fun z hz' => (key z).mp (hz z hz') p hp hp0

/-! ### Positive integrals -/

theorem trapWAux_pos {l : List ℝ} (hl : l.Pairwise (· ≤ ·)) (k : ℝ) (hk : 0 ≤ k) {v : ℝ} (hv : v ∈ l)
    (h : 0 < k ∨ ∃ u ∈ l, u ≠ v) : ∃ i < l.length, vec l i = v ∧ 0 < vec (trapWAux k l) i := by
  induction l generalizing k with
  | nil => simp at hv
  | cons a l ih =>
    cases l with
    | nil =>
      simp only [List.mem_singleton] at hv
      subst hv
      refine ⟨0, by simp, by simp [vec], ?_⟩
      rcases h with h | ⟨u, hu, hne⟩
      · simpa [trapWAux, vec] using h
      · simp only [List.mem_singleton] at hu
        exact absurd hu hne
    | cons b l =>
      obtain ⟨h1, h2⟩ := List.pairwise_cons.mp hl
      have hab : a ≤ b := h1 b (by simp)
      have hstep : 0 ≤ (b - a) / 2 := by linarith
      have up : (∃ i < (b :: l).length, vec (b :: l) i = v ∧ 0 < vec (trapWAux ((b - a) / 2) (b :: l)) i) →
          ∃ i < (a :: b :: l).length, vec (a :: b :: l) i = v ∧ 0 < vec (trapWAux k (a :: b :: l)) i := by
        rintro ⟨i, hi, h3, h4⟩
        refine ⟨i + 1, by simpa using hi, by simpa [vec] using h3, ?_⟩
        simpa [trapWAux, vec] using h4
      by_cases hva : v = a
      · subst hva
        rcases (add_nonneg hk hstep).lt_or_eq with hp | hp
        · exact ⟨0, by simp, by simp [vec], by simpa [trapWAux, vec] using hp⟩
        · have hk0 : k = 0 := by linarith
          have hb : b = v := by linarith
          rcases h with h | ⟨u, hu, hne⟩
          · exact absurd hk0 h.ne'
          · rcases List.mem_cons.mp hu with rfl | hu
            · exact absurd rfl hne
            · exact up (ih h2 _ hstep (by rw [hb]; simp) (.inr ⟨u, hu, hne⟩))
      · have hv' : v ∈ b :: l := (List.mem_cons.mp hv).resolve_left hva
        refine up (ih h2 _ hstep hv' ?_)
        rcases hstep.lt_or_eq with hp | hp
        · exact .inl hp
        · refine .inr ⟨b, by simp, fun hbv => hva ?_⟩
          linarith

/-- A non-negative function that is not zero at one point of an ascending radial grid apart from the origin is positive
at a point of positive weight. -/
theorem radial_index_of {pts : List ℝ} (hp : pts.Pairwise (· ≤ ·)) {t : ℝ → ℝ} (ht : ∀ r, 0 ≤ t r) {z : ℝ}
    (hz : z ∈ pts) (h0 : z ≠ 0) (hz0 : t z ≠ 0) (hu : ∃ u ∈ pts, u ≠ z) (sph : Bool) :
    ∃ i < pts.length, vec pts i ≠ 0 ∧ 0 < radW pts sph i ∧ 0 < t (vec pts i) := by
  obtain ⟨i, hi, h1, h2⟩ := trapWAux_pos hp 0 le_rfl hz (.inr hu)
  refine ⟨i, hi, by rw [h1]; exact h0, radW_pos h2 (by rw [h1]; exact h0) sph, ?_⟩
  rw [h1]
  exact lt_of_le_of_ne (ht z) hz0.symm

/-- A non-negative function that is not zero at `N` points is positive at a point of positive weight of every
ascending radial grid with more different points. -/
theorem radial_index_pos {pts : List ℝ} (hp : pts.Pairwise (· ≤ ·)) {t : ℝ → ℝ} (ht : ∀ r, 0 ≤ t r) {N : ℕ}
    (hN : 1 ≤ N) (hz : ∀ Z : Finset ℝ, N ≤ Z.card → ∃ z ∈ Z, t z ≠ 0) (hc : N < pts.toFinset.card) (sph : Bool) :
    ∃ i < pts.length, vec pts i ≠ 0 ∧ 0 < radW pts sph i ∧ 0 < t (vec pts i) := by
  obtain ⟨z, hzm, hz0⟩ := hz (pts.toFinset.erase 0) (by
    have := Finset.pred_card_le_card_erase (s := pts.toFinset) (a := (0 : ℝ))
    omega)
  have hzp := (Finset.mem_erase.mp hzm)
  obtain ⟨u, hu, hne⟩ := Finset.exists_mem_ne (s := pts.toFinset) (by omega) z
  exact radial_index_of hp ht (List.mem_toFinset.mp hzp.2) hzp.1 hz0 ⟨u, List.mem_toFinset.mp hu, hne⟩ sph

theorem radial_sum_pos {pts : List ℝ} (hp : pts.Pairwise (· ≤ ·)) {t : ℝ → ℝ} (ht : ∀ r, 0 ≤ t r) {sph : Bool}
    (h : ∃ i < pts.length, vec pts i ≠ 0 ∧ 0 < radW pts sph i ∧ 0 < t (vec pts i)) :
    0 < ∑ i ∈ Finset.range pts.length, radW pts sph i * t (vec pts i) := by
  obtain ⟨i, hi, -, h1, h2⟩ := h
  exact Finset.sum_pos' (fun j _ => mul_nonneg (radW_nonneg hp sph j) (ht _))
    ⟨i, Finset.mem_range.mpr hi, mul_pos h1 h2⟩

/-- **C127** (integral).  The integral of the total density of an atom is positive on every ascending radial grid
with more different points than that number, spherical or not, unless the density is zero everywhere. -/
theorem C127_integral {A : SlaterAtom} {basis : Sub → List (ℝ × ℕ)} {c : Orb → List ℝ} {occ en : List ℝ}
    (h : IsSlater A basis c occ en) (t : ℝ → ℝ)
    (ht : ∀ x : List ℝ, A.atomicDensity (ND.vec (fins x)) "total" = .ok (fins (x.map t))) (N : ℕ) (hN1 : 1 ≤ N)
    (hN : ∀ o ∈ A.orbitals, ∀ l, A.nums o.sub = some l → l.sum ≤ N) (hne : ∃ r, t r ≠ 0)
    (pts : List ℝ) (hp : pts.Pairwise (· ≤ ·)) (hc : N < pts.toFinset.card) (sph : Bool) :
    ∃ I : ℝ, integrateOn (.radial ⟨fins pts⟩) sph (fins (pts.map t)) = .ok (XR.fin I) ∧ 0 < I := by
  have hnn : ∀ r, 0 ≤ t r := by
    intro r
    have := (ht [r]).symm.trans (atomicDensity_total h [r])
    have e : t r = densR A.orbitals basis c occ r := by simpa [fins] using this
    rw [e]
    exact densR_nonneg _ _ _ _ h.occ_nonneg r
  refine ⟨_, by rw [← tab_map]; exact (radW_quad pts sph).fin _, radial_sum_pos hp hnn (radial_index_pos hp hnn hN1 ?_ hc sph)⟩
  intro Z hZ
  by_contra hcon
  push Not at hcon
  obtain ⟨r, hr⟩ := hne
  exact hr (C127_density h t ht N hN Z hZ hcon r)

/-! ### Sums of coefficients with masked points -/

/-- One update with masked points: the new coefficients sum to at most the target times the ratio of the
integrals of the larger of density and mask value and of the density. -/
theorem update_sum_masked {F : FPI} {S : Shape} {N : ℕ} {W f : ℕ → ℝ} {μ T : ℝ}
    (h : IsFPI F true S N W f μ T) (hW : ∀ i < N, 0 ≤ W i) (hT : 0 < T)
    (c e : List ℝ) (hg : S.Good c e) (ue : Bool) :
    ∃ c' es', F.updateParams (fins c) (fins e) true ue = .ok (fins c', es') ∧ c'.length = S.nb ∧
      c'.sum ≤ T * ((∑ i ∈ Finset.range N, W i * max (f i) μ) / ∑ i ∈ Finset.range N, W i * f i) := by
  have hcv := vec_of_mem hg.clen hg.cnn
  have hev : ∀ k < S.nb, 0 ≤ vec e k := fun k hk => (vec_of_mem hg.elen hg.epos k hk).le
  refine ⟨_, _, updateParams_gen h.data h.mask h.lm h.lm_ne h.f_nonneg c e hg.clen hg.elen
    (fun _ a ha => (hg.epos a ha).le) (fun i _ => dens_nonneg hcv hev i) true ue (Or.inl rfl), by simp, ?_⟩
  simp only [if_true]
  rw [tab, sum_list_tab, ← Finset.sum_div]
  have hWf : 0 ≤ ∑ i ∈ Finset.range N, W i * f i := Finset.sum_nonneg fun i hi =>
    mul_nonneg (hW i (Finset.mem_range.mp hi)) (h.f_nonneg i (Finset.mem_range.mp hi))
  have hL : 0 < (∑ i ∈ Finset.range N, W i * f i) / T := lt_of_le_of_ne (div_nonneg hWf hT.le) h.lm_ne.symm
  have hI : 0 < ∑ i ∈ Finset.range N, W i * f i := by
    by_contra hcon
    have : ∑ i ∈ Finset.range N, W i * f i = 0 := le_antisymm (not_lt.mp hcon) hWf
    rw [this] at hL
    simp at hL
  rw [div_le_iff₀ hL]
  have e1 : T * ((∑ i ∈ Finset.range N, W i * max (f i) μ) / ∑ i ∈ Finset.range N, W i * f i) *
      ((∑ i ∈ Finset.range N, W i * f i) / T) = ∑ i ∈ Finset.range N, W i * max (f i) μ := by
    field_simp
  rw [e1]
  unfold fpiA
  simp only [Finset.mul_sum]
  rw [Finset.sum_comm]
  apply Finset.sum_le_sum
  intro i hi
  have hi := Finset.mem_range.mp hi
  have h1 : ∑ k ∈ Finset.range S.nb, vec c k * (W i * (S.ratio true μ f (vec c) (vec e) i *
      bf (S.isS k) true (vec e k) (S.rad k i))) =
      W i * (S.ratio true μ f (vec c) (vec e) i * S.dens true (vec c) (vec e) i) := by
    unfold Shape.dens
    rw [Finset.mul_sum, Finset.mul_sum]
    exact Finset.sum_congr rfl fun k _ => by ring
  rw [h1]
  apply mul_le_mul_of_nonneg_left _ (hW i hi)
  unfold Shape.ratio klRatio
  split
  · rename_i hu
    rw [div_mul_cancel₀ _ (unmasked_pos (h.f_nonneg i hi) hu).ne']
    exact le_max_left _ _
  · rename_i hu
    rw [one_mul]
    by_contra hcon
    push Not at hcon
    apply hu
    refine ⟨lt_of_le_of_lt (le_max_right _ _) hcon, lt_of_le_of_lt ?_ (lt_of_le_of_lt (le_max_left _ _) hcon)⟩
    have := tiny_lt_one
    nlinarith [h.f_nonneg i hi]

/-- A fixed-point run from positive parameters, with masked points. -/
theorem fpi_run_masked {F : FPI} {S : Shape} {N : ℕ} {W f : ℕ → ℝ} {μ T : ℝ}
    (h : IsFPI F true S N W f μ T) (hW : ∀ i < N, 0 ≤ W i) (hT : 0 < T) (hs : S.Sees N W f) (o : FPIOpts)
    (huc : o.optCoeffs = true ∨ o.optExpons = true) (c e : List ℝ) (hc : c.length = S.nb) (he : e.length = S.nb)
    (hcp : ∀ a ∈ c, 0 < a) (hep : ∀ a ∈ e, 0 < a) :
    ∃ r c' e', F.run (.arr (ND.vec (fins c))) (.arr (ND.vec (fins e))) o = .ok r ∧ r.coeffs = fins c' ∧
      r.exps = fins e' ∧ c'.length = S.nb ∧ e'.length = S.nb ∧ (∀ a ∈ c', 0 < a) ∧ (∀ a ∈ e', 0 < a) ∧
      (o.optCoeffs = true → r.performance ≠ [] →
        c'.sum ≤ T * ((∑ i ∈ Finset.range N, W i * max (f i) μ) / ∑ i ∈ Finset.range N, W i * f i)) := by
  obtain ⟨r, n, cs, es, h1, h2, h3, h4⟩ := C39_total h hW hT hs o huc c e ⟨hc, he, fun a ha => (hcp a ha).le, hep⟩
  obtain ⟨r', c', e', g1, g2, g3, g4, g5, g6, g7, -⟩ := fpi_run_pos h hW hT hs o huc c e hc he hcp hep
  rw [h1] at g1
  simp only [Except.ok.injEq] at g1
  subst g1
  refine ⟨r, c', e', h1, g2, g3, g4, g5, g6, g7, fun ho hne => ?_⟩
  have hinj : ∀ l l' : List ℝ, fins l = fins l' → l = l' := fun l l' hl =>
    List.map_injective_iff.mpr (fun a b hab => by simpa using hab) hl
  have hl := h3.last
  simp only [Prod.mk.injEq] at hl
  have hcn : c' = cs n := hinj _ _ (g2.symm.trans hl.1.symm)
  have hn : 0 < n := by
    rw [← h3.len]
    exact List.length_pos_of_ne_nil hne
  have hg := h4 (n - 1) (by omega)
  obtain ⟨c1, e1, k1, -, k3⟩ := update_sum_masked h hW hT (cs (n - 1)) (es (n - 1)) hg o.optExpons
  have hst := h3.step (n - 1) (by omega)
  simp only [ho] at hst
  rw [k1, show n - 1 + 1 = n by omega] at hst
  simp only [Except.ok.injEq, Prod.mk.injEq] at hst
  rw [hcn, ← hinj _ _ hst.1]
  exact k3

/-! ### The bundled atoms -/

/-- Fit of a non-negative function on a radial grid where it is positive at a point of positive weight. -/
theorem radial_fit_masked {pts : List ℝ} (hp : pts.Pairwise (· ≤ ·)) {t : ℝ → ℝ} (ht : ∀ r, 0 ≤ t r) {sph : Bool}
    (hi : ∃ i < pts.length, vec pts i ≠ 0 ∧ 0 < radW pts sph i ∧ 0 < t (vec pts i))
    (ns np : ℕ) (hsp : ns + np ≠ 0) (μ : ℝ) (T : Option ℝ) (hT : ∀ a, T = some a → 0 < a) :
    ∃ m F I J, Atomic.init (.arr (.one (fins pts))) .none (.int ns) (.int np) true = .ok m ∧
      FPI.init (.radial ⟨fins pts⟩) (fins (pts.map t)) (.atom m) (XR.fin μ) (T.map XR.fin) sph = .ok F ∧
      integrateOn (.radial ⟨fins pts⟩) sph (fins (pts.map t)) = .ok (XR.fin I) ∧ 0 < I ∧
      integrateOn (.radial ⟨fins pts⟩) sph (fins (pts.map fun r => max (t r) μ)) = .ok (XR.fin J) ∧
      IsFPI F true (atomShape (pts.map fun x => |x|) ns np) pts.length (radW pts sph) (fun i => t (vec pts i)) μ
        (T.getD I) ∧
      (atomShape (pts.map fun x => |x|) ns np).Sees pts.length (radW pts sph) (fun i => t (vec pts i)) ∧
      ∀ (o : FPIOpts), (o.optCoeffs = true ∨ o.optExpons = true) → ∀ c e : List ℝ,
        c.length = ns + np → e.length = ns + np → (∀ a ∈ c, 0 < a) → (∀ a ∈ e, 0 < a) →
        ∃ r c' e', F.run (.arr (ND.vec (fins c))) (.arr (ND.vec (fins e))) o = .ok r ∧
          r.coeffs = fins c' ∧ r.exps = fins e' ∧ c'.length = ns + np ∧ e'.length = ns + np ∧
          (∀ a ∈ c', 0 < a) ∧ (∀ a ∈ e', 0 < a) ∧
          (o.optCoeffs = true → r.performance ≠ [] → c'.sum ≤ T.getD I * (J / I)) := by
  obtain ⟨m, hm, ha, hno⟩ := (C18_radii_1d pts 0 ns np hsp true).2
  have hmod := atom_isModel ha hsp
  rw [hno, List.length_map] at hmod
  have hq := radW_quad pts sph
  have hpos := radial_sum_pos hp ht hi
  set f : ℕ → ℝ := fun i => t (vec pts i) with hf
  have hW : ∀ i < pts.length, 0 ≤ radW pts sph i := fun i _ => radW_nonneg hp sph i
  have hT0 : T ≠ some 0 := fun h => lt_irrefl _ (hT 0 h)
  obtain ⟨F, hF, hI, -⟩ := (C34_finite μ T hmod hq (fun _ => ⟨_, rfl⟩) (fun i _ => ht (vec pts i))).1 hpos.ne' hT0
  have hTp : 0 < T.getD (∑ i ∈ Finset.range pts.length, radW pts sph i * f i) := by
    cases T with
    | none => exact hpos
    | some a => exact hT a rfl
  have hsees : (atomShape (pts.map fun x => |x|) ns np).Sees pts.length (radW pts sph) f := by
    intro k _
    obtain ⟨i, hi', h0, h1, h2⟩ := hi
    refine ⟨i, hi', h1, h2, fun h3 => h0 ?_⟩
    simp only [atomShape, vec, List.getD_eq_getElem?_getD, List.getElem?_map,
      List.getElem?_eq_getElem hi', Option.map_some, Option.getD_some] at h3 ⊢
    exact abs_eq_zero.mp h3
  rw [tab_map] at hF
  have e1 := hq.fin f
  rw [tab_map] at e1
  have e2 := hq.fin fun i => max (t (vec pts i)) μ
  rw [tab_map pts fun r => max (t r) μ] at e2
  refine ⟨m, F, _, _, hm, hF, e1, hpos, e2, hI, hsees, fun o huc c e hc he hcp hep => ?_⟩
  exact fpi_run_masked hI hW hTp hsees o huc c e hc he hcp hep

theorem scanRows_length (s : Sub) (ls : List Str) : (scanRows s ls).1.length + (scanRows s ls).2.length = ls.length := by
  induction ls with
  | nil => simp [scanRows]
  | cons l ls ih =>
    unfold scanRows
    split
    · simp
    · simp only [List.length_cons]
      omega

theorem scanBlock_length {heavy : Bool} {ls rest : List Str} {b : DBlock} (h : scanBlock heavy ls = some (b, rest)) :
    b.rows.length + rest.length ≤ ls.length := by
  unfold scanBlock at h
  split at h
  · next hd e r1 =>
    split at h
    · split at h
      · simp at h
      · next s _ =>
        split at h
        · split at h
          · simp at h
          · split at h
            · have := scanRows_length s r1
              simp only [Option.some.injEq, Prod.mk.injEq] at h
              obtain ⟨rfl, rfl⟩ := h
              simp only [List.length_cons]
              omega
            · split at h
              · simp at h
              · next c r2 =>
                split at h
                · simp at h
                · have := scanRows_length s r2
                  simp only [Option.some.injEq, Prod.mk.injEq] at h
                  obtain ⟨rfl, rfl⟩ := h
                  simp only [List.length_cons]
                  omega
        · simp at h
    · simp at h
  · simp at h

theorem scanTables_length {heavy : Bool} {n : ℕ} {ls : List Str} {bs : List DBlock}
    (h : scanTables heavy n ls = some bs) : (bs.map fun b => b.rows.length).sum ≤ ls.length := by
  induction n generalizing ls bs with
  | zero =>
    cases ls with
    | nil => simp only [scanTables, Option.some.injEq] at h; subst h; simp
    | cons l ls => simp [scanTables] at h
  | succ n ih =>
    cases ls with
    | nil => simp only [scanTables, Option.some.injEq] at h; subst h; simp
    | cons l ls =>
      unfold scanTables at h
      split at h
      · simp only [Option.some.injEq] at h; subst h; simp
      · split at h
        · simp at h
        · next b rest hb =>
          have h1 := scanBlock_length hb
          split at h
          · split at h
            · simp at h
            · next bs' hbs =>
              have h2 := ih hbs
              simp only [Option.some.injEq] at h
              subst h
              simp only [List.map_cons, List.sum_cons]
              omega
          · simp at h

theorem scanFile_length {heavy : Bool} {ls : List Str} {f : DFile} (h : scanFile heavy ls = some f) :
    (f.blocks.map fun b => b.rows.length).sum ≤ ls.length := by
  have body : ∀ {core items ls'}, scanBody heavy core items ls' = some f →
      (f.blocks.map fun b => b.rows.length).sum ≤ ls'.length := by
    intro core items ls' h
    unfold scanBody at h
    split at h
    · next el kl rest =>
      split at h
      · simp at h
      · split at h
        · simp at h
        · split at h
          · simp at h
          · next bs hbs =>
            simp only [Option.some.injEq] at h
            subst h
            have h1 := scanTables_length hbs
            have h2 := (List.dropWhile_sublist isTitle (l := rest.dropWhile isBlank)).length_le
            have h3 := (List.dropWhile_sublist isBlank (l := rest)).length_le
            simp only [List.length_cons]
            omega
    · simp at h
  unfold scanFile at h
  split at h
  · simp at h
  · next l0 rest =>
    split at h
    · simp at h
    · simp only at h
      have h3 := (List.dropWhile_sublist isBlank (l := rest)).length_le
      split at h
      · split at h
        · have := body h
          rw [List.length_drop] at this
          simp only [List.length_cons]
          omega
        · simp at h
      · have := body h
        simp only [List.length_cons]
        omega

theorem bundled_lines : ∀ d ∈ Data.bundled, d.lines.length ≤ 70 := by
  have h : Data.bundled.all (fun d => decide (d.lines.length ≤ 70)) = true := by decide +kernel
  intro d hd
  simpa using List.all_eq_true.mp h d hd

/-- The numbers of the Slater functions of a subshell in a bundled file add up to at most `9 * 70`. -/
theorem basis_sum {f : DFile} (hg : ∀ b ∈ f.blocks, b.good) (s : Sub) :
    ((f.toS.basisOf s).map Prod.snd).sum ≤ 9 * (f.blocks.map fun b => b.rows.length).sum := by
  unfold SFile.basisOf DFile.toS
  simp only
  generalize f.blocks = bs at hg
  induction bs with
  | nil => simp
  | cons b bs ih =>
    have h1 := ih fun b hb => hg b (List.mem_cons_of_mem _ hb)
    have h2 : ((b.rows.map fun r => r.n).sum) ≤ 9 * b.rows.length := by
      have hn := (hg b (by simp)).nums
      generalize b.rows = rs at hn
      induction rs with
      | nil => simp
      | cons r rs ih =>
        have h3 := ih fun r hr => hn r (List.mem_cons_of_mem _ hr)
        have h4 := (hn r (by simp)).2
        simp only [List.map_cons, List.sum_cons, List.length_cons]
        omega
    simp only [List.map_cons, List.flatMap_cons, List.map_append, List.sum_append, List.sum_cons]
    have h5 : ((if b.toT.sub = s then b.toT.rows.map fun r => (reOf r.z, r.n) else []).map Prod.snd).sum ≤
        9 * b.rows.length := by
      split
      · simpa [DBlock.toT, DRow.toT, List.map_map, Function.comp_def] using h2
      · simp
    omega

/-- The bundled atoms: finite data, a density that is not zero everywhere, and principal quantum numbers that add up to
at most 630 in each subshell. -/
theorem bundled_slater (d : DataFile) (hd : d ∈ Data.bundled) (isAlpha : Str → Bool) (low : Str → Str)
    (tf : Str → Py XR) (ht : ReadsDecimals tf) (fs : Str → Option (List Str)) (s : Str) (ha : isAlpha s = true)
    (hz : HasZ (low s) d.z) (hfs : fs (d.charge.path (low s)) = some d.lines) :
    ∃ R : RawAtom,
      slaterInit isAlpha low tf fs (.str s) (decide (d.charge = .anion)) (decide (d.charge = .cation)) =
        some (.ok R) ∧ (∃ A, Stores R A) ∧
      ∀ A, Stores R A → ∃ basis c occ en, IsSlater A basis c occ en ∧ (∃ r, densR A.orbitals basis c occ r ≠ 0) ∧
        ∀ o ∈ A.orbitals, ∀ l, A.nums o.sub = some l → l.sum ≤ 630 := by
  obtain ⟨R, f, hsc, hG, hg, hl, hR, hi⟩ := ok_sound (Data.bundled_ok d hd) (bundled_anion hd) (bundled_cation hd)
    isAlpha low tf ht fs s ha hz hfs
  have hwf : ∀ b ∈ f.toS.blocks, b.wf := by
    intro b hb
    obtain ⟨b', hb', rfl⟩ := List.mem_map.mp hb
    exact (hg b' hb').wf
  have hfin : ∀ b ∈ f.toS.blocks, b.finite := by
    intro b hb
    obtain ⟨b', hb', rfl⟩ := List.mem_map.mp hb
    exact (hg b' hb').finite
  refine ⟨R, hi, stores_exists hwf hR, fun A hA => ?_⟩
  obtain ⟨-, en, hs⟩ := loaded_isSlater hG.wf hwf hfin hR hA
  obtain ⟨t, h1, -, h3⟩ := (good_loads hG hg hl hR hA).dens
  have e : t = densR A.orbitals f.toS.basisOf f.toS.coeffOf (f.toS.orbs.map fun o => (occSpec f.toS.config o : ℝ)) := by
    funext r
    have := (h1 [r]).symm.trans (atomicDensity_total hs [r])
    simpa [fins] using this
  have hel : (1 : ℝ) ≤ d.charge.electrons d.z := by
    have h1 := hz.1
    have h2 : 1 ≤ d.charge.electrons d.z := by
      have hc := bundled_cation hd
      cases hch : d.charge with
      | neutral => exact h1
      | anion => exact Nat.le_add_left _ _
      | cation =>
        have := (hc hch).1.1
        simp only [Charge.electrons]
        omega
    exact_mod_cast h2
  have hne : ∃ r, t r ≠ 0 := by
    by_contra hcon
    push Not at hcon
    have k := (abs_le.mp h3).1
    simp only [hcon, MeasureTheory.integral_zero] at k
    have : (1e-5 : ℝ) * d.charge.electrons d.z = d.charge.electrons d.z / 100000 := by ring
    linarith
  have hN : ∀ o ∈ A.orbitals, ∀ l, A.nums o.sub = some l → l.sum ≤ 630 := by
    intro o ho l hl
    have := hs.nums o ho
    rw [hl] at this
    simp only [Option.some.injEq] at this
    subst this
    have k1 := basis_sum hg o.sub
    have k2 := scanFile_length hsc
    have k3 := bundled_lines d hd
    omega
  exact ⟨_, _, _, en, hs, e ▸ hne, hN⟩

/-- The densities of the bundled atoms have less than 630 zeros. -/
theorem bundled_dens (d : DataFile) (hd : d ∈ Data.bundled) (isAlpha : Str → Bool) (low : Str → Str)
    (tf : Str → Py XR) (ht : ReadsDecimals tf) (fs : Str → Option (List Str)) (s : Str) (ha : isAlpha s = true)
    (hz : HasZ (low s) d.z) (hfs : fs (d.charge.path (low s)) = some d.lines) :
    ∃ R : RawAtom,
      slaterInit isAlpha low tf fs (.str s) (decide (d.charge = .anion)) (decide (d.charge = .cation)) =
        some (.ok R) ∧ (∃ A, Stores R A) ∧
      ∀ A, Stores R A → ∃ t : ℝ → ℝ,
        (∀ x : List ℝ, A.atomicDensity (ND.vec (fins x)) "total" = .ok (fins (x.map t))) ∧ (∀ r, 0 ≤ t r) ∧
        ∀ Z : Finset ℝ, 630 ≤ Z.card → ∃ z ∈ Z, t z ≠ 0 := by
  obtain ⟨R, hi, hex, hA⟩ := bundled_slater d hd isAlpha low tf ht fs s ha hz hfs
  refine ⟨R, hi, hex, fun A hst => ?_⟩
  obtain ⟨basis, c, occ, en, hs, ⟨r, hr⟩, hN⟩ := hA A hst
  refine ⟨_, atomicDensity_total hs, fun r => densR_nonneg _ _ _ _ hs.occ_nonneg r, fun Z hZ => ?_⟩
  by_contra hcon
  push Not at hcon
  exact hr (C127_density hs _ (atomicDensity_total hs) 630 hN Z hZ hcon r)

/-- **C127** (from the symbol to the fit).  For each bundled atom, `SlaterAtoms(symbol, ...)` loads, and on every
ascending radial grid with more than 630 different points: the total density is returned, its integral is
positive, a Gaussian model with any numbers of functions and `KLDivergenceFPI` can be constructed with it for every
mask value and positive `integral_dens`, spherical or not, and `run` returns for all positive starting values,
with positive coefficients and exponents.  After an update of the coefficients they add up to at most
`integral_dens` times the ratio of the integrals of the larger of density and mask value and of the density. -/
theorem C127_fit (d : DataFile) (hd : d ∈ Data.bundled) (isAlpha : Str → Bool) (low : Str → Str)
    (tf : Str → Py XR) (ht : ReadsDecimals tf) (fs : Str → Option (List Str)) (s : Str) (ha : isAlpha s = true)
    (hz : HasZ (low s) d.z) (hfs : fs (d.charge.path (low s)) = some d.lines) :
    ∃ R : RawAtom,
      slaterInit isAlpha low tf fs (.str s) (decide (d.charge = .anion)) (decide (d.charge = .cation)) =
        some (.ok R) ∧ (∃ A, Stores R A) ∧
      ∀ A, Stores R A → ∀ pts : List ℝ, pts.Pairwise (· ≤ ·) → 630 < pts.toFinset.card → ∃ vals : List ℝ,
        A.atomicDensity (ND.vec (fins pts)) "total" = .ok (fins vals) ∧ (∀ y ∈ vals, 0 ≤ y) ∧
        ∀ (sph : Bool) (ns np : ℕ), ns + np ≠ 0 → ∀ (μ : ℝ) (T : Option ℝ), (∀ a, T = some a → 0 < a) →
        ∃ m F I J,
          Atomic.init (.arr (.one (fins pts))) .none (.int ns) (.int np) true = .ok m ∧
          FPI.init (.radial ⟨fins pts⟩) (fins vals) (.atom m) (XR.fin μ) (T.map XR.fin) sph = .ok F ∧
          integrateOn (.radial ⟨fins pts⟩) sph (fins vals) = .ok (XR.fin I) ∧ 0 < I ∧
          integrateOn (.radial ⟨fins pts⟩) sph (fins (vals.map fun y => max y μ)) = .ok (XR.fin J) ∧
          F.integralDens = XR.fin (T.getD I) ∧
          ∀ (o : FPIOpts), (o.optCoeffs = true ∨ o.optExpons = true) → ∀ c e : List ℝ,
            c.length = ns + np → e.length = ns + np → (∀ a ∈ c, 0 < a) → (∀ a ∈ e, 0 < a) →
            ∃ r c' e', F.run (.arr (ND.vec (fins c))) (.arr (ND.vec (fins e))) o = .ok r ∧
              r.coeffs = fins c' ∧ r.exps = fins e' ∧ c'.length = ns + np ∧ e'.length = ns + np ∧
              (∀ a ∈ c', 0 < a) ∧ (∀ a ∈ e', 0 < a) ∧
              (o.optCoeffs = true → r.performance ≠ [] → c'.sum ≤ T.getD I * (J / I)) := by
  obtain ⟨R, hi, hex, hA⟩ := bundled_dens d hd isAlpha low tf ht fs s ha hz hfs
  refine ⟨R, hi, hex, fun A hst pts hp hc => ?_⟩
  obtain ⟨t, h1, hnn, hzero⟩ := hA A hst
  refine ⟨pts.map t, h1 pts, by
    intro y hy
    obtain ⟨r, -, rfl⟩ := List.mem_map.mp hy
    exact hnn r, fun sph ns np hsp μ T hT => ?_⟩
  obtain ⟨m, F, I, J, q1, q2, q3, q4, q5, q6, -, q7⟩ := radial_fit_masked hp hnn
    (radial_index_pos hp hnn (by norm_num) hzero hc sph) ns np hsp μ T hT
  refine ⟨m, F, I, J, q1, q2, q3, q4, ?_, q6.target, q7⟩
  rw [List.map_map]
  exact q5

/-! ### Clenshaw-Curtis grids -/

theorem core_nodup (z : ℤ) (hz : 0 < z) (m : ℕ) (o : Bool) : (coreSpec z m o).Nodup := by
  unfold coreSpec
  refine List.Nodup.map_on ?_ List.nodup_range
  intro p hp q hq h
  have hp := List.mem_range.mp hp
  have hq := List.mem_range.mp hq
  have hm : (0 : ℝ) < m := by exact_mod_cast (by omega : 0 < m)
  have hz' : (0 : ℝ) < z := by exact_mod_cast hz
  have hmem : ∀ k : ℕ, k < m → π * ((k + (if o then 0 else 1) : ℕ) : ℝ) / (2 * m) ∈ Set.Icc 0 π := by
    intro k hk
    have h1 : ((k + (if o then 0 else 1) : ℕ) : ℝ) ≤ m := by
      have : k + (if o then 0 else 1) ≤ m := by split <;> omega
      exact_mod_cast this
    have h2 : (0 : ℝ) ≤ ((k + (if o then 0 else 1) : ℕ) : ℝ) := Nat.cast_nonneg _
    constructor
    · have := pi_pos; positivity
    · rw [div_le_iff₀ (by positivity)]
      nlinarith [pi_pos]
  rw [div_left_inj' (by positivity)] at h
  have h1 := injOn_cos (hmem p hp) (hmem q hq) (by linarith)
  rw [div_left_inj' (by positivity), mul_right_inj' pi_ne_zero] at h1
  have h2 : p + (if o then 0 else 1) = q + (if o then 0 else 1) := by exact_mod_cast h1
  omega

/-- **C127** (Clenshaw-Curtis grids).  The points of a Clenshaw-Curtis grid ascend, and at least as many of them
are different as core points are asked for. -/
theorem C127_clenshaw (z : ℤ) (hz : 0 < z) (m n : ℕ) (extra : PyObj) (l : List ℝ) (he : ExtraIs extra l) (o : Bool) :
    ∃ pts : List ℝ, clenshawRadialGrid (.int z) (.int m) (.int n) extra (.bool o) = .ok ⟨fins pts⟩ ∧
      pts.Pairwise (· ≤ ·) ∧ m ≤ pts.toFinset.card := by
  obtain ⟨pts, h1, -, h3, h4⟩ := C05_clenshaw_points z hz m n extra l he o
  refine ⟨pts, h1, h3, ?_⟩
  have h5 : (coreSpec z m o).toFinset ⊆ pts.toFinset := by
    intro x hx
    rw [List.mem_toFinset] at hx ⊢
    rw [h4.mem_iff]
    simp [hx]
  have h6 := Finset.card_le_card h5
  rw [List.toFinset_card_of_nodup (core_nodup z hz m o)] at h6
  simpa [coreSpec] using h6

/-! ### Examples -/

/-- As many zeros as the number minus one do not make an orbital vanish: `r exp(-r)`. -/
example : orbR [(1, 2)] [1] 0 = 0 ∧ orbR [(1, 2)] [1] 1 ≠ 0 ∧ ([((1 : ℝ), 2)].map Prod.snd).sum = 2 := by
  refine ⟨by simp [orbR, slaterR], ?_, by simp⟩
  simp only [orbR, slaterR, List.map_cons, List.map_nil, wsum_cons, wsum_nil_left]
  positivity

/-- The outer orbital of helium on a grid of four points. -/
example : ∃ t : ℝ → ℝ, ∃ I : ℝ, (∀ x : List ℝ, heOuter.atomicDensity (ND.vec (fins x)) "total" = .ok (fins (x.map t))) ∧
    integrateOn (.radial ⟨fins [0, 1, 2, 3]⟩) true (fins ([0, 1, 2, 3].map t)) = .ok (XR.fin I) ∧ 0 < I := by
  have hne : ∃ r, densR heOuter.orbitals (fun _ => [(1.4, 1), (2.5, 1)]) (fun _ => [0.8, 0.2]) [2] r ≠ 0 := by
    refine ⟨1, ?_⟩
    simp only [densR, heOuter, orbR, slaterR, List.map_cons, List.map_nil, wsum_cons, wsum_nil_left]
    positivity
  have hnd : ([0, 1, 2, 3] : List ℝ).Nodup := by norm_num
  obtain ⟨I, h1, h2⟩ := C127_integral heOuter_isSlater _ (atomicDensity_total heOuter_isSlater) 2 (by norm_num)
    (by
      intro o ho l hl
      simp only [heOuter, Option.some.injEq] at hl
      subst hl
      simp) hne [0, 1, 2, 3] (by norm_num) (by rw [List.toFinset_card_of_nodup hnd]; norm_num) true
  exact ⟨_, I, atomicDensity_total heOuter_isSlater, h1, h2⟩

/-- Helium on a Clenshaw-Curtis grid with a thousand core points and an extra point. -/
example : ∃ R A pts vals m F I r c',
    slaterInit (fun _ => true) (fun s => s.map Char.toLower) (fun w => .ok (.fin (readDec w)))
      (fun p => if p = "/data/neutral/he.slater".toList then some Data.neutral_he.lines else none) (.str "He".toList)
      false false = some (.ok R) ∧ Stores R A ∧
    clenshawRadialGrid (.int 2) (.int 1000) (.int 899) (.seq (fins [50])) (.bool true) = .ok ⟨fins pts⟩ ∧
    A.atomicDensity (ND.vec (fins pts)) "total" = .ok (fins vals) ∧
    Atomic.init (.arr (.one (fins pts))) .none (.int 1) (.int 1) true = .ok m ∧
    FPI.init (.radial ⟨fins pts⟩) (fins vals) (.atom m) (XR.fin 0) (some (XR.fin 2)) true = .ok F ∧
    integrateOn (.radial ⟨fins pts⟩) true (fins vals) = .ok (XR.fin I) ∧ 0 < I ∧ F.integralDens = XR.fin 2 ∧
    F.run (.arr (ND.vec (fins [1, 1]))) (.arr (ND.vec (fins [1, 2])))
      ⟨true, true, 500, XR.fin 0, XR.fin 0, XR.fin 0⟩ = .ok r ∧
    r.coeffs = fins c' ∧ (∀ a ∈ c', 0 < a) := by
  obtain ⟨R, h1, ⟨A, hA⟩, h2⟩ := C127_fit Data.neutral_he (by simp [Data.bundled, Data.part1]) (fun _ => true)
    (fun s => s.map Char.toLower) _ reads_example
    (fun p => if p = "/data/neutral/he.slater".toList then some Data.neutral_he.lines else none) "He".toList rfl
    ⟨by decide +kernel, by decide +kernel⟩ (by rw [if_pos (by decide +kernel)])
  obtain ⟨pts, g1, g2, g3⟩ := C127_clenshaw 2 (by norm_num) 1000 899 (.seq (fins [50])) [50] (.inr rfl) true
  obtain ⟨vals, k1, -, k3⟩ := h2 A hA pts g2 (by omega)
  obtain ⟨m, F, I, J, q1, q2, q3, q4, -, q6, q7⟩ := k3 true 1 1 (by norm_num) 0 (some 2) (by
    intro a ha
    simp only [Option.some.injEq] at ha
    linarith)
  obtain ⟨r, c', e', r1, r2, -, -, -, r6, -⟩ := q7 ⟨true, true, 500, XR.fin 0, XR.fin 0, XR.fin 0⟩ (.inl rfl)
    [1, 1] [1, 2] rfl rfl (by simp) (by simp)
  exact ⟨R, A, pts, vals, m, F, I, r, c', h1, hA, g1, k1, q1, q2, q3, q4, q6, r1, r2, r6⟩

end

end BFit
