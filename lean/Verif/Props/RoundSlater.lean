import Verif.Model.RoundSlater
import Verif.Lemmas.RoundNear
import Verif.Props.Round
import Verif.Props.RoundUnder
import Verif.Props.SlaterKinetic
import Verif.Props.SlaterEnergy

/-! Property C132: rounding errors of the atomic densities, their derivatives and the kinetic energy densities. -/

namespace BFit

open Real Classical Finset

noncomputable section

section
variable {u : ℝ} (h0 : 0 ≤ u) (h1 : u < 1)
include h0 h1

theorem Rel.pow {k : ℕ} {a b : ℝ} (h : Rel u k a b) (n : ℕ) : Rel u (n * k) (a ^ n) (b ^ n) := by
  induction n with
  | zero => simpa using Rel.refl h0 h1 1
  | succ n ih =>
    rw [pow_succ, pow_succ, Nat.succ_mul]
    exact ih.mul h0 h1 h

/-- The value of a Slater function has `n + J + 9` roundings. -/
theorem RSlater.rel (hu : u ≤ 1 / 10) {z : ℝ} {n : ℕ} {r v : ℝ} (hz : 0 < z) (hr : 0 ≤ r)
    (h : RSlater u 0 z n r v) {J : ℕ} (hJ : 3 * (z * r) ≤ J) : Rel u (n + J + 9) v (slaterR z n r) := by
  obtain ⟨a, p, f, q, s, m, w, x, E, t, ha, hp, hf, hq, hs, hm, hw, hx, hE, ht, hv⟩ := h
  have ra := Rel.of_fu h0 h1 ha
  have rp := (Rel.of_fu h0 h1 hp).trans h0 h1 (ra.pow h0 h1 n)
  have rq := (Rel.of_fu h0 h1 hq).trans h0 h1 (ra.div h0 h1 (Rel.of_fl h0 h1 hf))
  have rs := rq.rpow h0 h1 (p := 1 / 2) (l := 2) (by positivity) (by norm_num) (by norm_num)
  rw [← sqrt_eq_rpow, ← sqrt_eq_rpow] at rs
  have rs := (Rel.of_fu h0 h1 hs).trans h0 h1 rs
  have rm := (Rel.of_fu h0 h1 hm).trans h0 h1 (rp.mul h0 h1 rs)
  have rx : Rel u 2 (-x) (z * r) := by
    obtain ⟨t, ht, ht', hat⟩ := (Rel.of_fu h0 h1 hx).mono h0 h1 (l := 2) (by omega)
    exact ⟨t, ht, ht', by rw [hat]; ring⟩
  have re := rx.exp_neg h0 h1 hu (by positivity) hJ
  rw [neg_neg] at re
  have re := (Rel.of_fu h0 h1 hE).trans h0 h1 re
  have rt := (Rel.of_fu h0 h1 ht).trans h0 h1 (rm.mul h0 h1 (Rel.of_fu h0 h1 hw))
  have rv := (Rel.of_fu h0 h1 hv).trans h0 h1 (rt.mul h0 h1 re)
  unfold slaterR
  rw [neg_mul]
  exact rv.mono h0 h1 (by omega)

/-- The value of the derivative of a Slater function. -/
theorem RSlaterDeriv.near (hu : u ≤ 1 / 10) {z : ℝ} {n : ℕ} {r v : ℝ} (hz : 0 < z) (hn : 1 ≤ n) (hr : 0 ≤ r)
    (h : RSlaterDeriv u 0 z n r v) {J : ℕ} (hJ : 3 * (z * r) ≤ J) :
    NearBy u (n + J + 12) v (cutD (slaterR' z n) r)
      (cutD (fun r => (((n : ℝ) - 1) / r + z) * slaterR z n r) r) := by
  unfold RSlaterDeriv at h
  unfold cutD
  by_cases hc : |r| < 1e-10
  · rw [if_pos hc] at h ⊢
    rw [if_pos hc, h]
    exact ⟨by simp, by simp⟩
  · rw [if_neg hc] at h ⊢
    rw [if_neg hc]
    obtain ⟨s, d, g, hs, hd, hg, hv⟩ := h
    have hn' : (0 : ℝ) ≤ (n : ℝ) - 1 := by
      have : (1 : ℝ) ≤ n := by exact_mod_cast hn
      linarith
    have n1 := NearBy.of_rel h0 h1 (Rel.of_fu h0 h1 hd)
    have n2 := ((NearBy.refl h0 h1 z).neg).mono h0 h1 (l := 1) (by omega) le_rfl
    have n3 := (n1.add h0 h1 n2)
    rw [← sub_eq_add_neg, ← sub_eq_add_neg, abs_of_nonneg (div_nonneg hn' hr), abs_of_pos hz] at n3
    have n4 := (n3.fl h0 h1 hg).mul_rel h0 h1 (hs.rel h0 h1 hu hz hr hJ)
    rw [abs_of_nonneg (by unfold slaterR; positivity)] at n4
    exact (n4.fu h0 h1 hv).mono h0 h1 (by omega) le_rfl

/-- A sum of products of computed numbers with a list of numbers. -/
theorem RDens.near_wsum {α : Type} (l : List α) (f B : α → ℝ) (c : List ℝ) (hc : c.length = l.length) {j : ℕ}
    {q : ℕ → ℝ} (hq : ∀ i a, l[i]? = some a → NearBy u j (q i) (f a) (B a)) {d : ℝ}
    (h : RDens u 0 l.length q (c.getD · 0) d) :
    NearBy u (j + l.length) d (wsum (l.map f) c) (wsum (l.map B) (c.map abs)) := by
  have hg : ∀ (g : α → ℝ) i a, l[i]? = some a → vec (l.map g) i = g a := by
    intro g i a hi
    simp [vec, List.getD_eq_getElem?_getD, hi]
  have := h.near h0 h1 (j := j) (ψ := vec (l.map f)) (B := vec (l.map B)) fun k hk => by
    have hk' : l[k]? = some l[k] := List.getElem?_eq_getElem hk
    rw [hg f k _ hk', hg B k _ hk']
    exact hq k _ hk'
  rw [wsum_eq_sum _ _ l.length (by simp) hc, wsum_eq_sum _ _ l.length (by simp) (by simpa using hc)]
  have e : ∀ k, |c.getD k 0| = vec (c.map abs) k := by
    intro k
    unfold vec
    rw [List.getD_eq_getElem?_getD, List.getD_eq_getElem?_getD, List.getElem?_map]
    cases c[k]? <;> simp
  simp only [e] at this
  exact this

theorem RFourPi.near {k : ℕ} {a b B v : ℝ} (h : NearBy u k a b B) (hv : RFourPi u 0 a v) :
    NearBy u (k + 3) v (b / (4 * π)) (B / (4 * π)) := by
  obtain ⟨p, f, hp, hf, hv⟩ := hv
  have r := (Rel.of_fl h0 h1 hf).trans h0 h1 ((Rel.refl h0 h1 4).mul h0 h1 (Rel.of_fl h0 h1 hp))
  have := (h.div_rel h0 h1 r).fu h0 h1 hv
  rw [abs_of_pos (by positivity)] at this
  exact this.mono h0 h1 (by omega) le_rfl

end

/-- The combination of the sums of the absolute values of both terms of the derivatives of the Slater functions: the size
of the numbers that are added in a derivative of an orbital. -/
def orbB (bs : List (ℝ × ℕ)) (c : List ℝ) (r : ℝ) : ℝ :=
  wsum (bs.map fun b => (((b.2 : ℝ) - 1) / r + b.1) * slaterR b.1 b.2 r) (c.map abs)

/-- The points and Slater functions of the statements below: there are at most `L` functions in a subshell, their numbers
are at most `n`, and three times exponent times distance is at most `J`. -/
structure SlaterRange (os : List Orb) (basis : Sub → List (ℝ × ℕ)) (r : ℝ) (n J L : ℕ) : Prop where
  nonneg : 0 ≤ r
  len : ∀ o ∈ os, (basis o.sub).length ≤ L
  num : ∀ o ∈ os, ∀ b ∈ basis o.sub, b.2 ≤ n
  arg : ∀ o ∈ os, ∀ b ∈ basis o.sub, 3 * (b.1 * r) ≤ J

section
variable {u : ℝ} (h0 : 0 ≤ u) (hu : u ≤ 1 / 10)
include h0 hu

theorem ROrbDot.near {A : SlaterAtom} {basis : Sub → List (ℝ × ℕ)} {c : Orb → List ℝ} {occ en : List ℝ}
    (h : IsSlater A basis c occ en) {r m : ℝ} {n J L : ℕ} (hR : SlaterRange A.orbitals basis r n J L) {o : Orb}
    (ho : o ∈ A.orbitals) (hm : ROrbDot u 0 false (basis o.sub) (c o) r m) :
    NearBy u (n + J + L + 9) m (orbR (basis o.sub) (c o) r) (orbR (basis o.sub) ((c o).map abs) r) := by
  have h1 : u < 1 := by linarith
  obtain ⟨s, hs, hm⟩ := hm
  have := RDens.near_wsum h0 h1 (basis o.sub) (fun b => slaterR b.1 b.2 r) (fun b => slaterR b.1 b.2 r) (c o)
    (h.width o ho) (j := n + J + 9) (fun i b hb => ?_) hm
  · exact this.mono h0 h1 (by have := hR.len o ho; omega) le_rfl
  · have hi : i < (basis o.sub).length := by
      by_contra hi
      rw [List.getElem?_eq_none (by omega)] at hb
      cases hb
    have hmem : b ∈ basis o.sub := List.mem_of_getElem? hb
    have hv := hs i hi
    simp only [Bool.false_eq_true, if_false, List.getD_eq_getElem?_getD, hb, Option.getD_some] at hv
    have hz := (h.pos o ho b hmem).1
    have r := NearBy.of_rel h0 h1 (hv.rel h0 h1 hu hz hR.nonneg (hR.arg o ho b hmem))
    rw [abs_of_nonneg (by have := hR.nonneg; unfold slaterR; positivity)] at r
    exact r.mono h0 h1 (by have := hR.num o ho b hmem; omega) le_rfl

theorem ROrbDot.near_deriv {A : SlaterAtom} {basis : Sub → List (ℝ × ℕ)} {c : Orb → List ℝ} {occ en : List ℝ}
    (h : IsSlater A basis c occ en) {r m : ℝ} {n J L : ℕ} (hR : SlaterRange A.orbitals basis r n J L) {o : Orb}
    (ho : o ∈ A.orbitals) (hm : ROrbDot u 0 true (basis o.sub) (c o) r m) :
    NearBy u (n + J + L + 12) m (cutD (orbR' (basis o.sub) (c o)) r) (cutD (orbB (basis o.sub) (c o)) r) := by
  have h1 : u < 1 := by linarith
  obtain ⟨s, hs, hm⟩ := hm
  have := RDens.near_wsum h0 h1 (basis o.sub) (fun b => cutD (slaterR' b.1 b.2) r)
    (fun b => cutD (fun r => (((b.2 : ℝ) - 1) / r + b.1) * slaterR b.1 b.2 r) r) (c o)
    (h.width o ho) (j := n + J + 12) (fun i b hb => ?_) hm
  · have := this.mono h0 h1 (l := n + J + L + 12) (by have := hR.len o ho; omega) le_rfl
    unfold cutD at this ⊢
    by_cases hc : |r| < 1e-10
    · simpa only [if_pos hc, wsum_zero] using this
    · simp only [if_neg hc] at this ⊢
      exact this
  · have hi : i < (basis o.sub).length := by
      by_contra hi
      rw [List.getElem?_eq_none (by omega)] at hb
      cases hb
    have hmem : b ∈ basis o.sub := List.mem_of_getElem? hb
    have hv := hs i hi
    simp only [if_true, List.getD_eq_getElem?_getD, hb, Option.getD_some] at hv
    obtain ⟨hz, hn⟩ := h.pos o ho b hmem
    have r := hv.near h0 h1 hu hz hn hR.nonneg (hR.arg o ho b hmem)
    exact r.mono h0 h1 (by have := hR.num o ho b hmem; omega) le_rfl

theorem near_occ {A : SlaterAtom} {basis : Sub → List (ℝ × ℕ)} {c : Orb → List ℝ} {occ en : List ℝ}
    (h : IsSlater A basis c occ en) (f B : Orb → ℝ) {j : ℕ} {q : ℕ → ℝ}
    (hq : ∀ i o, A.orbitals[i]? = some o → NearBy u j (q i) (f o) (B o)) {d : ℝ}
    (hd : RDens u 0 A.orbitals.length q (occ.getD · 0) d) :
    NearBy u (j + A.orbitals.length) d (wsum (A.orbitals.map f) occ) (wsum (A.orbitals.map B) occ) := by
  have := RDens.near_wsum h0 (by linarith) A.orbitals f B occ h.occ_len hq hd
  have e : occ.map abs = occ := by
    conv_rhs => rw [← List.map_id occ]
    exact List.map_congr_left fun x hx => abs_of_nonneg (h.occ_nonneg x hx)
  rwa [e] at this

theorem RDensity.near {A : SlaterAtom} {basis : Sub → List (ℝ × ℕ)} {c : Orb → List ℝ} {occ en : List ℝ}
    (h : IsSlater A basis c occ en) {r ρ : ℝ} {n J L : ℕ} (hR : SlaterRange A.orbitals basis r n J L)
    (hρ : RDensity u 0 A.orbitals basis c occ r ρ) :
    NearBy u (2 * (n + J + L) + A.orbitals.length + 24) ρ (densR A.orbitals basis c occ r)
      (densR A.orbitals basis (fun o => (c o).map abs) occ r) := by
  have h1 : u < 1 := by linarith
  obtain ⟨φ, q, d, hφ, hd, hρ⟩ := hρ
  have := RFourPi.near h0 h1 (near_occ h0 hu h (fun o => orbR (basis o.sub) (c o) r ^ 2)
    (fun o => orbR (basis o.sub) ((c o).map abs) r ^ 2) (j := 2 * (n + J + L + 10) + 1) (fun i o hi => ?_) hd) hρ
  · exact this.mono h0 h1 (by omega) le_rfl
  · obtain ⟨⟨m, hm, hs⟩, hq⟩ := hφ i o hi
    exact (((ROrbDot.near h0 hu h hR (List.mem_of_getElem? hi) hm).fu h0 h1 hs).sq h0 h1).fu h0 h1 hq

theorem RDerivDensity.near {A : SlaterAtom} {basis : Sub → List (ℝ × ℕ)} {c : Orb → List ℝ} {occ en : List ℝ}
    (h : IsSlater A basis c occ en) {r ρ : ℝ} {n J L : ℕ} (hR : SlaterRange A.orbitals basis r n J L)
    (hρ : RDerivDensity u 0 A.orbitals basis c occ r ρ) :
    NearBy u (2 * (n + J + L) + A.orbitals.length + 28) ρ
      (wsum (A.orbitals.map fun o => 2 * (orbR (basis o.sub) (c o) r * cutD (orbR' (basis o.sub) (c o)) r)) occ /
        (4 * π))
      (wsum (A.orbitals.map fun o => 2 * (orbR (basis o.sub) ((c o).map abs) r * cutD (orbB (basis o.sub) (c o)) r))
        occ / (4 * π)) := by
  have h1 : u < 1 := by linarith
  obtain ⟨φ, ψ, p, q, d, hφ, hd, hρ⟩ := hρ
  have := RFourPi.near h0 h1 (near_occ h0 hu h
    (fun o => 2 * (orbR (basis o.sub) (c o) r * cutD (orbR' (basis o.sub) (c o)) r))
    (fun o => 2 * (orbR (basis o.sub) ((c o).map abs) r * cutD (orbB (basis o.sub) (c o)) r))
    (j := 2 * (n + J + L) + 25) (fun i o hi => ?_) hd) hρ
  · exact this.mono h0 h1 (by omega) le_rfl
  · obtain ⟨⟨m, hm, hs⟩, ⟨m', hm', hs'⟩, hp, hq⟩ := hφ i o hi
    have ho := List.mem_of_getElem? hi
    have n1 := ((ROrbDot.near h0 hu h hR ho hm).fu h0 h1 hs).mul h0 h1
      ((ROrbDot.near_deriv h0 hu h hR ho hm').fu h0 h1 hs')
    have n2 := ((NearBy.refl h0 h1 2).mul h0 h1 (n1.fu h0 h1 hp)).fu h0 h1 hq
    rw [abs_of_pos (two_pos : (0 : ℝ) < 2)] at n2
    exact n2.mono h0 h1 (by omega) le_rfl

/-- The size of the terms of the kinetic energy density. -/
def kinB (basis : Sub → List (ℝ × ℕ)) (c : Orb → List ℝ) (o : Orb) (r : ℝ) : ℝ :=
  cutD (fun r => orbB (basis o.sub) (c o) r ^ 2 + angular o.sub * orbR (basis o.sub) ((c o).map abs) r ^ 2 / r ^ 2) r

theorem RKinEntry.near {A : SlaterAtom} {basis : Sub → List (ℝ × ℕ)} {c : Orb → List ℝ} {occ en : List ℝ}
    (h : IsSlater A basis c occ en) {r v : ℝ} {n J L : ℕ} (hR : SlaterRange A.orbitals basis r n J L) {o : Orb}
    (ho : o ∈ A.orbitals) (hv : RKinEntry u 0 o (basis o.sub) (c o) r v) :
    NearBy u (2 * (n + J + L) + 28) v (kinVal basis c o r) (kinB basis c o r) := by
  have h1 : u < 1 := by linarith
  obtain ⟨m, q, s, hm, hq, hs, hv⟩ := hv
  have n1 := (((ROrbDot.near_deriv h0 hu h hR ho hm).sq h0 h1).fu h0 h1 hq).fu h0 h1 hs
  unfold kinVal kinB
  unfold cutD at n1 ⊢
  by_cases hc : |r| < 1e-10
  · simp only [if_pos hc] at hv n1 ⊢
    have := n1.fl h0 h1 hv
    norm_num at this
    exact this.mono h0 h1 (by omega) le_rfl
  · simp only [if_neg hc] at hv n1 ⊢
    obtain ⟨m', q', g, r2, k, t, hm', hq', hg, hr2, hk, ht, hv⟩ := hv
    have n2 := ((ROrbDot.near h0 hu h hR ho hm').sq h0 h1).fu h0 h1 hq'
    have ha : 0 ≤ angular o.sub := by cases o.sub <;> simp [angular]
    have n3 := ((NearBy.refl h0 h1 (angular o.sub)).mul h0 h1 n2).fu h0 h1 hg
    have n4 := (n3.div_rel h0 h1 (Rel.of_fu h0 h1 hr2)).fu h0 h1 hk
    rw [abs_of_nonneg ha, abs_of_nonneg (sq_nonneg r)] at n4
    have n5 := (n1.mono h0 h1 (l := 2 * (n + J + L) + 26) (by omega) le_rfl).add h0 h1
      (n4.mono h0 h1 (l := 2 * (n + J + L) + 26) (by omega) le_rfl)
    exact ((n5.fl h0 h1 ht).fu h0 h1 hv)

theorem RKinetic.near {A : SlaterAtom} {basis : Sub → List (ℝ × ℕ)} {c : Orb → List ℝ} {occ en : List ℝ}
    (h : IsSlater A basis c occ en) {r ρ : ℝ} {n J L : ℕ} (hR : SlaterRange A.orbitals basis r n J L)
    (hρ : RKinetic u 0 A.orbitals basis c occ r ρ) :
    NearBy u (2 * (n + J + L) + A.orbitals.length + 32) ρ
      (wsum (A.orbitals.map fun o => kinVal basis c o r) occ / 2 / (4 * π))
      (wsum (A.orbitals.map fun o => kinB basis c o r) occ / 2 / (4 * π)) := by
  have h1 : u < 1 := by linarith
  obtain ⟨q, d, e, hq, hd, he, hρ⟩ := hρ
  have n1 := near_occ h0 hu h (fun o => kinVal basis c o r) (fun o => kinB basis c o r)
    (fun i o hi => RKinEntry.near h0 hu h hR (List.mem_of_getElem? hi) (hq i o hi)) hd
  have n2 := (n1.div_rel h0 h1 (Rel.refl h0 h1 2)).fu h0 h1 he
  rw [abs_of_pos (two_pos : (0 : ℝ) < 2)] at n2
  exact (RFourPi.near h0 h1 n2 hρ).mono h0 h1 (by omega) le_rfl

end

/-- **C132** (densities).  The computed total density differs from the exact one by at most
`2 (n + J + L) + K + 24` relative errors, `K` the number of orbitals, of the density of the atom with the absolute
values of the coefficients.  For an atom with non-negative coefficients this is a relative error. -/
theorem C132_density {u : ℝ} (h0 : 0 ≤ u) (hu : u ≤ 1 / 10) {A A' : SlaterAtom} {basis : Sub → List (ℝ × ℕ)}
    {c : Orb → List ℝ} {occ en : List ℝ} (h : IsSlater A basis c occ en)
    (h' : IsSlater A' basis (fun o => (c o).map abs) occ en) (ho : A'.orbitals = A.orbitals) (x : List ℝ) {n J L : ℕ}
    (hR : ∀ r ∈ x, SlaterRange A.orbitals basis r n J L) :
    ∃ t R : List ℝ, A.atomicDensity (ND.vec (fins x)) "total" = .ok (fins t) ∧
      A'.atomicDensity (ND.vec (fins x)) "total" = .ok (fins R) ∧ t.length = x.length ∧ R.length = x.length ∧
      ∀ i < x.length, ∀ ρ, RDensity u 0 A.orbitals basis c occ (vec x i) ρ →
        |ρ - vec t i| ≤ (1 / (1 - u) ^ (2 * (n + J + L) + A.orbitals.length + 24) - 1) * vec R i := by
  refine ⟨_, _, atomicDensity_total h x, atomicDensity_total h' x, by simp, by simp, fun i hi ρ hρ => ?_⟩
  have hv : ∀ g : ℝ → ℝ, vec (x.map g) i = g (vec x i) := by
    intro g
    simp [vec, List.getD_eq_getElem?_getD, hi]
  have hmem : vec x i ∈ x := by
    unfold vec
    rw [List.getD_eq_getElem _ _ hi]
    exact List.getElem_mem hi
  rw [hv, hv, ho]
  exact (RDensity.near h0 hu h (hR _ hmem) hρ).1

/-- **C132** (derivatives).  The computed derivative of the density differs from the exact one by at most
`2 (n + J + L) + K + 28` relative errors of the sum of the absolute values of its terms; below `1e-10` both are zero. -/
theorem C132_derivative {u : ℝ} (h0 : 0 ≤ u) (hu : u ≤ 1 / 10) {A : SlaterAtom} {basis : Sub → List (ℝ × ℕ)}
    {c : Orb → List ℝ} {occ en : List ℝ} (h : IsSlater A basis c occ en) (x : List ℝ) {n J L : ℕ}
    (hR : ∀ r ∈ x, SlaterRange A.orbitals basis r n J L) :
    ∃ t : List ℝ, A.derivDensity (ND.vec (fins x)) = .ok (fins t) ∧ t.length = x.length ∧
      ∀ i < x.length, ∀ ρ, RDerivDensity u 0 A.orbitals basis c occ (vec x i) ρ →
        |ρ - vec t i| ≤ (1 / (1 - u) ^ (2 * (n + J + L) + A.orbitals.length + 28) - 1) *
          if vec x i < 1e-10 then 0 else 1 / (2 * π) * wsum (A.orbitals.map fun o =>
            orbR (basis o.sub) ((c o).map abs) (vec x i) * orbB (basis o.sub) (c o) (vec x i)) occ := by
  refine ⟨_, derivDensity_fins h x, by simp, fun i hi ρ hρ => ?_⟩
  have hv : ∀ g : ℝ → ℝ, vec (x.map g) i = g (vec x i) := by
    intro g
    simp [vec, List.getD_eq_getElem?_getD, hi]
  have hmem : vec x i ∈ x := by
    unfold vec
    rw [List.getD_eq_getElem _ _ hi]
    exact List.getElem_mem hi
  rw [hv]
  refine (RDerivDensity.near h0 hu h (hR _ hmem) hρ).1.trans (le_of_eq ?_)
  congr 1
  simp only [cutD, abs_of_nonneg (hR _ hmem).nonneg]
  split
  · simp only [mul_zero, wsum_zero, zero_div]
  · rw [wsum_smul A.orbitals _ (fun o => orbR (basis o.sub) ((c o).map abs) (vec x i) *
      orbB (basis o.sub) (c o) (vec x i)) 2 occ fun o _ => rfl]
    ring

/-- **C132** (kinetic energy densities).  The computed kinetic energy density differs from the exact one by at most
`2 (n + J + L) + K + 32` relative errors of the sum of the sizes of its terms; below `1e-10` both are zero. -/
theorem C132_kinetic {u : ℝ} (h0 : 0 ≤ u) (hu : u ≤ 1 / 10) {A : SlaterAtom} {basis : Sub → List (ℝ × ℕ)}
    {c : Orb → List ℝ} {occ en : List ℝ} (h : IsSlater A basis c occ en) (x : List ℝ) {n J L : ℕ}
    (hR : ∀ r ∈ x, SlaterRange A.orbitals basis r n J L) :
    ∃ t : List ℝ, A.kinetic (ND.vec (fins x)) = .ok (fins t) ∧ t.length = x.length ∧
      ∀ i < x.length, ∀ ρ, RKinetic u 0 A.orbitals basis c occ (vec x i) ρ →
        |ρ - vec t i| ≤ (1 / (1 - u) ^ (2 * (n + J + L) + A.orbitals.length + 32) - 1) *
          if vec x i < 1e-10 then 0 else 1 / (8 * π) * wsum (A.orbitals.map fun o =>
            orbB (basis o.sub) (c o) (vec x i) ^ 2 + (o.sub.l * (o.sub.l + 1) : ℝ) *
              orbR (basis o.sub) ((c o).map abs) (vec x i) ^ 2 / vec x i ^ 2) occ := by
  refine ⟨_, kinetic_fins h x, by simp, fun i hi ρ hρ => ?_⟩
  have hv : ∀ g : ℝ → ℝ, vec (x.map g) i = g (vec x i) := by
    intro g
    simp [vec, List.getD_eq_getElem?_getD, hi]
  have hmem : vec x i ∈ x := by
    unfold vec
    rw [List.getD_eq_getElem _ _ hi]
    exact List.getElem_mem hi
  rw [hv]
  refine (RKinetic.near h0 hu h (hR _ hmem) hρ).1.trans (le_of_eq ?_)
  have ha : ∀ o : Orb, angular o.sub = (o.sub.l * (o.sub.l + 1) : ℝ) := by
    intro o
    cases o.sub <;> norm_num [angular, Sub.l]
  congr 1
  simp only [kinB, cutD, abs_of_nonneg (hR _ hmem).nonneg]
  split
  · simp only [wsum_zero, zero_div]
  · simp only [ha]
    ring

theorem RDens.nonneg {u τ : ℝ} (h0 : 0 ≤ u) (h1 : u < 1) {n : ℕ} {q c : ℕ → ℝ} {d : ℝ} (h : RDens u τ n q c d)
    (hq : ∀ k < n, 0 ≤ q k) (hc : ∀ k < n, 0 ≤ c k) : 0 ≤ d := by
  obtain ⟨t, ht, hs⟩ := h
  exact hs.nonneg h0 h1 fun k hk => (ht k hk).nonneg h0 h1 (mul_nonneg (hq k hk) (hc k hk))

theorem RFourPi.nonneg {u τ : ℝ} (h0 : 0 ≤ u) (h1 : u < 1) {x v : ℝ} (h : RFourPi u τ x v) (hx : 0 ≤ x) : 0 ≤ v := by
  obtain ⟨p, f, hp, hf, hv⟩ := h
  have p1 := (Rel.of_fl h0 h1 hp).nonneg h0 h1 pi_pos.le
  have p2 := (Rel.of_fl h0 h1 hf).nonneg h0 h1 (by positivity)
  exact hv.nonneg h0 h1 (div_nonneg hx p2)

/-- **C132** (signs).  Computed densities and kinetic energy densities are never negative, with coefficients of any sign,
any Slater functions, at every point, for every accuracy `u < 1` and with underflow. -/
theorem C132_nonneg {u τ : ℝ} (h0 : 0 ≤ u) (h1 : u < 1) (os : List Orb) (basis : Sub → List (ℝ × ℕ))
    (c : Orb → List ℝ) {w : List ℝ} (hw : ∀ y ∈ w, 0 ≤ y) (r : ℝ) :
    (∀ ρ, RDensity u τ os basis c w r ρ → 0 ≤ ρ) ∧ ∀ ρ, RKinetic u τ os basis c w r ρ → 0 ≤ ρ := by
  have hg : ∀ k, 0 ≤ w.getD k 0 := fun k => getD_nonneg hw k
  constructor
  · rintro ρ ⟨φ, q, d, hφ, hd, hρ⟩
    refine hρ.nonneg h0 h1 (hd.nonneg h0 h1 (fun k hk => ?_) fun k _ => hg k)
    exact (hφ k _ (List.getElem?_eq_getElem hk)).2.nonneg h0 h1 (sq_nonneg _)
  · rintro ρ ⟨q, d, e, hq, hd, he, hρ⟩
    refine hρ.nonneg h0 h1 (he.nonneg h0 h1 (div_nonneg (hd.nonneg h0 h1 (fun k hk => ?_) fun k _ => hg k) two_pos.le))
    obtain ⟨m, a, s, -, ha, hs, hv⟩ := hq k _ (List.getElem?_eq_getElem hk)
    have ha := ha.nonneg h0 h1 (sq_nonneg _)
    have hs := hs.nonneg h0 h1 ha
    split at hv
    · exact (Rel.of_fl h0 h1 hv).nonneg h0 h1 hs
    · obtain ⟨m', q', g, r2, k', t, -, hq', hg, hr2, hk, ht, hv⟩ := hv
      have hang : 0 ≤ angular os[k].sub := by cases os[k].sub <;> simp [angular]
      have p1 := hg.nonneg h0 h1 (mul_nonneg hang (hq'.nonneg h0 h1 (sq_nonneg _)))
      have p2 := hk.nonneg h0 h1 (div_nonneg p1 (hr2.nonneg h0 h1 (sq_nonneg _)))
      exact hv.nonneg h0 h1 ((Rel.of_fl h0 h1 ht).nonneg h0 h1 (by linarith))

/-- **C132** (integrals).  The computed spherical integral of the computed density on `N` ascending points differs from
the exact integral of the exact density by at most `2 (n + J + L) + K + N + 31` relative errors of the integral of the
density of the atom with the absolute values of the coefficients. -/
theorem C132_integral {u : ℝ} (h0 : 0 ≤ u) (hu : u ≤ 1 / 10) {A A' : SlaterAtom} {basis : Sub → List (ℝ × ℕ)}
    {c : Orb → List ℝ} {occ en : List ℝ} (h : IsSlater A basis c occ en)
    (h' : IsSlater A' basis (fun o => (c o).map abs) occ en) (ho : A'.orbitals = A.orbitals) (x : List ℝ)
    (hx : x.Pairwise (· ≤ ·)) {n J L : ℕ} (hR : ∀ r ∈ x, SlaterRange A.orbitals basis r n J L) :
    ∃ t R : List ℝ, ∃ I I' : ℝ, A.atomicDensity (ND.vec (fins x)) "total" = .ok (fins t) ∧
      A'.atomicDensity (ND.vec (fins x)) "total" = .ok (fins R) ∧
      integrateOn (.radial ⟨fins x⟩) true (fins t) = .ok (XR.fin I) ∧
      integrateOn (.radial ⟨fins x⟩) true (fins R) = .ok (XR.fin I') ∧
      ∀ ρ : ℕ → ℝ, (∀ i < x.length, RDensity u 0 A.orbitals basis c occ (vec x i) (ρ i)) → ∀ v,
        RIntegrate u 0 (.radial ⟨fins x⟩) true ρ v → 0 ≤ v ∧
        |v - I| ≤ (1 / (1 - u) ^ (2 * (n + J + L) + A.orbitals.length + x.length + 31) - 1) * I' := by
  have h1 : u < 1 := by linarith
  have hmem : ∀ i < x.length, vec x i ∈ x := fun i hi => by
    unfold vec
    rw [List.getD_eq_getElem _ _ hi]
    exact List.getElem_mem hi
  have hv : ∀ (g : ℝ → ℝ) (i : ℕ), i < x.length → vec (x.map g) i = g (vec x i) := by
    intro g i hi
    simp [vec, List.getD_eq_getElem?_getD, hi]
  obtain ⟨t, R, ht, hR', htl, hRl, hn⟩ : ∃ t R : List ℝ, A.atomicDensity (ND.vec (fins x)) "total" = .ok (fins t) ∧
      A'.atomicDensity (ND.vec (fins x)) "total" = .ok (fins R) ∧ t.length = x.length ∧ R.length = x.length ∧
      ∀ i < x.length, ∀ ρ, RDensity u 0 A.orbitals basis c occ (vec x i) ρ →
        NearBy u (2 * (n + J + L) + A.orbitals.length + 24) ρ (vec t i) (vec R i) := by
    refine ⟨_, _, atomicDensity_total h x, atomicDensity_total h' x, by simp, by simp, fun i hi ρ hρ => ?_⟩
    rw [hv _ i hi, hv _ i hi, ho]
    exact RDensity.near h0 hu h (hR _ (hmem i hi)) hρ
  have hq := quad_spherical x
  have hW := spherical_weights_nonneg hx
  have hb : ∀ l : List ℝ, l.length = x.length →
      integrateOn (.radial ⟨fins x⟩) true (fins l) = .ok (XR.fin (∑ i ∈ range x.length, vec (trapW x) i * (4 * π * vec x i ^ 2) * vec l i)) := by
    intro l hl
    have := hq.fin (vec l)
    rw [← hl, tab, ← eq_range_map l _ rfl] at this
    rw [← hl]
    exact this
  refine ⟨t, R, _, _, ht, hR', hb t htl, hb R hRl, fun ρ hρ v hv => ?_⟩
  have hpos : ∀ i < x.length, 0 ≤ ρ i := fun i hi => (C132_nonneg h0 h1 _ _ _ h.occ_nonneg _).1 _ (hρ i hi)
  have r := RIntegrate.rel h0 h1 (grid := .radial ⟨fins x⟩) ⟨x, rfl, hx⟩ (by simp [Grid.len, fins]) hq hv
    (fun i _ => Rel.refl h0 h1 (ρ i)) hpos
  refine ⟨r.nonneg h0 h1 (sum_nonneg fun i hi => mul_nonneg (hW i) (hpos i (mem_range.mp hi))), ?_⟩
  have hs := NearBy.sum h0 h1 (n := x.length) (a := fun i => vec (trapW x) i * (4 * π * vec x i ^ 2) * ρ i)
    (b := fun i => vec (trapW x) i * (4 * π * vec x i ^ 2) * vec t i)
    (B := fun i => vec (trapW x) i * (4 * π * vec x i ^ 2) * vec R i)
    (k := 2 * (n + J + L) + A.orbitals.length + 24) fun i hi => by
      have := (NearBy.refl h0 h1 (vec (trapW x) i * (4 * π * vec x i ^ 2))).mul h0 h1 (hn i hi (ρ i) (hρ i hi))
      rw [abs_of_nonneg (hW i), zero_add] at this
      exact this
  exact ((hs.rel_left h0 h1 r).mono h0 h1 (by omega) le_rfl).1

/-! ### Executions -/

theorem RDens.exact_wsum {u τ : ℝ} (h0 : 0 ≤ u) {α : Type} (l : List α) (f : α → ℝ) (c : List ℝ)
    (hc : c.length = l.length) {q : ℕ → ℝ} (hq : ∀ i a, l[i]? = some a → q i = f a) :
    RDens u τ l.length q (c.getD · 0) (wsum (l.map f) c) := by
  refine ⟨fun k => q k * c.getD k 0, fun k _ => Fu.refl h0 _, ?_⟩
  rw [wsum_eq_sum _ _ l.length (by simp) hc]
  have := RSum.exact h0 ((List.range l.length).map fun k => q k * c.getD k 0)
  rw [sum_tab_range] at this
  have e : ∑ k ∈ range l.length, q k * c.getD k 0 = ∑ k ∈ range l.length, (l.map f).getD k 0 * c.getD k 0 :=
    sum_congr rfl fun k hk => by
      have hk := mem_range.mp hk
      rw [hq k _ (List.getElem?_eq_getElem hk)]
      simp [List.getD_eq_getElem?_getD, hk]
  rwa [e] at this

theorem RSlater.exact {u τ : ℝ} (h0 : 0 ≤ u) (z : ℝ) (n : ℕ) (r : ℝ) : RSlater u τ z n r (slaterR z n r) :=
  ⟨2 * z, (2 * z) ^ n, (Nat.factorial (2 * n) : ℝ), 2 * z / (Nat.factorial (2 * n)),
    sqrt (2 * z / (Nat.factorial (2 * n))), (2 * z) ^ n * sqrt (2 * z / (Nat.factorial (2 * n))), r ^ (n - 1), -z * r,
    exp (-z * r), (2 * z) ^ n * sqrt (2 * z / (Nat.factorial (2 * n))) * r ^ (n - 1), Fu.refl h0 _, Fu.refl h0 _,
    Fl.refl h0 _, Fu.refl h0 _, Fu.refl h0 _, Fu.refl h0 _, Fu.refl h0 _, Fu.refl h0 _, Fu.refl h0 _, Fu.refl h0 _,
    Fu.refl h0 _⟩

theorem RSlaterDeriv.exact {u τ : ℝ} (h0 : 0 ≤ u) (z : ℝ) (n : ℕ) (r : ℝ) :
    RSlaterDeriv u τ z n r (cutD (slaterR' z n) r) := by
  unfold RSlaterDeriv cutD
  split
  · rfl
  · exact ⟨slaterR z n r, ((n : ℝ) - 1) / r, ((n : ℝ) - 1) / r - z, RSlater.exact h0 z n r, Fu.refl h0 _,
      Fl.refl h0 _, Fu.refl h0 _⟩

theorem ROrbDot.exact {u τ : ℝ} (h0 : 0 ≤ u) (bs : List (ℝ × ℕ)) (c : List ℝ) (hc : c.length = bs.length) (r : ℝ) :
    ROrbDot u τ false bs c r (orbR bs c r) ∧ ROrbDot u τ true bs c r (cutD (orbR' bs c) r) := by
  have hg : ∀ (k : ℕ) b, bs[k]? = some b → bs.getD k 0 = b := by
    intro k b hb
    simp [List.getD_eq_getElem?_getD, hb]
  constructor
  · refine ⟨fun k => slaterR (bs.getD k 0).1 (bs.getD k 0).2 r, fun k _ => ?_, ?_⟩
    · rw [if_neg (by simp)]
      exact RSlater.exact h0 _ _ _
    · exact RDens.exact_wsum h0 bs _ c hc fun i b hb => by rw [hg i b hb]
  · refine ⟨fun k => cutD (slaterR' (bs.getD k 0).1 (bs.getD k 0).2) r, fun k _ => ?_, ?_⟩
    · rw [if_pos rfl]
      exact RSlaterDeriv.exact h0 _ _ _
    · have := RDens.exact_wsum (τ := τ) h0 bs (fun b => cutD (slaterR' b.1 b.2) r) c hc
        (q := fun k => cutD (slaterR' (bs.getD k 0).1 (bs.getD k 0).2) r) fun i b hb => by rw [hg i b hb]
      have e : wsum (bs.map fun b => cutD (slaterR' b.1 b.2) r) c = cutD (orbR' bs c) r := by
        unfold cutD
        by_cases hr : |r| < 1e-10
        · simp only [if_pos hr, wsum_zero]
        · simp only [if_neg hr]
          rfl
      rwa [e] at this

/-- **C132** (exact arithmetic).  The values that the exact methods return are admissible for every accuracy. -/
theorem C132_exact {u τ : ℝ} (h0 : 0 ≤ u) {A : SlaterAtom} {basis : Sub → List (ℝ × ℕ)} {c : Orb → List ℝ}
    {occ en : List ℝ} (h : IsSlater A basis c occ en) (x : List ℝ) :
    ∃ t d k : List ℝ, A.atomicDensity (ND.vec (fins x)) "total" = .ok (fins t) ∧
      A.derivDensity (ND.vec (fins x)) = .ok (fins d) ∧ A.kinetic (ND.vec (fins x)) = .ok (fins k) ∧
      ∀ i < x.length, RDensity u τ A.orbitals basis c occ (vec x i) (vec t i) ∧
        RDerivDensity u τ A.orbitals basis c occ (vec x i) (vec d i) ∧
        RKinetic u τ A.orbitals basis c occ (vec x i) (vec k i) := by
  refine ⟨_, _, _, atomicDensity_total h x, derivDensity_fins h x, kinetic_fins h x, fun i hi => ?_⟩
  have hv : ∀ g : ℝ → ℝ, vec (x.map g) i = g (vec x i) := by
    intro g
    simp [vec, List.getD_eq_getElem?_getD, hi]
  rw [hv, hv, hv]
  generalize vec x i = r
  have hfp : ∀ y, RFourPi u τ y (y / (4 * π)) := fun y => ⟨π, 4 * π, Fl.refl h0 _, Fl.refl h0 _, Fu.refl h0 _⟩
  have ho : ∀ i o, A.orbitals[i]? = some o → A.orbitals.getD i ⟨0, .S⟩ = o := by
    intro i o hi
    simp [List.getD_eq_getElem?_getD, hi]
  have hd : ∀ o ∈ A.orbitals, _ := fun o hm => ROrbDot.exact (τ := τ) h0 (basis o.sub) (c o) (h.width o hm) r
  refine ⟨⟨fun i => let o := A.orbitals.getD i ⟨0, .S⟩; orbR (basis o.sub) (c o) r,
    fun i => let o := A.orbitals.getD i ⟨0, .S⟩; orbR (basis o.sub) (c o) r ^ 2, _, fun i o hi => ?_,
    RDens.exact_wsum h0 A.orbitals (fun o => orbR (basis o.sub) (c o) r ^ 2) occ h.occ_len
      (fun i o hi => by simp only [ho i o hi]), hfp _⟩,
    ⟨fun i => let o := A.orbitals.getD i ⟨0, .S⟩; orbR (basis o.sub) (c o) r,
    fun i => let o := A.orbitals.getD i ⟨0, .S⟩; cutD (orbR' (basis o.sub) (c o)) r,
    fun i => let o := A.orbitals.getD i ⟨0, .S⟩; orbR (basis o.sub) (c o) r * cutD (orbR' (basis o.sub) (c o)) r,
    fun i => let o := A.orbitals.getD i ⟨0, .S⟩;
      2 * (orbR (basis o.sub) (c o) r * cutD (orbR' (basis o.sub) (c o)) r), _, fun i o hi => ?_,
    RDens.exact_wsum h0 A.orbitals (fun o => 2 * (orbR (basis o.sub) (c o) r * cutD (orbR' (basis o.sub) (c o)) r)) occ
      h.occ_len (fun i o hi => by simp only [ho i o hi]), hfp _⟩,
    ⟨fun i => kinVal basis c (A.orbitals.getD i ⟨0, .S⟩) r, _, _, fun i o hi => ?_,
    RDens.exact_wsum h0 A.orbitals (fun o => kinVal basis c o r) occ h.occ_len
      (fun i o hi => by simp only [ho i o hi]), Fu.refl h0 _, hfp _⟩⟩
  · simp only [ho i o hi]
    exact ⟨⟨_, (hd o (List.mem_of_getElem? hi)).1, Fu.refl h0 _⟩, Fu.refl h0 _⟩
  · simp only [ho i o hi]
    exact ⟨⟨_, (hd o (List.mem_of_getElem? hi)).1, Fu.refl h0 _⟩, ⟨_, (hd o (List.mem_of_getElem? hi)).2, Fu.refl h0 _⟩,
      Fu.refl h0 _, Fu.refl h0 _⟩
  · simp only [ho i o hi]
    refine ⟨_, _, _, (hd o (List.mem_of_getElem? hi)).2, Fu.refl h0 _, Fu.refl h0 _, ?_⟩
    unfold kinVal cutD
    split
    · simpa using Fl.refl h0 (0 : ℝ)
    · exact ⟨_, _, _, _, _, _, (hd o (List.mem_of_getElem? hi)).1, Fu.refl h0 _, Fu.refl h0 _, Fu.refl h0 _, Fu.refl h0 _,
        Fl.refl h0 _, Fu.refl h0 _⟩

theorem heOuter_range : ∀ r ∈ ([0, 1, 2] : List ℝ), SlaterRange heOuter.orbitals (fun _ => [(1.4, 1), (2.5, 1)]) r 1 15 2 := by
  intro r hr
  simp only [List.mem_cons, List.not_mem_nil, or_false] at hr
  refine ⟨?_, by simp, by simp, ?_⟩
  · rcases hr with rfl | rfl | rfl <;> norm_num
  · intro o _ b hb
    simp only [List.mem_cons, List.not_mem_nil, or_false] at hb
    rcases hb with rfl | rfl <;> rcases hr with rfl | rfl | rfl <;> norm_num

/-- A helium-like atom in double precision: 61 roundings on three points, 71 for the integral. -/
example : ∃ t : List ℝ, ∃ I : ℝ, heOuter.atomicDensity (ND.vec (fins [0, 1, 2])) "total" = .ok (fins t) ∧
    integrateOn (.radial ⟨fins [0, 1, 2]⟩) true (fins t) = .ok (XR.fin I) ∧
    (∀ i < 3, ∀ ρ, RDensity (2⁻¹ ^ 53) 0 heOuter.orbitals (fun _ => [(1.4, 1), (2.5, 1)]) (fun _ => [0.8, 0.2]) [2]
      (vec [0, 1, 2] i) ρ → |ρ - vec t i| ≤ (1 / (1 - 2⁻¹ ^ 53) ^ 61 - 1) * vec t i) ∧
    ∀ ρ : ℕ → ℝ, (∀ i < 3, RDensity (2⁻¹ ^ 53) 0 heOuter.orbitals (fun _ => [(1.4, 1), (2.5, 1)]) (fun _ => [0.8, 0.2])
      [2] (vec [0, 1, 2] i) (ρ i)) → ∀ v, RIntegrate (2⁻¹ ^ 53) 0 (.radial ⟨fins [0, 1, 2]⟩) true ρ v →
      |v - I| ≤ (1 / (1 - 2⁻¹ ^ 53) ^ 71 - 1) * I := by
  have hI : IsSlater heOuter (fun _ => [(1.4, 1), (2.5, 1)]) (fun _ => [(0.8 : ℝ), 0.2].map abs) [2] [-0.9179555] := by
    have : ([(0.8 : ℝ), 0.2].map abs) = [0.8, 0.2] := by norm_num [abs_of_pos]
    rw [this]
    exact heOuter_isSlater
  obtain ⟨t, R, ht, hR, -, -, h1⟩ := C132_density (u := 2⁻¹ ^ 53) (by positivity) (by norm_num) heOuter_isSlater hI rfl
    [0, 1, 2] heOuter_range
  obtain ⟨t', R', I, I', ht', hR', hi, hi', h2⟩ := C132_integral (u := 2⁻¹ ^ 53) (by positivity) (by norm_num)
    heOuter_isSlater hI rfl [0, 1, 2] (by norm_num) heOuter_range
  have e : ∀ {a b : List ℝ}, heOuter.atomicDensity (ND.vec (fins [0, 1, 2])) "total" = .ok (fins a) →
      heOuter.atomicDensity (ND.vec (fins [0, 1, 2])) "total" = .ok (fins b) → a = b := by
    intro a b ha hb
    rw [ha] at hb
    injection hb with hb
    exact fins_injective hb
  obtain rfl := e ht hR
  obtain rfl := e ht ht'
  obtain rfl := e ht hR'
  have : I = I' := by
    rw [hi] at hi'
    injection hi' with hi'
    injection hi' with hi'
  subst this
  exact ⟨t, I, ht, hi, h1, fun ρ hρ v hv => (h2 ρ hρ v hv).2⟩

/-- Executions with rounding exist, for instance the exact one. -/
example : ∃ ρ, RDensity (2⁻¹ ^ 53) 0 heOuter.orbitals (fun _ => [(1.4, 1), (2.5, 1)]) (fun _ => [0.8, 0.2]) [2] 1 ρ ∧
    0 ≤ ρ := by
  obtain ⟨t, _, _, -, -, -, h⟩ := C132_exact (u := 2⁻¹ ^ 53) (τ := 0) (by positivity) heOuter_isSlater [1]
  have h := (h 0 (by simp)).1
  exact ⟨_, h, (C132_nonneg (by positivity) (by norm_num) _ _ _ (by norm_num) 1).1 _ h⟩

end
end BFit
