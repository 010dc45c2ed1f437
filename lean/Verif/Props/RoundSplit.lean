import Verif.Lemmas.RoundTop
import Verif.Props.RoundSlater

/-! Property C142: rounding errors and underflow of the total, valence and core densities. -/

namespace BFit

open Real Classical Finset

noncomputable section

/-- The factor `norm` of a Slater function (density.py:246). -/
def slaterN (z : ℝ) (n : ℕ) : ℝ := (2 * z) ^ n * sqrt (2 * z / (Nat.factorial (2 * n)))

/-- The Slater functions have exponents of at least 1/20 and numbers of at most 10. -/
def SlaterNormal (os : List Orb) (basis : Sub → List (ℝ × ℕ)) : Prop :=
  ∀ o ∈ os, ∀ b ∈ basis o.sub, 1 / 20 ≤ b.1 ∧ b.2 ≤ 10

/-- The size of the numbers in an orbital at the distance `r` is at most `P`. -/
def SlaterSize (os : List Orb) (basis : Sub → List (ℝ × ℕ)) (c : Orb → List ℝ) (r P : ℝ) : Prop :=
  ∀ o ∈ os, wsum ((basis o.sub).map fun b => slaterN b.1 b.2 * (r ^ (b.2 - 1) + 1) + 1) ((c o).map abs) ≤ P

theorem Fu.normal {u τ v x : ℝ} (h : Fu u τ v x) (hx : τ ≤ x) : Fl u v x := by
  rcases h with h | ⟨-, h, -⟩
  · exact h
  · exact absurd h (not_lt.mpr (hx.trans (le_abs_self x)))

section
variable {u τ : ℝ} (h0 : 0 ≤ u) (hu : u ≤ 1 / 10) (hτ : 0 ≤ τ) (hτ' : τ ≤ 1e-40)
include h0 hu hτ hτ'

omit hτ in
/-- The computed factor `norm`: nothing underflows. -/
theorem norm_rel {z : ℝ} {n : ℕ} (hz : 1 / 20 ≤ z) (hn : n ≤ 10) {a p f q s m : ℝ} (ha : Fu u τ a (2 * z))
    (hp : Fu u τ p (a ^ n)) (hf : Fl u f (Nat.factorial (2 * n))) (hq : Fu u τ q (a / f)) (hs : Fu u τ s (sqrt q))
    (hm : Fu u τ m (p * s)) : Rel u (n + 5) m (slaterN z n) := by
  have h1 : u < 1 := by linarith
  have ra := Rel.of_fl h0 h1 (ha.normal (by linarith))
  have ba := ra.bounds h0 h1 (by linarith)
  have a1 : 9 / 100 ≤ a := by nlinarith [ba.1, pow_one (1 - u)]
  have a2 : (9 / 100 : ℝ) ^ 10 ≤ a ^ n := by
    calc (9 / 100 : ℝ) ^ 10 ≤ (9 / 100) ^ n := pow_le_pow_of_le_one (by norm_num) (by norm_num) hn
      _ ≤ a ^ n := pow_le_pow_left₀ (by norm_num) a1 n
  have rp' := Rel.of_fl h0 h1 (hp.normal (by linarith [show (1e-40 : ℝ) ≤ (9 / 100) ^ 10 by norm_num]))
  have rp := rp'.trans h0 h1 (ra.pow h0 h1 n)
  have p1 : 9 / 10 * (9 / 100 : ℝ) ^ 10 ≤ p := by
    have := (rp'.bounds h0 h1 (by positivity)).1
    nlinarith [pow_one (1 - u)]
  have rf := Rel.of_fl h0 h1 hf
  have f0 : (0 : ℝ) < Nat.factorial (2 * n) := by exact_mod_cast Nat.factorial_pos _
  have f1 : (Nat.factorial (2 * n) : ℝ) ≤ 2432902008176640000 := by
    have : Nat.factorial (2 * n) ≤ Nat.factorial 20 := Nat.factorial_le (by omega)
    have e : Nat.factorial 20 = 2432902008176640000 := by decide
    rw [e] at this
    exact_mod_cast this
  have fp := rf.pos h0 h1 f0
  have f2 : f ≤ 10 / 9 * 2432902008176640000 := by
    have := (rf.bounds h0 h1 f0.le).2
    nlinarith [pow_one (1 - u)]
  have q1 : 1e-20 ≤ a / f := by
    rw [le_div_iff₀ fp]
    norm_num at f2 ⊢
    linarith
  have rq' := Rel.of_fl h0 h1 (hq.normal (by norm_num at hτ' q1 ⊢; linarith))
  have q2 : 9e-21 ≤ q := by
    have := (rq'.bounds h0 h1 (by linarith [show (0 : ℝ) ≤ 1e-20 by norm_num])).1
    norm_num at q1 ⊢
    nlinarith [pow_one (1 - u)]
  have rq := rq'.trans h0 h1 (ra.div h0 h1 rf)
  have s1 : 1e-11 ≤ sqrt q := by
    apply le_sqrt_of_sq_le
    norm_num at q2 ⊢
    linarith
  have rs' := Rel.of_fl h0 h1 (hs.normal (by norm_num at hτ' s1 ⊢; linarith))
  have s2 : 9e-12 ≤ s := by
    have := (rs'.bounds h0 h1 (sqrt_nonneg q)).1
    norm_num at s1 ⊢
    nlinarith [pow_one (1 - u)]
  have rs := rq.rpow h0 h1 (p := 1 / 2) (l := 2) (by positivity) (by norm_num) (by norm_num)
  rw [← sqrt_eq_rpow, ← sqrt_eq_rpow] at rs
  have rs := rs'.trans h0 h1 rs
  have ps : 1e-40 ≤ p * s := by
    have := mul_le_mul p1 s2 (by norm_num) (by linarith [show (0 : ℝ) ≤ 9 / 10 * (9 / 100) ^ 10 by norm_num])
    norm_num at this ⊢
    linarith
  have rm := (Rel.of_fl h0 h1 (hm.normal (hτ'.trans ps))).trans h0 h1 (rp.mul h0 h1 rs)
  exact rm.mono h0 h1 (by omega)

/-- The value of a Slater function with underflow. -/
theorem RSlater.nearTop {z : ℝ} {n : ℕ} {r v : ℝ} (hz : 1 / 20 ≤ z) (hn : n ≤ 10) (hr : 0 ≤ r)
    (h : RSlater u τ z n r v) {J : ℕ} (hJ : 3 * (z * r) ≤ J) :
    NearTop u (n + J + 10) v (slaterR z n r) (slaterR z n r)
      (slaterR z n r + 3 * (u * τ) * (slaterN z n * (r ^ (n - 1) + 1) + 1)) := by
  have h1 : u < 1 := by linarith
  obtain ⟨a, p, f, q, s, m, w, x, E, t, ha, hp, hf, hq, hs, hm, hw, hx, hE, ht, hv⟩ := h
  have hN : 0 ≤ slaterN z n := by unfold slaterN; positivity
  have rm := NearTop.of_near (NearBy.of_rel h0 h1 (norm_rel h0 hu hτ' hz hn ha hp hf hq hs hm))
  have rw' := (NearTop.of_near (NearBy.refl h0 h1 (r ^ (n - 1)))).fu h0 h1 hτ hw
  have rt := (rm.mul rw').fu h0 h1 hτ ht
  have re : Rel u (J + 1) (exp x) (exp (-(z * r))) := by
    rcases hx with hx | ⟨-, -, hx, -⟩
    · have rx : Rel u 2 (-x) (z * r) := by
        obtain ⟨t, ht, ht', hat⟩ := (Rel.of_fl h0 h1 hx).mono h0 h1 (l := 2) (by omega)
        exact ⟨t, ht, ht', by rw [hat]; ring⟩
      have re := rx.exp_neg h0 h1 hu (by positivity) hJ
      rw [neg_neg] at re
      exact re.mono h0 h1 (by omega)
    · have hd : |x - -z * r| ≤ u := hx.trans (by
        have := mul_le_mul_of_nonneg_left (hτ'.trans (by norm_num : (1e-40 : ℝ) ≤ 1)) h0
        linarith)
      rw [abs_le] at hd
      have e2 : 1 - u ≤ exp (-u) := by have := add_one_le_exp (-u); linarith
      have : Rel u 1 (exp x) (exp (-(z * r))) := by
        refine ⟨exp (x + z * r), ?_, ?_, by rw [← exp_add]; congr 1; ring⟩
        · rw [pow_one]
          exact e2.trans (exp_le_exp.mpr (by linarith))
        · rw [pow_one]
          calc exp (x + z * r) * (1 - u) ≤ exp (x + z * r) * exp (-u) := mul_le_mul_of_nonneg_left e2 (exp_pos _).le
            _ = exp (x + z * r - u) := by rw [← exp_add]; rfl
            _ ≤ 1 := exp_le_one_iff.mpr (by linarith)
      exact this.mono h0 h1 (by omega)
  have re := (NearTop.of_near (NearBy.of_rel h0 h1 re)).fu h0 h1 hτ hE
  have rv := (rt.mul re).fu h0 h1 hτ hv
  rw [abs_of_nonneg hN, abs_of_nonneg (pow_nonneg hr _), abs_of_pos (exp_pos _)] at rv
  have e : slaterN z n * r ^ (n - 1) * exp (-(z * r)) = slaterR z n r := by
    unfold slaterR slaterN
    rw [neg_mul]
  rw [← e] at *
  refine rv.mono h0 h1 (by omega) ?_
  have hw0 : 0 ≤ r ^ (n - 1) := pow_nonneg hr _
  have hE1 : exp (-(z * r)) ≤ 1 := exp_le_one_iff.mpr (by nlinarith)
  have hE0 := (exp_pos (-(z * r))).le
  have hε0 : 0 ≤ u * τ := mul_nonneg h0 hτ
  have hε1 : u * τ ≤ 1 := by
    have := mul_le_mul hu (hτ'.trans (by norm_num : (1e-40 : ℝ) ≤ 1)) hτ (by norm_num)
    linarith
  generalize u * τ = ε at *
  generalize exp (-(z * r)) = X at *
  generalize slaterN z n = N at *
  generalize r ^ (n - 1) = W at *
  have k1 : (N + 1) * ε * (X + ε) ≤ (N + 1) * ε * 2 := mul_le_mul_of_nonneg_left (by linarith) (by positivity)
  have k2 : 0 ≤ ε * (N * W) := by positivity
  nlinarith

theorem ROrbDot.nearTop {os : List Orb} {basis : Sub → List (ℝ × ℕ)} {c : Orb → List ℝ} {r m P : ℝ} {n J L : ℕ}
    (hw : ∀ o ∈ os, (c o).length = (basis o.sub).length) (hR : SlaterRange os basis r n J L) (hN : SlaterNormal os basis)
    (hS : SlaterSize os basis c r P) {o : Orb} (ho : o ∈ os) (hm : ROrbDot u τ false (basis o.sub) (c o) r m) :
    NearTop u (n + J + L + 10) m (orbR (basis o.sub) (c o) r) (orbR (basis o.sub) ((c o).map abs) r)
      (orbR (basis o.sub) ((c o).map abs) r + u * τ * (3 * P + L)) := by
  have h1 : u < 1 := by linarith
  obtain ⟨s, hs, hm⟩ := hm
  have hl := hw o ho
  have hg : ∀ (g : ℝ × ℕ → ℝ) i, i < (basis o.sub).length →
      ((basis o.sub).map g).getD i 0 = g ((basis o.sub).getD i 0) := by
    intro g i hi
    simp [List.getD_eq_getElem?_getD, hi]
  have ec : ∀ k, ((c o).map abs).getD k 0 = |(c o).getD k 0| := by
    intro k
    rw [List.getD_eq_getElem?_getD, List.getD_eq_getElem?_getD, List.getElem?_map]
    cases (c o)[k]? <;> simp
  have hmem : ∀ i < (basis o.sub).length, (basis o.sub).getD i 0 ∈ basis o.sub := fun i hi => by
    rw [List.getD_eq_getElem _ _ hi]
    exact List.getElem_mem hi
  have key := RDens.nearTop h0 h1 hτ hm (j := n + J + 10) (l := 0)
    (ψ := fun k => slaterR ((basis o.sub).getD k 0).1 ((basis o.sub).getD k 0).2 r)
    (B := fun k => slaterR ((basis o.sub).getD k 0).1 ((basis o.sub).getD k 0).2 r)
    (T := fun k => let b := (basis o.sub).getD k 0
      slaterR b.1 b.2 r + 3 * (u * τ) * (slaterN b.1 b.2 * (r ^ (b.2 - 1) + 1) + 1))
    (d := ((c o).getD · 0)) (D := fun k => |(c o).getD k 0|) (U := fun k => |(c o).getD k 0|)
    (fun k hk => by
      have := hs k hk
      simp only [Bool.false_eq_true, if_false] at this
      have hb := hN o ho _ (hmem k hk)
      exact (this.nearTop h0 hu hτ hτ' hb.1 hb.2 hR.nonneg (hR.arg o ho _ (hmem k hk))).mono h0 h1
        (by have := hR.num o ho _ (hmem k hk); omega) le_rfl)
    (fun k _ => NearTop.of_near (NearBy.refl h0 h1 _))
  have e1 : ∀ c' : List ℝ, c'.length = (basis o.sub).length → orbR (basis o.sub) c' r =
      ∑ k ∈ range (basis o.sub).length,
        slaterR ((basis o.sub).getD k 0).1 ((basis o.sub).getD k 0).2 r * c'.getD k 0 := by
    intro c' hc'
    unfold orbR
    rw [wsum_eq_sum _ _ (basis o.sub).length (by simp) hc']
    exact sum_congr rfl fun k hk => by rw [hg _ k (mem_range.mp hk)]
  have hP := hS o ho
  rw [wsum_eq_sum _ _ (basis o.sub).length (by simp) (by simpa using hl)] at hP
  rw [e1 _ hl, e1 _ (by simpa using hl)]
  simp only [ec] at *
  refine key.mono h0 h1 (by have := hR.len o ho; omega) ?_
  have hε0 : 0 ≤ u * τ := mul_nonneg h0 hτ
  have hL : ((basis o.sub).length : ℝ) ≤ L := by exact_mod_cast hR.len o ho
  have e3 : ∑ k ∈ range (basis o.sub).length, ((slaterR ((basis o.sub).getD k 0).1 ((basis o.sub).getD k 0).2 r +
      3 * (u * τ) * (slaterN ((basis o.sub).getD k 0).1 ((basis o.sub).getD k 0).2 *
        (r ^ (((basis o.sub).getD k 0).2 - 1) + 1) + 1)) * |(c o).getD k 0| + u * τ) =
      ∑ k ∈ range (basis o.sub).length, slaterR ((basis o.sub).getD k 0).1 ((basis o.sub).getD k 0).2 r *
        |(c o).getD k 0| + 3 * (u * τ) * ∑ k ∈ range (basis o.sub).length,
          ((basis o.sub).map fun b => slaterN b.1 b.2 * (r ^ (b.2 - 1) + 1) + 1).getD k 0 * |(c o).getD k 0| +
      (basis o.sub).length * (u * τ) := by
    rw [sum_add_distrib, sum_const, card_range, nsmul_eq_mul, mul_sum, ← sum_add_distrib]
    congr 1
    exact sum_congr rfl fun k hk => by rw [hg _ k (mem_range.mp hk)]; ring
  rw [e3]
  have := mul_le_mul_of_nonneg_left hP hε0
  have := mul_le_mul_of_nonneg_left hL hε0
  nlinarith

omit h0 hu hτ hτ' in
theorem orbR_abs_le {os : List Orb} {basis : Sub → List (ℝ × ℕ)} {c : Orb → List ℝ} {r P : ℝ} {n J L : ℕ}
    (hR : SlaterRange os basis r n J L) (hN : SlaterNormal os basis) (hS : SlaterSize os basis c r P) {o : Orb}
    (ho : o ∈ os) : 0 ≤ orbR (basis o.sub) ((c o).map abs) r ∧ orbR (basis o.sub) ((c o).map abs) r ≤ P := by
  have hr := hR.nonneg
  have hle := hS o ho
  have h1 : ∀ b ∈ basis o.sub, 0 ≤ slaterR b.1 b.2 r ∧
      slaterR b.1 b.2 r ≤ slaterN b.1 b.2 * (r ^ (b.2 - 1) + 1) + 1 := by
    intro b hb
    have hz := (hN o ho b hb).1
    have hN0 : 0 ≤ slaterN b.1 b.2 := by unfold slaterN; positivity
    have e : slaterR b.1 b.2 r = slaterN b.1 b.2 * r ^ (b.2 - 1) * exp (-b.1 * r) := rfl
    have hE : exp (-b.1 * r) ≤ 1 := exp_le_one_iff.mpr (by nlinarith)
    have hw : 0 ≤ slaterN b.1 b.2 * r ^ (b.2 - 1) := by positivity
    rw [e]
    exact ⟨by positivity, by nlinarith [exp_pos (-b.1 * r)]⟩
  unfold orbR
  generalize basis o.sub = bs at *
  generalize c o = cs at *
  have key : 0 ≤ wsum (bs.map fun b => slaterR b.1 b.2 r) (cs.map abs) ∧
      wsum (bs.map fun b => slaterR b.1 b.2 r) (cs.map abs) ≤
        wsum (bs.map fun b => slaterN b.1 b.2 * (r ^ (b.2 - 1) + 1) + 1) (cs.map abs) := by
    clear hle
    induction bs generalizing cs with
    | nil => simp
    | cons b bs ih =>
      cases cs with
      | nil => simp
      | cons a cs =>
        have := ih (fun b hb => h1 b (by simp [hb])) cs
        have hb := h1 b (by simp)
        simp only [List.map_cons, wsum_cons]
        have k1 := mul_nonneg hb.1 (abs_nonneg a)
        have k2 := mul_le_mul_of_nonneg_right hb.2 (abs_nonneg a)
        exact ⟨by linarith, by linarith⟩
  exact ⟨key.1, key.2.trans hle⟩

/-- The density for computed weights of the orbitals. -/
theorem RDensity.nearTop {os : List Orb} {basis : Sub → List (ℝ × ℕ)} {c : Orb → List ℝ} {r ρ P : ℝ} {n J L l : ℕ}
    (hw : ∀ o ∈ os, (c o).length = (basis o.sub).length) (hR : SlaterRange os basis r n J L) (hN : SlaterNormal os basis)
    (hS : SlaterSize os basis c r P) {w W occ : List ℝ} (hW : W.length = os.length) (hocc : occ.length = os.length)
    (ho : ∀ x ∈ occ, 0 ≤ x)
    (hn : ∀ i < os.length, NearTop u l (w.getD i 0) (W.getD i 0) (occ.getD i 0) (occ.getD i 0 + u * τ))
    (hρ : RDensity u τ os basis c w r ρ) :
    |ρ - densR os basis c W r| ≤ (1 / (1 - u) ^ (2 * (n + J + L) + os.length + l + 26) - 1) *
        densR os basis (fun o => (c o).map abs) occ r +
      1 / (1 - u) ^ (2 * (n + J + L) + os.length + l + 26) *
        (u * τ * (((4 * P + L + 1) ^ 2 + 2) * (occ.sum + os.length) + 1)) := by
  have h1 : u < 1 := by linarith
  have hε0 : 0 ≤ u * τ := mul_nonneg h0 hτ
  have hε1 : u * τ ≤ 1 := by
    have := mul_le_mul hu (hτ'.trans (by norm_num : (1e-40 : ℝ) ≤ 1)) hτ (by norm_num)
    linarith
  obtain ⟨φ, q, d, hφ, hd, p, f, hp, hf, hρ⟩ := hρ
  have hg : ∀ (g : Orb → ℝ) i, i < os.length → (os.map g).getD i 0 = g (os.getD i ⟨0, .S⟩) := by
    intro g i hi
    simp [List.getD_eq_getElem?_getD, hi]
  have hi : ∀ i < os.length, os[i]? = some (os.getD i ⟨0, .S⟩) := fun i hi => by
    simp [List.getD_eq_getElem?_getD, hi]
  set a : ℕ → ℝ := fun i => orbR (basis (os.getD i ⟨0, .S⟩).sub) (c (os.getD i ⟨0, .S⟩)) r with ha
  set B : ℕ → ℝ := fun i => orbR (basis (os.getD i ⟨0, .S⟩).sub) ((c (os.getD i ⟨0, .S⟩)).map abs) r with hB
  have key := RDens.nearTop h0 h1 hτ hd (j := 2 * (n + J + L + 11) + 1) (l := l) (ψ := fun i => a i ^ 2)
    (B := fun i => B i ^ 2) (T := fun i => (B i + u * τ * (3 * P + L) + u * τ) ^ 2 + u * τ) (d := (W.getD · 0))
    (D := (occ.getD · 0)) (U := fun i => occ.getD i 0 + u * τ) (fun i hlt => by
      obtain ⟨⟨m, hm, hs⟩, hq⟩ := hφ i _ (hi i hlt)
      have hmem := List.mem_of_getElem? (hi i hlt)
      exact (((hm.nearTop h0 hu hτ hτ' hw hR hN hS hmem).fu h0 h1 hτ hs).sq).fu h0 h1 hτ hq) hn
  have r4 := (Rel.of_fl h0 h1 hf).trans h0 h1 ((Rel.refl h0 h1 4).mul h0 h1 (Rel.of_fl h0 h1 hp))
  have key := ((key.div_rel h0 h1 r4).fu h0 h1 hτ hρ)
  rw [abs_of_pos (by positivity)] at key
  have e : ∀ (g : Orb → List ℝ) (w' : List ℝ), w'.length = os.length → densR os basis g w' r =
      (∑ i ∈ range os.length, orbR (basis (os.getD i ⟨0, .S⟩).sub) (g (os.getD i ⟨0, .S⟩)) r ^ 2 * w'.getD i 0) /
        (4 * π) := by
    intro g w' hw'
    unfold densR
    rw [wsum_eq_sum _ _ os.length (by simp) hw']
    congr 1
    exact sum_congr rfl fun k hk => by rw [hg _ k (mem_range.mp hk)]
  rw [e c W hW, e _ occ hocc]
  set R := (∑ i ∈ range os.length, B i ^ 2 * occ.getD i 0) / (4 * π) with hRR
  have hsum : ∑ i ∈ range os.length, occ.getD i 0 = occ.sum := by
    rw [← hocc, ← sum_tab_range]
    congr 1
    exact (eq_range_map occ _ rfl).symm
  have hslack : (∑ i ∈ range os.length, (((B i + u * τ * (3 * P + L) + u * τ) ^ 2 + u * τ) * (occ.getD i 0 + u * τ) +
      u * τ)) / (4 * π) + u * τ ≤ R + u * τ * (((4 * P + L + 1) ^ 2 + 2) * (occ.sum + os.length) + 1) := by
    have hterm : ∀ i ∈ range os.length, ((B i + u * τ * (3 * P + L) + u * τ) ^ 2 + u * τ) * (occ.getD i 0 + u * τ) +
        u * τ ≤ B i ^ 2 * occ.getD i 0 + u * τ * (((4 * P + L + 1) ^ 2 + 2) * (occ.getD i 0 + 1)) := by
      intro i hlt
      have hlt := mem_range.mp hlt
      have hmem := List.mem_of_getElem? (hi i hlt)
      obtain ⟨b0, b1⟩ := orbR_abs_le hR hN hS hmem
      have q0 : 0 ≤ occ.getD i 0 := getD_nonneg ho i
      have hL0 : (0 : ℝ) ≤ L := by positivity
      change 0 ≤ B i at b0
      change B i ≤ P at b1
      generalize B i = b at *
      generalize occ.getD i 0 = q' at *
      generalize u * τ = ε at *
      have hX : ∃ X, X = 3 * P + L + 1 ∧ 0 ≤ X := ⟨_, rfl, by linarith⟩
      obtain ⟨X, hX, hX0⟩ := hX
      rw [show b + ε * (3 * P + L) + ε = b + ε * X by rw [hX]; ring, show 4 * P + (L : ℝ) + 1 = P + X by rw [hX]; ring]
      have hP0 : 0 ≤ P := b0.trans b1
      have k1 : 2 * b * ε * X + ε ^ 2 * X ^ 2 + ε ≤ ε * (2 * P * X + X ^ 2 + 1) := by
        have : ε ^ 2 * X ^ 2 ≤ ε * X ^ 2 := by
          apply mul_le_mul_of_nonneg_right _ (sq_nonneg X)
          nlinarith
        have : b * (ε * X) ≤ P * (ε * X) := mul_le_mul_of_nonneg_right b1 (by positivity)
        linarith
      have k2 : (2 * b * ε * X + ε ^ 2 * X ^ 2 + ε) * (q' + ε) ≤ ε * (2 * P * X + X ^ 2 + 1) * (q' + 1) :=
        mul_le_mul k1 (by linarith) (by linarith) (by positivity)
      have k3 : ε * b ^ 2 ≤ ε * P ^ 2 := mul_le_mul_of_nonneg_left (pow_le_pow_left₀ b0 b1 2) hε0
      have k4 : 0 ≤ ε * (P ^ 2 + 1) * q' := by positivity
      nlinarith
    have hsl : ∑ i ∈ range os.length, u * τ * (((4 * P + L + 1) ^ 2 + 2) * (occ.getD i 0 + 1)) =
        u * τ * (((4 * P + L + 1) ^ 2 + 2) * (occ.sum + os.length)) := by
      rw [← mul_sum, ← mul_sum, sum_add_distrib, hsum]
      simp
    have h2 := (sum_le_sum hterm).trans_eq (sum_add_distrib.trans (congrArg _ hsl))
    have hpi : 1 ≤ 4 * π := by linarith [two_le_pi]
    have hocc0 : 0 ≤ occ.sum := List.sum_nonneg ho
    have hs0 : 0 ≤ u * τ * (((4 * P + L + 1) ^ 2 + 2) * (occ.sum + os.length)) := by positivity
    have h3 := div_le_div_of_nonneg_right h2 (by linarith : (0 : ℝ) ≤ 4 * π)
    rw [add_div] at h3
    have h4 := div_le_self hs0 hpi
    linarith
  have key := key.mono h0 h1 (l := 2 * (n + J + L) + os.length + l + 26) (by omega) hslack
  refine key.2.2.trans (le_of_eq ?_)
  ring

/-- The weights of the valence and core density. -/
theorem RWeight.nearTop {core : Bool} {n e h E w : ℝ} (hn : 0 ≤ n) (hw : RWeight u τ core n e h E w) :
    NearTop u 7 w (n * (if core then 1 - exp (-(e - h) ^ 2) else exp (-(e - h) ^ 2))) n (n + u * τ) := by
  have h1 : u < 1 := by linarith
  have hτ1 : τ ≤ 1 := hτ'.trans (by norm_num)
  have hut : u * τ ≤ u := by nlinarith
  obtain ⟨d, s, hd, hs, hE, hw⟩ := hw
  have rd := (Rel.of_fl h0 h1 hd).pow h0 h1 2
  have hs0 : 0 ≤ s := hs.nonneg h0 h1 (sq_nonneg d)
  have b1 : |exp (-s) - exp (-(e - h) ^ 2)| ≤ 1 / (1 - u) ^ 3 - 1 := by
    rcases hs with hs | ⟨-, -, hs, -⟩
    · have := ((Rel.of_fl h0 h1 hs).trans h0 h1 rd).exp_neg_abs h0 h1 (sq_nonneg _)
      simpa using this
    · have k1 := exp_neg_lipschitz hs0 (sq_nonneg d)
      have k2 := rd.exp_neg_abs h0 h1 (sq_nonneg _)
      have k3 := one_div_pow_add h0 h1 2
      have k4 := abs_sub_le (exp (-s)) (exp (-d ^ 2)) (exp (-(e - h) ^ 2))
      norm_num at k2 k3 k4 ⊢
      linarith
  have b2 : |E - exp (-s)| ≤ u := by
    rcases hE with hE | ⟨-, -, hE, -⟩
    · refine hE.trans ?_
      rw [abs_of_pos (exp_pos _)]
      have : exp (-s) ≤ 1 := exp_le_one_iff.mpr (by linarith)
      nlinarith
    · exact hE.trans hut
  have hG0 := (exp_pos (-(e - h) ^ 2)).le
  have hG1 : exp (-(e - h) ^ 2) ≤ 1 := exp_le_one_iff.mpr (by nlinarith [sq_nonneg (e - h)])
  have nE : NearBy u 4 E (exp (-(e - h) ^ 2)) 1 := by
    refine ⟨?_, by rw [abs_of_nonneg hG0]; exact hG1⟩
    have k3 := one_div_pow_add h0 h1 3
    have k4 := abs_sub_le E (exp (-s)) (exp (-(e - h) ^ 2))
    rw [mul_one]
    exact (k4.trans (add_le_add b2 b1)).trans (by linarith)
  have nn : NearBy u 0 n n n := by
    have := NearBy.refl h0 h1 n
    rwa [abs_of_nonneg hn] at this
  cases core with
  | false =>
    simp only [Bool.false_eq_true, if_false] at hw ⊢
    have := (NearTop.of_near (nn.mul h0 h1 nE)).fu h0 h1 hτ hw
    rw [mul_one] at this
    exact this.mono h0 h1 (by omega) le_rfl
  | true =>
    simp only [if_true] at hw ⊢
    obtain ⟨g, hg, hw⟩ := hw
    have ng : NearBy u 4 (1 - E) (1 - exp (-(e - h) ^ 2)) 1 := by
      refine ⟨?_, by rw [abs_of_nonneg (by linarith)]; linarith⟩
      rw [show 1 - E - (1 - exp (-(e - h) ^ 2)) = -(E - exp (-(e - h) ^ 2)) by ring, abs_neg]
      exact nE.1
    have := (NearTop.of_near (nn.mul h0 h1 (ng.fl h0 h1 hg))).fu h0 h1 hτ hw
    rw [mul_one] at this
    exact this.mono h0 h1 (by omega) le_rfl

end

/-- The absolute error by underflow in units of `u τ`: for orbitals of at most `L` functions and the size `P`, `K` orbitals
and `Q` electrons. -/
def underSlack (P Q : ℝ) (L K : ℕ) : ℝ := ((4 * P + L + 1) ^ 2 + 2) * (Q + K) + 1

theorem vec_mem {x : List ℝ} {i : ℕ} (hi : i < x.length) : vec x i ∈ x := by
  unfold vec
  rw [List.getD_eq_getElem _ _ hi]
  exact List.getElem_mem hi

theorem vec_map {x : List ℝ} (g : ℝ → ℝ) {i : ℕ} (hi : i < x.length) : vec (x.map g) i = g (vec x i) := by
  simp [vec, List.getD_eq_getElem?_getD, hi]

/-- **C142** (total density with underflow).  The computed total density differs from the exact one by at most
`2 (n + J + L) + K + 26` relative errors of the density of the atom with the absolute values of the coefficients and an
absolute error of `u τ` times a factor that depends on sizes only. -/
theorem C142_total {u τ : ℝ} (h0 : 0 ≤ u) (hu : u ≤ 1 / 10) (hτ : 0 ≤ τ) (hτ' : τ ≤ 1e-40) {A A' : SlaterAtom}
    {basis : Sub → List (ℝ × ℕ)} {c : Orb → List ℝ} {occ en : List ℝ} (h : IsSlater A basis c occ en)
    (h' : IsSlater A' basis (fun o => (c o).map abs) occ en) (ho : A'.orbitals = A.orbitals)
    (hN : SlaterNormal A.orbitals basis) (x : List ℝ) {n J L : ℕ} {P : ℝ}
    (hR : ∀ r ∈ x, SlaterRange A.orbitals basis r n J L) (hS : ∀ r ∈ x, SlaterSize A.orbitals basis c r P) :
    ∃ t R : List ℝ, A.atomicDensity (ND.vec (fins x)) "total" = .ok (fins t) ∧
      A'.atomicDensity (ND.vec (fins x)) "total" = .ok (fins R) ∧ t.length = x.length ∧ R.length = x.length ∧
      ∀ i < x.length, ∀ ρ, RDensity u τ A.orbitals basis c occ (vec x i) ρ →
        |ρ - vec t i| ≤ (1 / (1 - u) ^ (2 * (n + J + L) + A.orbitals.length + 26) - 1) * vec R i +
          1 / (1 - u) ^ (2 * (n + J + L) + A.orbitals.length + 26) *
            (u * τ * underSlack P occ.sum L A.orbitals.length) := by
  refine ⟨_, _, atomicDensity_total h x, atomicDensity_total h' x, by simp, by simp, fun i hi ρ hρ => ?_⟩
  rw [vec_map _ hi, vec_map _ hi, ho]
  have hm := vec_mem hi
  have h1 : u < 1 := by linarith
  exact RDensity.nearTop h0 hu hτ hτ' h.width (hR _ hm) hN (hS _ hm) h.occ_len h.occ_len h.occ_nonneg (l := 0)
    (fun k _ => by
      have hk := getD_nonneg h.occ_nonneg k
      have := NearTop.of_near (NearBy.refl h0 h1 (occ.getD k 0))
      rw [abs_of_nonneg hk] at this
      exact this.mono h0 h1 le_rfl (by have := mul_nonneg h0 hτ; linarith)) hρ

theorem lastEn_getD {occ en : List ℝ} (h : occ.length = en.length) :
    en.getD (occ.length - 1) 0 = lastEn en := by
  rw [lastEn, List.getLastD_eq_getLast?, List.getLast?_eq_getElem?, h, List.getD_eq_getElem?_getD]

theorem valW_getD (core : Bool) (h : ℝ) {occ en : List ℝ} (hl : occ.length = en.length) {i : ℕ} (hi : i < occ.length) :
    (valW core h occ en).getD i 0 = occ.getD i 0 *
      (if core then 1 - exp (-(en.getD i 0 - h) ^ 2) else exp (-(en.getD i 0 - h) ^ 2)) := by
  have hi' : i < en.length := by omega
  unfold valW
  rw [List.getD_eq_getElem _ _ (by simp; omega), List.getElem_zipWith, List.getD_eq_getElem _ _ hi,
    List.getD_eq_getElem _ _ hi']

/-- **C142** (valence and core densities).  The computed valence and core densities differ from the exact ones by at most
`2 (n + J + L) + K + 33` relative errors of the *total* density of the atom with the absolute values of the coefficients
and the same absolute error.  There is no condition on the energies: the exponentials in the weights may underflow and
`1 - exp` may cancel. -/
theorem C142_split {u τ : ℝ} (h0 : 0 ≤ u) (hu : u ≤ 1 / 10) (hτ : 0 ≤ τ) (hτ' : τ ≤ 1e-40) {A A' : SlaterAtom}
    {basis : Sub → List (ℝ × ℕ)} {c : Orb → List ℝ} {occ en : List ℝ} (h : IsSlater A basis c occ en)
    (h' : IsSlater A' basis (fun o => (c o).map abs) occ en) (ho : A'.orbitals = A.orbitals) (hne : A.orbitals ≠ [])
    (hN : SlaterNormal A.orbitals basis) (x : List ℝ) {n J L : ℕ} {P : ℝ}
    (hR : ∀ r ∈ x, SlaterRange A.orbitals basis r n J L) (hS : ∀ r ∈ x, SlaterSize A.orbitals basis c r P)
    (core : Bool) :
    ∃ t R : List ℝ, A.atomicDensity (ND.vec (fins x)) (if core then "core" else "valence") = .ok (fins t) ∧
      A'.atomicDensity (ND.vec (fins x)) "total" = .ok (fins R) ∧ t.length = x.length ∧ R.length = x.length ∧
      ∀ i < x.length, ∀ E ρ, RSplit u τ core A.orbitals basis c occ en E (vec x i) ρ →
        |ρ - vec t i| ≤ (1 / (1 - u) ^ (2 * (n + J + L) + A.orbitals.length + 33) - 1) * vec R i +
          1 / (1 - u) ^ (2 * (n + J + L) + A.orbitals.length + 33) *
            (u * τ * underSlack P occ.sum L A.orbitals.length) := by
  have hd : A.atomicDensity (ND.vec (fins x)) (if core then "core" else "valence") =
      .ok (fins (x.map (densR A.orbitals basis c (valW core (lastEn en) occ en)))) := by
    cases core
    · exact atomicDensity_valence h hne x
    · exact atomicDensity_core h hne x
  have hl : occ.length = en.length := by rw [h.occ_len, h.en_len]
  refine ⟨_, _, hd, atomicDensity_total h' x, by simp, by simp, fun i hi E ρ hρ => ?_⟩
  rw [vec_map _ hi, vec_map _ hi, ho]
  have hm := vec_mem hi
  obtain ⟨w, -, hw, hρ⟩ := hρ
  refine RDensity.nearTop h0 hu hτ hτ' h.width (hR _ hm) hN (hS _ hm)
    (valW_length core (lastEn en) occ en _ h.occ_len h.en_len) h.occ_len h.occ_nonneg (l := 7) (fun k hk => ?_) hρ
  have := (hw k hk).nearTop h0 hu hτ hτ' (getD_nonneg h.occ_nonneg k)
  rw [lastEn_getD hl] at this
  rw [valW_getD core _ hl (by rw [h.occ_len]; exact hk)]
  exact this

/-- **C142** (sum).  The computed valence and core densities add up to the computed total density up to three such
errors; the three computations may round differently. -/
theorem C142_sum {u τ : ℝ} (h0 : 0 ≤ u) (hu : u ≤ 1 / 10) (hτ : 0 ≤ τ) (hτ' : τ ≤ 1e-40) {A A' : SlaterAtom}
    {basis : Sub → List (ℝ × ℕ)} {c : Orb → List ℝ} {occ en : List ℝ} (h : IsSlater A basis c occ en)
    (h' : IsSlater A' basis (fun o => (c o).map abs) occ en) (ho : A'.orbitals = A.orbitals) (hne : A.orbitals ≠ [])
    (hN : SlaterNormal A.orbitals basis) (x : List ℝ) {n J L : ℕ} {P : ℝ}
    (hR : ∀ r ∈ x, SlaterRange A.orbitals basis r n J L) (hS : ∀ r ∈ x, SlaterSize A.orbitals basis c r P) :
    ∃ R : List ℝ, A'.atomicDensity (ND.vec (fins x)) "total" = .ok (fins R) ∧
      ∀ i < x.length, ∀ E E' v k t, RSplit u τ false A.orbitals basis c occ en E (vec x i) v →
        RSplit u τ true A.orbitals basis c occ en E' (vec x i) k → RDensity u τ A.orbitals basis c occ (vec x i) t →
        |v + k - t| ≤ 3 * ((1 / (1 - u) ^ (2 * (n + J + L) + A.orbitals.length + 33) - 1) * vec R i +
          1 / (1 - u) ^ (2 * (n + J + L) + A.orbitals.length + 33) *
            (u * τ * underSlack P occ.sum L A.orbitals.length)) := by
  have h1 : u < 1 := by linarith
  obtain ⟨tv, R, hv, hRR, -, -, bv⟩ := C142_split h0 hu hτ hτ' h h' ho hne hN x hR hS false
  obtain ⟨tk, R1, hk, hR1, -, -, bk⟩ := C142_split h0 hu hτ hτ' h h' ho hne hN x hR hS true
  obtain ⟨tt, R2, ht, hR2, -, -, bt⟩ := C142_total h0 hu hτ hτ' h h' ho hN x hR hS
  rw [hRR] at hR1 hR2
  injection hR1 with hR1
  injection hR2 with hR2
  obtain rfl := fins_injective hR1
  obtain rfl := fins_injective hR2
  refine ⟨R, hRR, fun i hi E E' v k t qv qk qt => ?_⟩
  obtain ⟨ft, fk, fv, hf, hs⟩ := C64_split h hne
  obtain ⟨f1, f2, f3⟩ := hf x
  simp only [Bool.false_eq_true, if_false] at hv
  simp only [if_true] at hk
  rw [ht] at f1
  rw [hk] at f2
  rw [hv] at f3
  injection f1 with f1
  injection f2 with f2
  injection f3 with f3
  obtain rfl := fins_injective f1
  obtain rfl := fins_injective f2
  obtain rfl := fins_injective f3
  have b1 := bv i hi E v qv
  have b2 := bk i hi E' k qk
  have b3 := bt i hi t qt
  have hs := (hs (vec x i)).2.2.2.1
  rw [vec_map _ hi] at b1 b2 b3
  have hR0 : 0 ≤ vec R i := by
    rw [atomicDensity_total h' x] at hRR
    injection hRR with hRR
    obtain rfl := fins_injective hRR
    rw [vec_map _ hi]
    exact densR_nonneg _ _ _ _ h.occ_nonneg _
  have hQ : 0 ≤ occ.sum := List.sum_nonneg h.occ_nonneg
  have hsl : 0 ≤ u * τ * underSlack P occ.sum L A.orbitals.length := by unfold underSlack; positivity
  have g : 1 / (1 - u) ^ (2 * (n + J + L) + A.orbitals.length + 26) ≤
      1 / (1 - u) ^ (2 * (n + J + L) + A.orbitals.length + 33) :=
    one_div_le_one_div_of_le (gpow h0 h1 _).1 (pow_le_pow_of_le_one (by linarith) (by linarith) (by omega))
  have g1 := mul_le_mul_of_nonneg_right g hR0
  have g2 := mul_le_mul_of_nonneg_right g hsl
  rw [abs_le] at b1 b2 b3 ⊢
  constructor <;> nlinarith

/-- **C142** (signs).  Computed valence densities are never negative.  Computed core densities are not negative if the
library function `exp` does not exceed one for arguments that are not positive. -/
theorem C142_nonneg {u τ : ℝ} (h0 : 0 ≤ u) (h1 : u < 1) (os : List Orb) (basis : Sub → List (ℝ × ℕ))
    (c : Orb → List ℝ) {occ : List ℝ} (hocc : ∀ y ∈ occ, 0 ≤ y) (en : List ℝ) (E : ℕ → ℝ) (r ρ : ℝ) :
    (RSplit u τ false os basis c occ en E r ρ → 0 ≤ ρ) ∧
      ((∀ i < os.length, E i ≤ 1) → RSplit u τ true os basis c occ en E r ρ → 0 ≤ ρ) := by
  have key : ∀ w : List ℝ, w.length = os.length → (∀ i < os.length, 0 ≤ w.getD i 0) → ∀ y ∈ w, 0 ≤ y := by
    intro w hw hp y hy
    obtain ⟨i, hi, rfl⟩ := List.mem_iff_getElem.mp hy
    have := hp i (by omega)
    rwa [List.getD_eq_getElem _ _ hi] at this
  constructor
  · rintro ⟨w, hl, hw, hρ⟩
    refine (C132_nonneg h0 h1 os basis c (key w hl fun i hi => ?_) r).1 ρ hρ
    obtain ⟨d, s, -, -, hE, hw⟩ := hw i hi
    simp only [Bool.false_eq_true, if_false] at hw
    exact hw.nonneg h0 h1 (mul_nonneg (getD_nonneg hocc i) (hE.nonneg h0 h1 (exp_pos _).le))
  · rintro hE1 ⟨w, hl, hw, hρ⟩
    refine (C132_nonneg h0 h1 os basis c (key w hl fun i hi => ?_) r).1 ρ hρ
    obtain ⟨d, s, -, -, hE, hw⟩ := hw i hi
    simp only [if_true] at hw
    obtain ⟨g, hg, hw⟩ := hw
    exact hw.nonneg h0 h1 (mul_nonneg (getD_nonneg hocc i) ((Rel.of_fl h0 h1 hg).nonneg h0 h1 (by linarith [hE1 i hi])))

/-- **C142** (exact arithmetic).  The values that the exact methods return are admissible for every accuracy. -/
theorem C142_exact {u τ : ℝ} (h0 : 0 ≤ u) {A : SlaterAtom} {basis : Sub → List (ℝ × ℕ)} {c : Orb → List ℝ}
    {occ en : List ℝ} (h : IsSlater A basis c occ en) (hne : A.orbitals ≠ []) (x : List ℝ) (core : Bool) :
    ∃ t : List ℝ, A.atomicDensity (ND.vec (fins x)) (if core then "core" else "valence") = .ok (fins t) ∧
      ∀ i < x.length, ∃ E : ℕ → ℝ, (∀ k, E k ≤ 1) ∧
        RSplit u τ core A.orbitals basis c occ en E (vec x i) (vec t i) := by
  have hd : A.atomicDensity (ND.vec (fins x)) (if core then "core" else "valence") =
      .ok (fins (x.map (densR A.orbitals basis c (valW core (lastEn en) occ en)))) := by
    cases core
    · exact atomicDensity_valence h hne x
    · exact atomicDensity_core h hne x
  have hl : occ.length = en.length := by rw [h.occ_len, h.en_len]
  have hwl := valW_length core (lastEn en) occ en _ h.occ_len h.en_len
  refine ⟨_, hd, fun i hi => ⟨fun k => exp (-(en.getD k 0 - lastEn en) ^ 2), fun k => ?_, valW core (lastEn en) occ en,
    hwl, fun k hk => ?_, ?_⟩⟩
  · exact exp_le_one_iff.mpr (by nlinarith [sq_nonneg (en.getD k 0 - lastEn en)])
  · rw [lastEn_getD hl, valW_getD core _ hl (by rw [h.occ_len]; exact hk)]
    refine ⟨_, _, Fl.refl h0 _, Fu.refl h0 _, Fu.refl h0 _, ?_⟩
    cases core
    · simpa using Fu.refl h0 _
    · simpa using ⟨_, Fl.refl h0 _, Fu.refl h0 _⟩
  · rw [vec_map _ hi]
    generalize vec x i = r
    have hfp : ∀ y, RFourPi u τ y (y / (4 * π)) := fun y => ⟨π, 4 * π, Fl.refl h0 _, Fl.refl h0 _, Fu.refl h0 _⟩
    have ho : ∀ i o, A.orbitals[i]? = some o → A.orbitals.getD i ⟨0, .S⟩ = o := by
      intro i o hi
      simp [List.getD_eq_getElem?_getD, hi]
    refine ⟨fun i => let o := A.orbitals.getD i ⟨0, .S⟩; orbR (basis o.sub) (c o) r,
      fun i => let o := A.orbitals.getD i ⟨0, .S⟩; orbR (basis o.sub) (c o) r ^ 2, _, fun i o hi => ?_,
      RDens.exact_wsum h0 A.orbitals (fun o => orbR (basis o.sub) (c o) r ^ 2) _ hwl
        (fun i o hi => by simp only [ho i o hi]), hfp _⟩
    simp only [ho i o hi]
    exact ⟨⟨_, (ROrbDot.exact (τ := τ) h0 (basis o.sub) (c o) (h.width o (List.mem_of_getElem? hi)) r).1, Fu.refl h0 _⟩,
      Fu.refl h0 _⟩

/-! ### A beryllium-like atom in double precision -/

theorem beOuter_abs : ∃ A : SlaterAtom, A.orbitals = beOuter.orbitals ∧ IsSlater A (fun _ => [(3, 1), (1, 2)])
    (fun o => (if o.n = 1 then [(0.9 : ℝ), 0.1] else [-0.2, 1.1]).map abs) [2, 2] [-4.7326699, -0.3092695] :=
  ⟨{ beOuter with coeff := fun o => some (fins ((if o.n = 1 then [(0.9 : ℝ), 0.1] else [-0.2, 1.1]).map abs)) }, rfl,
    { beOuter_isSlater with
      coeff := fun _ _ => rfl
      width := by
        intro o _
        by_cases h : o.n = 1 <;> simp [h] }⟩

theorem beOuter_range : ∀ r ∈ ([0, 1, 2] : List ℝ), SlaterRange beOuter.orbitals (fun _ => [(3, 1), (1, 2)]) r 2 18 2 := by
  intro r hr
  simp only [List.mem_cons, List.not_mem_nil, or_false] at hr
  refine ⟨?_, by simp, by simp, ?_⟩
  · rcases hr with rfl | rfl | rfl <;> norm_num
  · intro o _ b hb
    simp only [List.mem_cons, List.not_mem_nil, or_false] at hb
    rcases hb with rfl | rfl <;> rcases hr with rfl | rfl | rfl <;> norm_num

theorem beOuter_size : ∀ r ∈ ([0, 1, 2] : List ℝ), SlaterSize beOuter.orbitals (fun _ => [(3, 1), (1, 2)])
    (fun o => if o.n = 1 then [0.9, 0.1] else [-0.2, 1.1]) r 30 := by
  have n1 : slaterN 3 1 ≤ 12 := by
    have : sqrt 3 ≤ 2 := by rw [sqrt_le_left (by norm_num)]; norm_num
    norm_num [slaterN, Nat.factorial]
    linarith
  have n2 : slaterN 1 2 ≤ 4 := by
    have : sqrt (2 / 24) ≤ 1 := by rw [sqrt_le_left (by norm_num)]; norm_num
    norm_num [slaterN, Nat.factorial] at this ⊢
    linarith
  intro r hr o _
  simp only [List.mem_cons, List.not_mem_nil, or_false] at hr
  have hr2 : r ≤ 2 ∧ 0 ≤ r := by rcases hr with rfl | rfl | rfl <;> norm_num
  have n2' : slaterN 1 2 * (r + 1) ≤ 4 * 3 := mul_le_mul n2 (by linarith) (by linarith) (by norm_num)
  by_cases h : o.n = 1 <;> simp only [h, if_true, if_false] <;> norm_num [wsum, abs_of_pos, abs_of_neg] <;> linarith

theorem beOuter_normal : SlaterNormal beOuter.orbitals (fun _ => [(3, 1), (1, 2)]) := by
  intro o _ b hb
  simp only [List.mem_cons, List.not_mem_nil, or_false] at hb
  rcases hb with rfl | rfl <;> norm_num

theorem double_tiny : (2⁻¹ ^ 1022 : ℝ) ≤ 1e-40 :=
  (pow_le_pow_of_le_one (by norm_num) (by norm_num) (by norm_num : 140 ≤ 1022)).trans (by norm_num)

/-- 79 roundings for the valence density on three points, with the smallest normal double as `τ`. -/
example : ∃ (A' : SlaterAtom) (t R : List ℝ), beOuter.atomicDensity (ND.vec (fins [0, 1, 2])) "valence" = .ok (fins t) ∧
    A'.atomicDensity (ND.vec (fins [0, 1, 2])) "total" = .ok (fins R) ∧
    ∀ i < 3, ∀ E ρ, RSplit (2⁻¹ ^ 53) (2⁻¹ ^ 1022) false beOuter.orbitals (fun _ => [(3, 1), (1, 2)])
      (fun o => if o.n = 1 then [0.9, 0.1] else [-0.2, 1.1]) [2, 2] [-4.7326699, -0.3092695] E (vec [0, 1, 2] i) ρ →
      0 ≤ ρ ∧ |ρ - vec t i| ≤ (1 / (1 - 2⁻¹ ^ 53) ^ 79 - 1) * vec R i +
        1 / (1 - 2⁻¹ ^ 53) ^ 79 * (2⁻¹ ^ 53 * 2⁻¹ ^ 1022 * underSlack 30 4 2 2) := by
  obtain ⟨A', ho, h'⟩ := beOuter_abs
  obtain ⟨t, R, ht, hR, -, -, h⟩ := C142_split (u := 2⁻¹ ^ 53) (τ := 2⁻¹ ^ 1022) (by positivity) (by norm_num)
    (by positivity) double_tiny beOuter_isSlater h' ho (by simp [beOuter]) beOuter_normal [0, 1, 2] beOuter_range
    beOuter_size false
  refine ⟨A', t, R, ht, hR, fun i hi E ρ hρ => ⟨?_, ?_⟩⟩
  · exact (C142_nonneg (by positivity) (by norm_num) _ _ _ (by norm_num) _ E _ ρ).1 hρ
  · have := h i hi E ρ hρ
    have e : ([2, 2] : List ℝ).sum = 4 := by norm_num
    rw [e] at this
    exact this

/-- Executions of both modes exist; the sum of their results and the error of the sum for this atom. -/
example : ∃ E E' v k t, RSplit (2⁻¹ ^ 53) 0 false beOuter.orbitals (fun _ => [(3, 1), (1, 2)])
      (fun o => if o.n = 1 then [0.9, 0.1] else [-0.2, 1.1]) [2, 2] [-4.7326699, -0.3092695] E 1 v ∧
    RSplit (2⁻¹ ^ 53) 0 true beOuter.orbitals (fun _ => [(3, 1), (1, 2)])
      (fun o => if o.n = 1 then [0.9, 0.1] else [-0.2, 1.1]) [2, 2] [-4.7326699, -0.3092695] E' 1 k ∧
    RDensity (2⁻¹ ^ 53) 0 beOuter.orbitals (fun _ => [(3, 1), (1, 2)])
      (fun o => if o.n = 1 then [0.9, 0.1] else [-0.2, 1.1]) [2, 2] 1 t ∧ 0 ≤ k := by
  have hne : beOuter.orbitals ≠ [] := by simp [beOuter]
  obtain ⟨tv, -, hv⟩ := C142_exact (u := 2⁻¹ ^ 53) (τ := 0) (by positivity) beOuter_isSlater hne [1] false
  obtain ⟨tk, -, hk⟩ := C142_exact (u := 2⁻¹ ^ 53) (τ := 0) (by positivity) beOuter_isSlater hne [1] true
  obtain ⟨tt, _, _, -, -, -, ht⟩ := C132_exact (u := 2⁻¹ ^ 53) (τ := 0) (by positivity) beOuter_isSlater [1]
  obtain ⟨E, -, hv⟩ := hv 0 (by simp)
  obtain ⟨E', hE, hk⟩ := hk 0 (by simp)
  exact ⟨E, E', _, _, _, hv, hk, (ht 0 (by simp)).1,
    (C142_nonneg (by positivity) (by norm_num) _ _ _ (by norm_num) _ E' _ _).2 (fun i _ => hE i) hk⟩

/-- The weight of an orbital 50 hartree below the last one underflows to zero in double precision, and its core weight is
exact. -/
example : RWeight (2⁻¹ ^ 53) (2⁻¹ ^ 1022) false 2 (-50) 0 0 0 ∧ RWeight (2⁻¹ ^ 53) (2⁻¹ ^ 1022) true 2 (-50) 0 0 2 := by
  have h0 : (0 : ℝ) ≤ 2⁻¹ ^ 53 := by positivity
  have hE : Fu (2⁻¹ ^ 53) (2⁻¹ ^ 1022) 0 (exp (-2500)) := by
    have h1 : exp (-2500) ≤ 2⁻¹ ^ 2500 := by
      have e : exp (-2500) = exp (-1) ^ 2500 := by rw [← exp_nat_mul]; simp
      rw [e]
      refine pow_le_pow_left₀ (exp_pos _).le ?_ _
      rw [exp_neg]
      exact inv_anti₀ (by norm_num) (by have := add_one_le_exp (1 : ℝ); linarith)
    have h2 : (2⁻¹ : ℝ) ^ 2500 < 2⁻¹ ^ 1022 := pow_lt_pow_right_of_lt_one₀ (by norm_num) (by norm_num) (by norm_num)
    have h3 : (2⁻¹ : ℝ) ^ 2500 ≤ 2⁻¹ ^ 53 * 2⁻¹ ^ 1022 := by
      rw [← pow_add]
      exact pow_le_pow_of_le_one (by norm_num) (by norm_num) (by norm_num)
    refine .inr ⟨abs_pos.mpr (exp_pos _).ne', ?_, ?_, by simp⟩
    · rw [abs_of_pos (exp_pos _)]
      exact h1.trans_lt h2
    · rw [zero_sub, abs_neg, abs_of_pos (exp_pos _)]
      exact h1.trans h3
  refine ⟨⟨-50, 2500, ?_, ?_, hE, ?_⟩, ⟨-50, 2500, ?_, ?_, hE, 1, ?_, ?_⟩⟩
  · have := Fl.refl h0 (-50 : ℝ); norm_num at this ⊢; exact this
  · have := Fu.refl (τ := 2⁻¹ ^ 1022) h0 (2500 : ℝ); rw [show (-50 : ℝ) ^ 2 = 2500 by norm_num]; exact this
  · rw [mul_zero]; exact Fu.refl h0 0
  · have := Fl.refl h0 (-50 : ℝ); norm_num at this ⊢; exact this
  · have := Fu.refl (τ := 2⁻¹ ^ 1022) h0 (2500 : ℝ); rw [show (-50 : ℝ) ^ 2 = 2500 by norm_num]; exact this
  · rw [sub_zero]; exact Fl.refl h0 1
  · rw [mul_one]; exact Fu.refl h0 2

end
end BFit
