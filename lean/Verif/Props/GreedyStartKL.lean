import Verif.Props.GreedyStart

/-!
C60: the one-function start of `GreedyKLFPI`.
-/

namespace BFit

open Real Classical Finset

noncomputable section

/-- Spherical quadrature weights of a radial grid. -/
def sphW (x : List ℝ) (i : ℕ) : ℝ := vec (trapW x) i * (4 * π * vec x i ^ 2)

/-- The shape of the one-function model on a radial grid. -/
def oneShape (x : List ℝ) : Shape := atomShape (x.map fun r => |r|) 1 0

theorem oneShape_dens (x : List ℝ) (T e : ℝ) (i : ℕ) :
    (oneShape x).dens true (vec [T]) (vec [e]) i =
      T * ((e / π) ^ (3 / 2 : ℝ) * exp (-e * vec x i ^ 2)) := by
  simp only [Shape.dens, oneShape, atomShape, bf, sBasis, Nat.add_zero, Finset.sum_range_one, vec_abs_sq]
  simp [vec]

/-- A `GreedyKLFPI` object on finite data. -/
theorem klInit_data (x : List ℝ) (f : ℕ → ℝ) (hf : ∀ i < x.length, 0 ≤ f i) (μ : ℝ) (T : Option ℝ)
    (spherical : Bool) (W : ℕ → ℝ) (hq : Quad (.radial ⟨fins x⟩) spherical x.length W)
    (h0 : ∑ i ∈ range x.length, W i * f i ≠ 0) (hT : T ≠ some 0) :
    ∃ F, klInit (fins x) (fins (tab x.length f)) "pick-one" (XR.fin μ) (T.map XR.fin) spherical =
        .ok (F, .pickOne) ∧
      F.grid = .radial ⟨fins x⟩ ∧
      IsFPI F true (oneShape x) x.length W f μ (T.getD (∑ i ∈ range x.length, W i * f i)) := by
  have hm : IsModel (.atom ⟨.one (fins x), [XR.fin 0], fins (x.map fun r => |r|), 1, 0, true⟩) true
      (oneShape x) x.length := by
    have := atom_isModel (m := ⟨.one (fins x), [XR.fin 0], fins (x.map fun r => |r|), 1, 0, true⟩)
      (rs := x.map fun r => |r|) (ns := 1) (np := 0) ⟨rfl, rfl, rfl⟩ (by simp)
    rw [List.length_map] at this
    exact this
  obtain ⟨F, h1, h2, -⟩ := (C34_finite μ T hm hq (fun _ => ⟨_, rfl⟩) hf).1 h0 hT
  refine ⟨F, ?_, ?_, h2⟩
  · unfold klInit
    rw [greedy_atom]
    simp only [h1, choice_pickOne]
  · have hn : ∀ y ∈ fins (tab x.length f), ¬ y < XR.fin 0 := by
      intro y hy
      simp only [fins, tab, List.mem_map, List.mem_range] at hy
      obtain ⟨_, ⟨i, hi, rfl⟩, rfl⟩ := hy
      simpa using hf i hi
    obtain ⟨v, -, e1, e2⟩ := C34_lagrange (.radial ⟨fins x⟩) (fins (tab x.length f))
      (.atom ⟨.one (fins x), [XR.fin 0], fins (x.map fun r => |r|), 1, 0, true⟩) (T.map XR.fin) spherical
      (XR.fin μ) hn (fun _ => ⟨_, rfl⟩) (by simp [Grid.len]) trivial
    obtain ⟨F', g1, -, -, g2, -⟩ := e2 (fun h => by
      have := e1.mpr h
      rw [h1] at this
      exact absurd this (by simp))
    rw [h1] at g1
    injection g1 with g1
    rw [g1, g2]

/-- The start in closed form: `4π Σ w f r⁴` is the second moment with spherical weights. -/
theorem klOneFun_fins (x : List ℝ) (f : ℕ → ℝ) (T : ℝ)
    (hM : ∑ i ∈ range x.length, sphW x i * (f i * vec x i ^ 2) ≠ 0) :
    klOneFun (.radial ⟨fins x⟩) (fins x) (fins (tab x.length f)) (XR.fin T) =
      .ok (fins [T, 3 * T / (2 * ∑ i ∈ range x.length, sphW x i * (f i * vec x i ^ 2))]) := by
  unfold klOneFun
  have e1 : (fins x).map (fun p => XR.pow (XR.pow p 2) 2) = fins (tab x.length fun i => (vec x i ^ 2) ^ 2) := by
    conv_lhs => rw [eq_range_map x x.length rfl]
    rw [map_tab (g := fun a => (a ^ 2) ^ 2) (by intro a; simp)]
  have e2 : bcast (· * ·) (fins (tab x.length f)) (fins (tab x.length fun i => (vec x i ^ 2) ^ 2)) =
      .ok (fins (tab x.length fun i => f i * (vec x i ^ 2) ^ 2)) := by
    unfold bcast
    rw [if_pos (by simp), zipWith_tab (g := fun a b => a * b) (by simp)]
  rw [e1, e2]
  simp only
  have hw := (hasWeights_radial x).2 (tab x.length fun i => f i * (vec x i ^ 2) ^ 2) (by simp [trapW_length])
  rw [hw]
  simp only
  have hs := wsum_tab (trapW x) (fun i => f i * (vec x i ^ 2) ^ 2)
  rw [trapW_length] at hs
  rw [hs]
  have hS : ∑ i ∈ range x.length, sphW x i * (f i * vec x i ^ 2) =
      4 * π * ∑ i ∈ range x.length, vec (trapW x) i * (f i * (vec x i ^ 2) ^ 2) := by
    rw [Finset.mul_sum]
    exact Finset.sum_congr rfl fun i _ => by unfold sphW; ring
  rw [hS] at hM ⊢
  set Q := ∑ i ∈ range x.length, vec (trapW x) i * (f i * (vec x i ^ 2) ^ 2)
  simp only [XR.mul_fin]
  rw [XR.div_fin_of_ne _ (by
    intro h
    apply hM
    have : 2 * (4 * π * Q) = 0 := by linarith
    linarith)]
  simp only [fins, List.map_cons, List.map_nil]
  congr 4
  ring

/-- One update of a one-function model whose coefficient is the integral of the density. -/
theorem one_update {F : FPI} {x : List ℝ} {N : ℕ} {W f : ℕ → ℝ} {μ T : ℝ}
    (h : IsFPI F true (oneShape x) N W f μ T) (hT : T = ∑ i ∈ range N, W i * f i) (hT0 : 0 < T) (e : ℝ)
    (he : 0 < e) (hM : ∑ i ∈ range N, W i * (f i * vec x i ^ 2) ≠ 0)
    (hu : (oneShape x).AllUnmasked true N μ f [T] [e]) :
    F.updateParams (fins [T]) (fins [e]) true true =
      .ok (fins [T], fins [3 * T / (2 * ∑ i ∈ range N, W i * (f i * vec x i ^ 2))]) := by
  have hg : ∀ i < N, 0 < (oneShape x).dens true (vec [T]) (vec [e]) i :=
    fun i hi => unmasked_pos (h.f_nonneg i hi) (hu i hi)
  have hb : ∀ i, bf ((oneShape x).isS 0) true e ((oneShape x).rad 0 i) =
      (e / π) ^ (3 / 2 : ℝ) * exp (-e * vec x i ^ 2) := by
    intro i
    simp only [oneShape, atomShape, bf, sBasis, vec_abs_sq]
    simp
  have hbpos : ∀ i, 0 < (e / π) ^ (3 / 2 : ℝ) * exp (-e * vec x i ^ 2) := by
    intro i
    have : 0 < e / π := by positivity
    positivity
  have hA : fpiA (oneShape x) true N W ((oneShape x).ratio true μ f (vec [T]) (vec [e])) (vec [e]) 0 = 1 := by
    rw [(fpiA_congr (ratio_unmasked hu)).1]
    unfold fpiA
    have : ∀ i ∈ range N, W i * (f i / (oneShape x).dens true (vec [T]) (vec [e]) i *
        bf ((oneShape x).isS 0) true (vec [e] 0) ((oneShape x).rad 0 i)) = W i * f i / T := by
      intro i _
      rw [show vec [e] 0 = e from rfl, hb, oneShape_dens]
      have := (hbpos i).ne'
      field_simp
    rw [Finset.sum_congr rfl this, ← Finset.sum_div, ← hT, div_self hT0.ne']
  have hA2 : fpiA2 (oneShape x) true N W ((oneShape x).ratio true μ f (vec [T]) (vec [e])) (vec [e]) 0 =
      (∑ i ∈ range N, W i * (f i * vec x i ^ 2)) / T := by
    rw [(fpiA_congr (ratio_unmasked hu)).2]
    unfold fpiA2
    rw [Finset.sum_div]
    refine Finset.sum_congr rfl fun i _ => ?_
    simp only
    rw [show vec [e] 0 = e from rfl, hb, oneShape_dens,
      show (oneShape x).rad 0 i ^ 2 = vec x i ^ 2 from vec_abs_sq x i]
    have := (hbpos i).ne'
    field_simp
  have hk : ∀ k < (oneShape x).nb, k = 0 := by
    intro k hk
    have : (oneShape x).nb = 1 := rfl
    omega
  rw [updateParams_fins h.data h.mask h.lm h.lm_ne h.f_nonneg [T] [e] rfl rfl (by simpa using he.le)
    (fun i hi => (hg i hi).le) true true (by simp) (by
      intro _ k hk'
      rw [hk k hk', hA2]
      exact div_ne_zero hM hT0.ne')]
  rw [← hT, div_self hT0.ne']
  have hnb : (oneShape x).nb = 1 := rfl
  rw [hnb]
  simp only [tab, List.range_one, List.map_cons, List.map_nil, if_true, hA, hA2]
  have hp : (oneShape x).pref 0 = 3 / 2 := by simp [Shape.pref, oneShape, atomShape]
  rw [hp]
  congr 4
  · simp [vec]
  · field_simp

theorem log_one_dens {T e : ℝ} (hT : 0 < T) (he : 0 < e) (r : ℝ) :
    log (T * ((e / π) ^ (3 / 2 : ℝ) * exp (-e * r ^ 2))) =
      log T + (3 / 2 * (log e - log π) - e * r ^ 2) := by
  have h1 : 0 < e / π := div_pos he pi_pos
  rw [log_mul hT.ne' (by positivity), log_mul (by positivity) (exp_pos _).ne', log_exp,
    log_rpow h1, log_div he.ne' pi_pos.ne']
  ring

/-- The KL value of the one-function model differs from that at the best exponent by a multiple of
`log(e*/e) - 1 + e/e*`. -/
theorem one_kl_diff (x : List ℝ) (N : ℕ) (W f : ℕ → ℝ) (μ T e : ℝ) (hf : ∀ i < N, 0 < f i)
    (hT : T = ∑ i ∈ range N, W i * f i) (hT0 : 0 < T) (he : 0 < e)
    (hM : 0 < ∑ i ∈ range N, W i * (f i * vec x i ^ 2))
    (hu0 : (oneShape x).AllUnmasked true N μ f [T]
      [3 * T / (2 * ∑ i ∈ range N, W i * (f i * vec x i ^ 2))])
    (hu : (oneShape x).AllUnmasked true N μ f [T] [e]) :
    klTotal (oneShape x) N W f μ [T] [3 * T / (2 * ∑ i ∈ range N, W i * (f i * vec x i ^ 2))] ≤
      klTotal (oneShape x) N W f μ [T] [e] ∧
    (e ≠ 3 * T / (2 * ∑ i ∈ range N, W i * (f i * vec x i ^ 2)) →
      klTotal (oneShape x) N W f μ [T] [3 * T / (2 * ∑ i ∈ range N, W i * (f i * vec x i ^ 2))] <
        klTotal (oneShape x) N W f μ [T] [e]) := by
  set M := ∑ i ∈ range N, W i * (f i * vec x i ^ 2) with hMd
  set b := 3 * T / (2 * M) with hb
  have hb0 : 0 < b := by positivity
  have hMb : M = 3 * T / (2 * b) := by rw [hb]; field_simp
  have hval : ∀ a, 0 < a → (oneShape x).AllUnmasked true N μ f [T] [a] →
      klTotal (oneShape x) N W f μ [T] [a] = ∑ i ∈ range N, W i * (f i * log (f i)) -
        T * (log T + 3 / 2 * (log a - log π)) + a * M := by
    intro a ha hua
    unfold klTotal
    rw [hMd, hT, Finset.sum_mul, Finset.mul_sum, ← Finset.sum_sub_distrib, ← Finset.sum_add_distrib, ← hT]
    refine Finset.sum_congr rfl fun i hi => ?_
    have hi := mem_range.mp hi
    have hpos := unmasked_pos (hf i hi).le (hua i hi)
    unfold klVal
    rw [if_pos (hua i hi)]
    unfold klInt
    rw [log_div (hf i hi).ne' hpos.ne', oneShape_dens, log_one_dens hT0 ha]
    ring
  rw [hval b hb0 hu0, hval e he hu]
  have hdiff : (∑ i ∈ range N, W i * (f i * log (f i)) - T * (log T + 3 / 2 * (log e - log π)) + e * M) -
      (∑ i ∈ range N, W i * (f i * log (f i)) - T * (log T + 3 / 2 * (log b - log π)) + b * M) =
      3 / 2 * T * (e / b - 1 - log (e / b)) := by
    rw [log_div he.ne' hb0.ne', hMb]
    field_simp
    ring
  have hq : 0 < e / b := div_pos he hb0
  constructor
  · have := log_le_sub_one_of_pos hq
    have : 0 ≤ 3 / 2 * T * (e / b - 1 - log (e / b)) := mul_nonneg (by positivity) (by linarith)
    linarith
  · intro hne
    have h1 : e / b ≠ 1 := fun h => hne ((div_eq_one_iff_eq hb0.ne').mp h)
    have := log_lt_sub_one_of_pos hq h1
    have : 0 < 3 / 2 * T * (e / b - 1 - log (e / b)) := mul_pos (by positivity) (by linarith)
    linarith

/-- **C60**.  A spherical fit of a positive density with the default integral `T`: the start is
`[T, a]` with `a > 0`; if no grid point is masked there, it is a fixed point of the iteration and every
other exponent `e` without masked grid points gives a larger Kullback-Leibler divergence. -/
theorem C60_start (x : List ℝ) (f : ℕ → ℝ) (μ : ℝ) (hx : x.Pairwise (· ≤ ·))
    (hf : ∀ i < x.length, 0 < f i) (hw : ∃ i < x.length, 0 < sphW x i) (ol og : FPIOpts)
    (rnd : ℕ → ℕ → ℕ → ℝ) (ns np : ℕ) :
    ∃ F a, klInit (fins x) (fins (tab x.length f)) "pick-one" (XR.fin μ) none true = .ok (F, .pickOne) ∧
      0 < a ∧
      (klEnv F (fins x) .pickOne ol og rnd).oneFun ns np =
        .ok (fins [∑ i ∈ range x.length, sphW x i * f i, a]) ∧
      ((oneShape x).AllUnmasked true x.length μ f [∑ i ∈ range x.length, sphW x i * f i] [a] →
        F.updateParams (fins [∑ i ∈ range x.length, sphW x i * f i]) (fins [a]) true true =
          .ok (fins [∑ i ∈ range x.length, sphW x i * f i], fins [a]) ∧
        ∀ e, 0 < e →
          (oneShape x).AllUnmasked true x.length μ f [∑ i ∈ range x.length, sphW x i * f i] [e] →
          ∃ p p' v v',
            F.goodness (fins [∑ i ∈ range x.length, sphW x i * f i]) (fins [a]) = .ok p ∧
            F.goodness (fins [∑ i ∈ range x.length, sphW x i * f i]) (fins [e]) = .ok p' ∧
            p.kl = XR.fin v ∧ p'.kl = XR.fin v' ∧ v ≤ v' ∧ (e ≠ a → v < v')) := by
  obtain ⟨j, hj, hwj⟩ := hw
  have hn : ∀ i, 0 ≤ sphW x i := spherical_weights_nonneg hx
  have hT0 : 0 < ∑ i ∈ range x.length, sphW x i * f i :=
    Finset.sum_pos' (fun i hi => mul_nonneg (hn i) (hf i (mem_range.mp hi)).le)
      ⟨j, mem_range.mpr hj, mul_pos hwj (hf j hj)⟩
  have hxj : 0 < vec x j ^ 2 := by
    apply pow_pos_of_ne
    intro h
    unfold sphW at hwj
    rw [h] at hwj
    simp at hwj
  have hM : 0 < ∑ i ∈ range x.length, sphW x i * (f i * vec x i ^ 2) :=
    Finset.sum_pos' (fun i hi => mul_nonneg (hn i) (mul_nonneg (hf i (mem_range.mp hi)).le (sq_nonneg _)))
      ⟨j, mem_range.mpr hj, mul_pos hwj (mul_pos (hf j hj) hxj)⟩
  obtain ⟨F, h1, h2, h3⟩ := klInit_data x f (fun i hi => (hf i hi).le) μ none true (sphW x)
    (quad_spherical x) hT0.ne' (by simp)
  simp only [Option.map_none, Option.getD_none] at h1 h3
  refine ⟨F, 3 * (∑ i ∈ range x.length, sphW x i * f i) /
    (2 * ∑ i ∈ range x.length, sphW x i * (f i * vec x i ^ 2)), h1, by positivity, ?_, ?_⟩
  · show klOneFun F.grid (fins x) F.density F.integralDens = _
    rw [h2, h3.data.dens, h3.target]
    exact klOneFun_fins x f _ hM.ne'
  · intro hu
    refine ⟨one_update h3 rfl hT0 _ (by positivity) hM.ne' hu, ?_⟩
    intro e he hue
    have hN : 0 < x.length := by omega
    obtain ⟨p, p1, p2⟩ := goodness_klTotal h3.data hN h3.mask hf
      [∑ i ∈ range x.length, sphW x i * f i]
      [3 * (∑ i ∈ range x.length, sphW x i * f i) /
        (2 * ∑ i ∈ range x.length, sphW x i * (f i * vec x i ^ 2))] rfl rfl
      (by simpa using hT0.le) (by
        intro b hb
        rw [List.mem_singleton] at hb
        rw [hb]
        positivity)
    obtain ⟨p', p1', p2'⟩ := goodness_klTotal h3.data hN h3.mask hf
      [∑ i ∈ range x.length, sphW x i * f i] [e] rfl rfl (by simpa using hT0.le) (by simpa using he)
    obtain ⟨k1, k2⟩ := one_kl_diff x x.length (sphW x) f μ _ e hf rfl hT0 he hM hu hue
    exact ⟨p, p', _, _, p1, p1', p2, p2', k1, k2⟩

/-- A condition under which no grid point is masked. -/
theorem one_unmasked (x : List ℝ) (N : ℕ) (f : ℕ → ℝ) (T e : ℝ) (hT : 1 ≤ T) (h1 : 1 / 64 ≤ e / π)
    (h2 : e / π ≤ 1) (h3 : e ≤ 3 / 2) (hx : ∀ i < N, vec x i ^ 2 ≤ 1) (hf : ∀ i < N, f i ≤ 1) :
    (oneShape x).AllUnmasked true N 0 f [T] [e] := by
  intro i hi
  rw [oneShape_dens]
  have he : 0 < e := by
    by_contra h
    have : e / π ≤ 0 := div_nonpos_of_nonpos_of_nonneg (by linarith) pi_pos.le
    linarith
  have hp : (1 / 64 : ℝ) ^ 2 ≤ (e / π) ^ (3 / 2 : ℝ) := by
    calc (1 / 64 : ℝ) ^ 2 ≤ (e / π) ^ 2 := by gcongr
      _ = (e / π) ^ (2 : ℝ) := (rpow_ofNat _ 2).symm
      _ ≤ (e / π) ^ (3 / 2 : ℝ) := rpow_le_rpow_of_exponent_ge (by linarith) h2 (by norm_num)
  have hex : (1 / 8 : ℝ) ≤ exp (-e * vec x i ^ 2) := by
    have a1 : (-(3 / 2) : ℝ) ≤ -e * vec x i ^ 2 := by nlinarith [hx i hi, sq_nonneg (vec x i)]
    have a2 : (1 / 2 : ℝ) ≤ exp (-(1 / 2)) := by linarith [add_one_le_exp (-(1 / 2) : ℝ)]
    have a3 : exp (-(3 / 2) : ℝ) = exp (-(1 / 2)) ^ 3 := by
      rw [← exp_nat_mul]; norm_num
    calc (1 / 8 : ℝ) = (1 / 2) ^ 3 := by norm_num
      _ ≤ exp (-(1 / 2)) ^ 3 := by gcongr
      _ = exp (-(3 / 2)) := a3.symm
      _ ≤ _ := exp_le_exp.mpr a1
  have hg : (1 / 32768 : ℝ) ≤ T * ((e / π) ^ (3 / 2 : ℝ) * exp (-e * vec x i ^ 2)) := by
    calc (1 / 32768 : ℝ) = 1 * ((1 / 64) ^ 2 * (1 / 8)) := by norm_num
      _ ≤ _ := by gcongr
  have ht : tiny < 1 / 32768 := by
    have : tiny = (2 : ℝ) ^ (-15 : ℤ) * 2 ^ (-1007 : ℤ) := by
      unfold tiny; rw [← zpow_add₀ (by norm_num)]; norm_num
    rw [this]
    have h : (2 : ℝ) ^ (-1007 : ℤ) < 1 := by
      rw [zpow_neg]
      exact inv_lt_one_of_one_lt₀ (one_lt_zpow₀ (by norm_num) (by norm_num))
    have h2 : (2 : ℝ) ^ (-15 : ℤ) = 1 / 32768 := by norm_num
    rw [h2]
    linarith
  refine ⟨by linarith, ?_⟩
  have := hf i hi
  have := tiny_pos
  nlinarith

theorem trapW_demo : trapW [0, 1] = [1 / 2, 1 / 2] := by norm_num [trapW, trapWAux]

/-- **C60 fails** for a fit that is not spherical (the default): the start always uses the spherical
second moment.  For the density `1, 1` on the grid `0, 1` it is `[1, 3/(4π)]`, while the iteration
goes from there to `[1, 3]`. -/
theorem C60_fails_plain (ol og : FPIOpts) (rnd : ℕ → ℕ → ℕ → ℝ) (ns np : ℕ) :
    ∃ F, klInit (fins [0, 1]) (fins [1, 1]) "pick-one" (XR.fin 0) none false = .ok (F, .pickOne) ∧
      (klEnv F (fins [0, 1]) .pickOne ol og rnd).oneFun ns np = .ok (fins [1, 3 / (4 * π)]) ∧
      F.updateParams (fins [1]) (fins [3 / (4 * π)]) true true = .ok (fins [1], fins [3]) ∧
      3 / (4 * π) ≠ 3 := by
  have hq : Quad (.radial ⟨fins [0, 1]⟩) false [0, 1].length (vec [1 / 2, 1 / 2]) := by
    have h := quad_plain (hasWeights_radial [0, 1])
    rw [trapW_demo] at h
    exact h
  have hT : ∑ i ∈ range [(0 : ℝ), 1].length, vec [1 / 2, 1 / 2] i * (fun _ => (1 : ℝ)) i = 1 := by
    norm_num [Finset.sum_range_succ, vec]
  have hM : ∑ i ∈ range [(0 : ℝ), 1].length, vec [1 / 2, 1 / 2] i * ((fun _ => (1 : ℝ)) i * vec [0, 1] i ^ 2) =
      1 / 2 := by
    norm_num [Finset.sum_range_succ, vec]
  have hS : ∑ i ∈ range [(0 : ℝ), 1].length, sphW [0, 1] i * ((fun _ => (1 : ℝ)) i * vec [0, 1] i ^ 2) =
      2 * π := by
    simp [Finset.sum_range_succ, vec, sphW, trapW_demo]
    ring
  obtain ⟨F, h1, h2, h3⟩ := klInit_data [0, 1] (fun _ => 1) (fun _ _ => one_pos.le) 0 none false _ hq
    (by rw [hT]; norm_num) (by simp)
  rw [Option.getD_none, hT] at h3
  have hpi := pi_pos
  have hpi2 := Real.two_le_pi
  have hpi4 := Real.pi_le_four
  refine ⟨F, h1, ?_, ?_, ?_⟩
  · show klOneFun F.grid (fins [0, 1]) F.density F.integralDens = _
    rw [h2, h3.data.dens, h3.target]
    have := klOneFun_fins [0, 1] (fun _ => 1) 1 (by rw [hS]; positivity)
    rw [hS] at this
    rw [this]
    congr 4
    field_simp
    norm_num
  · have := one_update h3 hT.symm one_pos (3 / (4 * π)) (by positivity) (by rw [hM]; norm_num)
      (one_unmasked _ _ _ 1 _ le_rfl ?_ ?_ ?_ ?_ (fun _ _ => le_rfl))
    · rw [hM] at this
      rw [this]
      congr 4
      norm_num
    · rw [div_div, div_le_div_iff₀ (by norm_num) (by positivity)]
      nlinarith
    · rw [div_div, div_le_one (by positivity)]
      nlinarith
    · rw [div_le_div_iff₀ (by positivity) (by norm_num)]
      nlinarith
    · intro i hi
      have hi : i < 2 := hi
      interval_cases i <;> norm_num [vec]
  · intro h
    rw [div_eq_iff (by positivity)] at h
    nlinarith

/-- C60 applies to the density `1, 1` on the grid `0, 1`: the start is `[2π, 3/2]`, a fixed point. -/
example (ol og : FPIOpts) (rnd : ℕ → ℕ → ℕ → ℝ) :
    ∃ F, klInit (fins [0, 1]) (fins [1, 1]) "pick-one" (XR.fin 0) none true = .ok (F, .pickOne) ∧
      (klEnv F (fins [0, 1]) .pickOne ol og rnd).oneFun 1 0 = .ok (fins [2 * π, 3 / 2]) ∧
      F.updateParams (fins [2 * π]) (fins [3 / 2]) true true = .ok (fins [2 * π], fins [3 / 2]) := by
  have hw : 0 < sphW [0, 1] 1 := by simp [sphW, trapW_demo, vec, pi_pos]
  obtain ⟨F, a, h1, -, h2, h3⟩ := C60_start [0, 1] (fun _ => 1) 0 (by simp) (fun _ _ => one_pos)
    ⟨1, by simp, hw⟩ ol og rnd 1 0
  have hT : ∑ i ∈ range [(0 : ℝ), 1].length, sphW [0, 1] i * (fun _ => (1 : ℝ)) i = 2 * π := by
    simp [Finset.sum_range_succ, vec, sphW, trapW_demo]
    ring
  have hS : ∑ i ∈ range [(0 : ℝ), 1].length, sphW [0, 1] i * ((fun _ => (1 : ℝ)) i * vec [0, 1] i ^ 2) =
      2 * π := by
    simp [Finset.sum_range_succ, vec, sphW, trapW_demo]
    ring
  obtain ⟨F', g1, g2, g3⟩ := klInit_data [0, 1] (fun _ => 1) (fun _ _ => one_pos.le) 0 none true _
    (quad_spherical [0, 1]) (by show ∑ i ∈ range [(0 : ℝ), 1].length, sphW [0, 1] i * (fun _ => (1 : ℝ)) i ≠ 0
                                rw [hT]; positivity) (by simp)
  simp only [Option.map_none] at g1
  rw [h1] at g1
  injection g1 with g1
  injection g1 with g1
  subst g1
  have h4 : (klEnv F (fins [0, 1]) .pickOne ol og rnd).oneFun 1 0 = .ok (fins [2 * π, 3 / 2]) := by
    show klOneFun F.grid (fins [0, 1]) F.density F.integralDens = _
    have ht : F.integralDens = XR.fin (2 * π) := by
      rw [g3.target, Option.getD_none]
      congr 1
    rw [g2, g3.data.dens, ht]
    have := klOneFun_fins [0, 1] (fun _ => 1) (2 * π) (by rw [hS]; positivity)
    rw [hS] at this
    rw [this]
    congr 4
    field_simp
  have ha : a = 3 / 2 := by
    rw [h2] at h4
    injection h4 with h4
    have := fins_injective h4
    simpa using (List.cons.inj this).2
  subst ha
  rw [hT] at h3
  refine ⟨F, h1, h4, (h3 ?_).1⟩
  have hpi2 := Real.two_le_pi
  have hpi4 := Real.pi_le_four
  refine one_unmasked _ _ _ _ _ (by linarith) ?_ ?_ le_rfl ?_ (fun _ _ => le_rfl)
  · rw [div_le_div_iff₀ (by norm_num) (by positivity)]
    nlinarith
  · rw [div_le_one (by positivity)]
    linarith
  · intro i hi
    have hi : i < 2 := hi
    interval_cases i <;> norm_num [vec]

end
end BFit
