import Verif.Props.FPIOptimal
import Verif.Props.ScipyUnique

/-! Property C120: convergence of the coefficients, not only of the divergence, of the fixed-point iteration. -/

namespace BFit

open Real Classical Finset

noncomputable section

/-- Non-negative coefficients with a given sum form a compact set. -/
theorem compact_simplex {n : ℕ} (T : ℝ) : IsCompact {c : Fin n → ℝ | (∀ k, 0 ≤ c k) ∧ ∑ k, c k = T} := by
  apply IsCompact.of_isClosed_subset (isCompact_Icc (a := fun _ : Fin n => (0 : ℝ)) (b := fun _ => T))
  · have h1 : IsClosed {c : Fin n → ℝ | ∀ k, 0 ≤ c k} := by
      rw [Set.ofPred_forall]
      exact isClosed_iInter fun k => isClosed_le continuous_const (continuous_apply k)
    have h2 : IsClosed {c : Fin n → ℝ | ∑ k, c k = T} := isClosed_eq (by fun_prop) continuous_const
    exact h1.inter h2
  · rintro c ⟨h1, h2⟩
    refine ⟨fun k => h1 k, fun k => ?_⟩
    rw [← h2]
    exact single_le_sum (f := c) (fun j _ => h1 j) (mem_univ k)

/-- Near a minimum on a compact set, what all minimisers share is close to its value there. -/
theorem near_minimum {n : ℕ} {K : Set (Fin n → ℝ)} (hK : IsCompact K) {g h : (Fin n → ℝ) → ℝ}
    (hg : ContinuousOn g K) (hh : Continuous h) {a : Fin n → ℝ}
    (hu : ∀ c ∈ K, g c ≤ g a → h c = h a) {δ : ℝ} (hδ : 0 < δ) :
    ∃ ε, 0 < ε ∧ ∀ c ∈ K, g c ≤ g a + ε → |h c - h a| < δ := by
  have hcl : IsClosed {c : Fin n → ℝ | δ ≤ |h c - h a|} := isClosed_le continuous_const (by fun_prop)
  have hK' := hK.inter_right hcl
  rcases (K ∩ {c | δ ≤ |h c - h a|}).eq_empty_or_nonempty with h0 | h0
  · refine ⟨1, one_pos, fun c hc _ => ?_⟩
    by_contra hcon
    have : c ∈ K ∩ {c | δ ≤ |h c - h a|} := ⟨hc, not_lt.mp hcon⟩
    rw [h0] at this
    exact this
  · obtain ⟨b, hb, hmin⟩ := hK'.exists_isMinOn h0 (hg.mono Set.inter_subset_left)
    have hlt : g a < g b := by
      by_contra hcon
      have h1 := hu b hb.1 (not_lt.mp hcon)
      have h2 : δ ≤ |h b - h a| := hb.2
      rw [h1, sub_self, abs_zero] at h2
      linarith
    refine ⟨(g b - g a) / 2, by linarith, fun c hc hle => ?_⟩
    by_contra hcon
    have h1 : g b ≤ g c := hmin (show c ∈ K ∩ {c | δ ≤ |h c - h a|} from ⟨hc, not_lt.mp hcon⟩)
    linarith

/-- The divergence as a function on the simplex. -/
theorem klTotal_continuousOn {S : Shape} {N : ℕ} {W f : ℕ → ℝ} {μ T : ℝ} {e : List ℝ} (hT : 0 < T)
    (hf : ∀ i < N, 0 < f i) (hm : S.Clear N f μ T e) :
    ContinuousOn (fun c : Fin S.nb → ℝ => klTotal S N W f μ (List.ofFn c) e)
      {c | (∀ k, 0 ≤ c k) ∧ ∑ k, c k = T} := by
  have hu : ∀ c ∈ {c : Fin S.nb → ℝ | (∀ k, 0 ≤ c k) ∧ ∑ k, c k = T},
      S.AllUnmasked true N μ f (List.ofFn c) e := fun c hc =>
    hm.unmasked hT (by simp) (by rw [List.forall_mem_ofFn_iff]; exact hc.1) (by rw [List.sum_ofFn]; exact hc.2)
  have : ContinuousOn (fun c : Fin S.nb → ℝ => ∑ i ∈ range N, W i *
      (f i * log (f i / S.dens true (vec (List.ofFn c)) (vec e) i))) {c | (∀ k, 0 ≤ c k) ∧ ∑ k, c k = T} := by
    refine continuousOn_finsetSum _ fun i hi => continuousOn_const.mul (continuousOn_const.mul ?_)
    have hi := mem_range.mp hi
    have hp : ∀ c ∈ {c : Fin S.nb → ℝ | (∀ k, 0 ≤ c k) ∧ ∑ k, c k = T},
        0 < S.dens true (vec (List.ofFn c)) (vec e) i := fun c hc => unmasked_pos (hf i hi).le (hu c hc i hi)
    refine ContinuousOn.log (continuousOn_const.div (continuous_dens S true (vec e) i).continuousOn
      fun c hc => (hp c hc).ne') fun c hc => (div_pos (hf i hi) (hp c hc)).ne'
  refine this.congr fun c hc => ?_
  unfold klTotal
  refine sum_congr rfl fun i hi => ?_
  rw [klVal_unmasked (hu c hc i (mem_range.mp hi))]
  rfl

/-- Two minimisers give the same model where the weights are positive. -/
theorem minimisers_agree {S : Shape} {N : ℕ} {W f : ℕ → ℝ} {μ T : ℝ} {e : List ℝ} (hT : 0 < T)
    (hW : ∀ i < N, 0 ≤ W i) (hf : ∀ i < N, 0 < f i) (hm : S.Clear N f μ T e) {a b : Fin S.nb → ℝ}
    (ha : (∀ k, 0 ≤ a k) ∧ ∑ k, a k = T) (hb : (∀ k, 0 ≤ b k) ∧ ∑ k, b k = T)
    (hmin : ∀ c : Fin S.nb → ℝ, (∀ k, 0 ≤ c k) → ∑ k, c k = T →
      klTotal S N W f μ (List.ofFn a) e ≤ klTotal S N W f μ (List.ofFn c) e)
    (hle : klTotal S N W f μ (List.ofFn b) e ≤ klTotal S N W f μ (List.ofFn a) e) :
    ∀ i < N, 0 < W i → S.dens true (vec (List.ofFn b)) (vec e) i = S.dens true (vec (List.ofFn a)) (vec e) i := by
  have hu : ∀ c : Fin S.nb → ℝ, (∀ k, 0 ≤ c k) ∧ ∑ k, c k = T →
      S.AllUnmasked true N μ f (List.ofFn c) e := fun c hc =>
    hm.unmasked hT (by simp) (by rw [List.forall_mem_ofFn_iff]; exact hc.1) (by rw [List.sum_ofFn]; exact hc.2)
  set m : Fin S.nb → ℝ := fun k => (b k + a k) / 2 with hmdef
  have hmm : (∀ k, 0 ≤ m k) ∧ ∑ k, m k = T := by
    refine ⟨fun k => by have := ha.1 k; have := hb.1 k; simp only [hmdef]; linarith, ?_⟩
    simp only [hmdef]
    rw [← sum_div, sum_add_distrib, ha.2, hb.2]
    ring
  have h1 := hmin m hmm.1 hmm.2
  intro i hi hWi
  by_contra hne
  have hval : ∀ c : Fin S.nb → ℝ, (∀ k, 0 ≤ c k) ∧ ∑ k, c k = T → klTotal S N W f μ (List.ofFn c) e =
      ∑ i ∈ range N, W i * (f i * log (f i / S.dens true (vec (List.ofFn c)) (vec e) i)) := by
    intro c hc
    unfold klTotal
    refine sum_congr rfl fun i hi => ?_
    rw [klVal_unmasked (hu c hc i (mem_range.mp hi))]
    rfl
  have hp : ∀ c : Fin S.nb → ℝ, (∀ k, 0 ≤ c k) ∧ ∑ k, c k = T → ∀ i < N,
      0 < S.dens true (vec (List.ofFn c)) (vec e) i := fun c hc i hi => unmasked_pos (hf i hi).le (hu c hc i hi)
  have hlog : ∀ x y z : ℝ, 0 < x → 0 < y → 0 < z → log (z / ((x + y) / 2)) ≤
      (log (z / x) + log (z / y)) / 2 ∧ (x ≠ y → log (z / ((x + y) / 2)) < (log (z / x) + log (z / y)) / 2) := by
    intro x y z hx hy hz
    rw [log_div hz.ne' (by positivity), log_div hz.ne' hx.ne', log_div hz.ne' hy.ne']
    have hst : x ≠ y → (log x + log y) / 2 < log ((x + y) / 2) := by
      intro hxy
      have := strictConcaveOn_log_Ioi.2 (Set.mem_Ioi.mpr hx) (Set.mem_Ioi.mpr hy) hxy
        (by norm_num : (0 : ℝ) < 1 / 2) (by norm_num : (0 : ℝ) < 1 / 2) (by norm_num)
      simp only [smul_eq_mul] at this
      rw [show (x + y) / 2 = 1 / 2 * x + 1 / 2 * y by ring]
      linarith
    refine ⟨?_, fun hxy => by have := hst hxy; linarith⟩
    by_cases hxy : x = y
    · subst hxy
      rw [show (x + x) / 2 = x by ring]
      linarith
    · have := hst hxy; linarith
  have hdm : ∀ i, S.dens true (vec (List.ofFn m)) (vec e) i =
      (S.dens true (vec (List.ofFn b)) (vec e) i + S.dens true (vec (List.ofFn a)) (vec e) i) / 2 := by
    intro i
    simp only [dens_ofFn, hmdef]
    rw [← sum_add_distrib, sum_div]
    exact sum_congr rfl fun k _ => by ring
  rw [hval a ha, hval m hmm] at h1
  rw [hval b hb, hval a ha] at hle
  have hlt : ∑ i ∈ range N, W i * (f i * log (f i / S.dens true (vec (List.ofFn m)) (vec e) i)) <
      ∑ i ∈ range N, (W i * (f i * log (f i / S.dens true (vec (List.ofFn b)) (vec e) i)) +
        W i * (f i * log (f i / S.dens true (vec (List.ofFn a)) (vec e) i))) / 2 := by
    refine sum_lt_sum (fun j hj => ?_) ⟨i, mem_range.mpr hi, ?_⟩
    · have hj := mem_range.mp hj
      have := (hlog _ _ _ (hp b hb j hj) (hp a ha j hj) (hf j hj)).1
      rw [hdm]
      have h3 := mul_le_mul_of_nonneg_left this (mul_nonneg (hW j hj) (hf j hj).le)
      linarith
    · have := (hlog _ _ _ (hp b hb i hi) (hp a ha i hi) (hf i hi)).2 hne
      rw [hdm]
      have h3 := mul_lt_mul_of_pos_left this (mul_pos hWi (hf i hi))
      linarith
  rw [← sum_div, sum_add_distrib] at hlt
  linarith

/-- The best coefficients of a sum `T`: no non-negative coefficients with this sum have a smaller `kl`
measure. -/
def FPI.BestCoeffs (F : FPI) (n : ℕ) (T : ℝ) (e c : List ℝ) : Prop :=
  c.length = n ∧ (∀ a ∈ c, 0 ≤ a) ∧ c.sum = T ∧ ∀ d : List ℝ, d.length = n → (∀ a ∈ d, 0 ≤ a) → d.sum = T →
    ∃ p q x y, F.goodness (fins c) (fins e) = .ok p ∧ p.kl = XR.fin x ∧
      F.goodness (fins d) (fins e) = .ok q ∧ q.kl = XR.fin y ∧ x ≤ y

theorem best_iff {F : FPI} {S : Shape} {N : ℕ} {W f : ℕ → ℝ} {μ T : ℝ}
    (h : IsFPI F true S N W f μ T) (hN : 0 < N) (hf : ∀ i < N, 0 < f i) {e : List ℝ} (he : e.length = S.nb)
    (hep : ∀ a ∈ e, 0 < a) (a : Fin S.nb → ℝ) :
    F.BestCoeffs S.nb T e (List.ofFn a) ↔ ((∀ k, 0 ≤ a k) ∧ ∑ k, a k = T) ∧
      ∀ c : Fin S.nb → ℝ, (∀ k, 0 ≤ c k) → ∑ k, c k = T →
        klTotal S N W f μ (List.ofFn a) e ≤ klTotal S N W f μ (List.ofFn c) e := by
  unfold FPI.BestCoeffs
  rw [List.forall_mem_ofFn_iff, List.sum_ofFn, List.length_ofFn]
  constructor
  · rintro ⟨-, h1, h2, h3⟩
    refine ⟨⟨h1, h2⟩, fun c hc hs => ?_⟩
    obtain ⟨p, q, x, y, g1, g2, g3, g4, g5⟩ := h3 (List.ofFn c) (by simp)
      (by rw [List.forall_mem_ofFn_iff]; exact hc) (by rw [List.sum_ofFn]; exact hs)
    obtain ⟨p', k1, k2⟩ := goodness_klTotal h.data hN h.mask hf (List.ofFn a) e (by simp) he
      (by rw [List.forall_mem_ofFn_iff]; exact h1) hep
    obtain ⟨q', k3, k4⟩ := goodness_klTotal h.data hN h.mask hf (List.ofFn c) e (by simp) he
      (by rw [List.forall_mem_ofFn_iff]; exact hc) hep
    rw [g1] at k1; rw [g3] at k3
    injection k1 with k1; injection k3 with k3
    rw [← k1, g2, XR.fin_inj] at k2
    rw [← k3, g4, XR.fin_inj] at k4
    rw [← k2, ← k4]
    exact g5
  · rintro ⟨⟨h1, h2⟩, h3⟩
    refine ⟨rfl, h1, h2, fun d hd hd0 hds => ?_⟩
    obtain ⟨c, rfl⟩ := list_ofFn_get d hd
    rw [List.forall_mem_ofFn_iff] at hd0
    rw [List.sum_ofFn] at hds
    obtain ⟨p', k1, k2⟩ := goodness_klTotal h.data hN h.mask hf (List.ofFn a) e (by simp) he
      (by rw [List.forall_mem_ofFn_iff]; exact h1) hep
    obtain ⟨q', k3, k4⟩ := goodness_klTotal h.data hN h.mask hf (List.ofFn c) e (by simp) he
      (by rw [List.forall_mem_ofFn_iff]; exact hd0) hep
    exact ⟨p', q', _, _, k1, k2, k3, k4, h3 c hd0 hds⟩

/-- What is common to all best coefficients is the limit of the iteration. -/
theorem coeff_limit {F : FPI} {S : Shape} {N : ℕ} {W f : ℕ → ℝ} {μ T : ℝ}
    (h : IsFPI F true S N W f μ T) (hW : ∀ i < N, 0 ≤ W i) (hT : 0 < T) (hs : S.Sees N W f)
    (hf : ∀ i < N, 0 < f i) (eT : XR) (c e : List ℝ) (hg : S.Good c e) (hcp : ∀ a ∈ c, 0 < a)
    (hsum : c.sum = T) (hm : S.Clear N f μ T e) {a : Fin S.nb → ℝ}
    (ha : F.BestCoeffs S.nb T e (List.ofFn a)) {q : (Fin S.nb → ℝ) → ℝ} (hq : Continuous q)
    (hu : ∀ b : Fin S.nb → ℝ, F.BestCoeffs S.nb T e (List.ofFn b) → q b = q a) (δ : ℝ) (hδ : 0 < δ) :
    ∃ M : ℕ, ∀ maxiter : ℤ, (M : ℤ) ≤ maxiter → ∃ r, ∃ b : Fin S.nb → ℝ,
      F.run (.arr (ND.vec (fins c))) (.arr (ND.vec (fins e)))
        ⟨true, false, maxiter, XR.fin 0, eT, XR.fin 0⟩ = .ok r ∧
      r.coeffs = fins (List.ofFn b) ∧ r.exps = fins e ∧ |q b - q a| < δ := by
  have hN := hs.pos h.data.model.nb_pos
  have ha' := (best_iff h hN hf hg.elen hg.epos a).mp ha
  obtain ⟨ε, hε, hnear⟩ := near_minimum (compact_simplex T) (klTotal_continuousOn (W := W) hT hf hm) hq
    (a := a) (fun b hb hle => hu b ((best_iff h hN hf hg.elen hg.epos b).mpr
      ⟨hb, fun d hd hds => hle.trans (ha'.2 d hd hds)⟩)) hδ
  obtain ⟨M, hM⟩ := C81_limit h hW hT hs hf eT c e hg hcp hsum hm ε hε
  obtain ⟨m, hm0, hcm⟩ : ∃ m, 0 < m ∧ ∀ x ∈ c, m ≤ x := by
    clear hsum hM hg
    induction c with
    | nil => exact ⟨1, one_pos, by simp⟩
    | cons x c ih =>
      obtain ⟨m, h1, h2⟩ := ih fun b hb => hcp b (List.mem_cons_of_mem _ hb)
      refine ⟨min x m, lt_min (hcp x (by simp)) h1, fun b hb => ?_⟩
      rcases List.mem_cons.mp hb with rfl | hb
      · exact min_le_left _ _
      · exact (min_le_right _ _).trans (h2 b hb)
  refine ⟨M, fun maxiter hmax => ?_⟩
  obtain ⟨r, p, y, k1, k2, k3, k4⟩ := hM maxiter hmax
  obtain ⟨r', hist, c', I, j1, -, j3, j4, ⟨j5, j6, j7⟩, -⟩ := C81_rate h hW hT hs hf
    ⟨true, false, maxiter, XR.fin 0, eT, XR.fin 0⟩ rfl rfl c e hg hm0 hcm hsum hm
  rw [k1] at j1
  injection j1 with j1
  subst j1
  obtain ⟨b, rfl⟩ := list_ofFn_get c' j5
  rw [List.forall_mem_ofFn_iff] at j6
  rw [List.sum_ofFn] at j7
  refine ⟨r, b, k1, j3, j4, hnear b ⟨fun k => (j6 k).le, j7⟩ ?_⟩
  obtain ⟨p', x, g1, g2, g3⟩ := k4 (List.ofFn a) (by simp) (by rw [List.forall_mem_ofFn_iff]; exact ha'.1.1)
    (by rw [List.sum_ofFn]; exact ha'.1.2)
  obtain ⟨p1, l1, l2⟩ := goodness_klTotal h.data hN h.mask hf (List.ofFn a) e (by simp) hg.elen
    (by rw [List.forall_mem_ofFn_iff]; exact ha'.1.1) hg.epos
  obtain ⟨p2, l3, l4⟩ := goodness_klTotal h.data hN h.mask hf (List.ofFn b) e (by simp) hg.elen
    (by rw [List.forall_mem_ofFn_iff]; exact fun k => (j6 k).le) hg.epos
  rw [j3, j4, l3] at k2
  injection k2 with k2
  rw [g1] at l1
  injection l1 with l1
  rw [← l1, g2, XR.fin_inj] at l2
  rw [k2, k3, XR.fin_inj] at l4
  rw [← l2, ← l4]
  exact g3

/-- There are best coefficients, and all give the same model where the weights are positive. -/
theorem best_exists {F : FPI} {S : Shape} {N : ℕ} {W f : ℕ → ℝ} {μ T : ℝ}
    (h : IsFPI F true S N W f μ T) (hW : ∀ i < N, 0 ≤ W i) (hT : 0 < T) (hN : 0 < N)
    (hf : ∀ i < N, 0 < f i) {c e : List ℝ} (hg : S.Good c e) (hsum : c.sum = T) (hm : S.Clear N f μ T e) :
    ∃ a : Fin S.nb → ℝ, F.BestCoeffs S.nb T e (List.ofFn a) ∧
      ∀ b : Fin S.nb → ℝ, F.BestCoeffs S.nb T e (List.ofFn b) →
        ∀ i < N, 0 < W i →
          S.dens true (vec (List.ofFn b)) (vec e) i = S.dens true (vec (List.ofFn a)) (vec e) i := by
  obtain ⟨c, rfl⟩ := list_ofFn_get c hg.clen
  have hcn := hg.cnn
  rw [List.forall_mem_ofFn_iff] at hcn
  rw [List.sum_ofFn] at hsum
  obtain ⟨a, ha, hmin⟩ := (compact_simplex T).exists_isMinOn ⟨c, hcn, hsum⟩
    (klTotal_continuousOn (W := W) hT hf hm)
  have ha' : F.BestCoeffs S.nb T e (List.ofFn a) := (best_iff h hN hf hg.elen hg.epos a).mpr
    ⟨ha, fun d hd hds => hmin (show d ∈ {c : Fin S.nb → ℝ | (∀ k, 0 ≤ c k) ∧ ∑ k, c k = T} from ⟨hd, hds⟩)⟩
  refine ⟨a, ha', fun b hb => ?_⟩
  have hb' := (best_iff h hN hf hg.elen hg.epos b).mp hb
  exact minimisers_agree hT hW hf hm ha hb'.1
    (fun d hd hds => hmin (show d ∈ {c : Fin S.nb → ℝ | (∀ k, 0 ≤ c k) ∧ ∑ k, c k = T} from ⟨hd, hds⟩))
    (hb'.2 a ha.1 ha.2)

theorem limit_uniform {n : ℕ} {P : ℕ → ℤ → Prop} {A : ℤ → Prop}
    (h : ∀ i < n, ∃ M : ℕ, ∀ m : ℤ, (M : ℤ) ≤ m → P i m) (hA : ∀ m, (∀ i < n, P i m) → A m) :
    ∃ M : ℕ, ∀ m : ℤ, (M : ℤ) ≤ m → A m := by
  choose! M hM using h
  refine ⟨∑ i ∈ range n, M i, fun m hm => hA m fun i hi => hM i hi m (le_trans ?_ hm)⟩
  exact_mod_cast single_le_sum (f := M) (fun _ _ => Nat.zero_le _) (mem_range.mpr hi)

/-- **C120** (model).  Optimising the coefficients only, from positive coefficients that sum to
`integral_dens`, with thresholds zero: there are best coefficients, all of them give the same model where
the integration weights are positive, and the model of the returned coefficients converges to it there as
`maxiter` grows. -/
theorem C120_model {F : FPI} {S : Shape} {N : ℕ} {W f : ℕ → ℝ} {μ T : ℝ}
    (h : IsFPI F true S N W f μ T) (hW : ∀ i < N, 0 ≤ W i) (hT : 0 < T) (hs : S.Sees N W f)
    (hf : ∀ i < N, 0 < f i) (eT : XR) (c e : List ℝ) (hg : S.Good c e) (hcp : ∀ a ∈ c, 0 < a)
    (hsum : c.sum = T) (hm : S.Clear N f μ T e) :
    ∃ v : List ℝ, (∃ c', F.BestCoeffs S.nb T e c') ∧
      (∀ c', F.BestCoeffs S.nb T e c' → ∃ w : List ℝ,
        F.model.evaluate (fins c') (fins e) false = .ok (fins w, none) ∧
        w.length = N ∧ ∀ i < N, 0 < W i → vec w i = vec v i) ∧
      ∀ δ > 0, ∃ M : ℕ, ∀ maxiter : ℤ, (M : ℤ) ≤ maxiter → ∃ r, ∃ w : List ℝ,
        F.run (.arr (ND.vec (fins c))) (.arr (ND.vec (fins e)))
          ⟨true, false, maxiter, XR.fin 0, eT, XR.fin 0⟩ = .ok r ∧
        F.model.evaluate r.coeffs r.exps false = .ok (fins w, none) ∧ w.length = N ∧
          ∀ i < N, 0 < W i → |vec w i - vec v i| < δ := by
  have hN := hs.pos h.data.model.nb_pos
  obtain ⟨a, ha, hun⟩ := best_exists h hW hT hN hf hg hsum hm
  have hev : ∀ b : Fin S.nb → ℝ, F.model.evaluate (fins (List.ofFn b)) (fins e) false =
      .ok (fins (tab N (S.dens true (vec (List.ofFn b)) (vec e))), none) := fun b =>
    h.data.model.eval _ _ false (by simp) hg.elen fun _ x hx => (hg.epos x hx).le
  refine ⟨tab N (S.dens true (vec (List.ofFn a)) (vec e)), ⟨_, ha⟩, fun c' hc' => ?_, fun δ hδ => ?_⟩
  · obtain ⟨b, rfl⟩ := list_ofFn_get c' hc'.1
    refine ⟨_, hev b, by simp [tab], fun i hi hWi => ?_⟩
    rw [vec_tab hi, vec_tab hi]
    exact hun b hc' i hi hWi
  · refine limit_uniform (n := N) (P := fun i m => 0 < W i → ∃ r, ∃ b : Fin S.nb → ℝ,
        F.run (.arr (ND.vec (fins c))) (.arr (ND.vec (fins e)))
          ⟨true, false, m, XR.fin 0, eT, XR.fin 0⟩ = .ok r ∧
        r.coeffs = fins (List.ofFn b) ∧ r.exps = fins e ∧
        |S.dens true (vec (List.ofFn b)) (vec e) i - S.dens true (vec (List.ofFn a)) (vec e) i| < δ) ?_ ?_
    · intro i hi
      by_cases hWi : 0 < W i
      · obtain ⟨M, hM⟩ := coeff_limit h hW hT hs hf eT c e hg hcp hsum hm ha (continuous_dens S true (vec e) i)
          (fun b hb => hun b hb i hi hWi) δ hδ
        exact ⟨M, fun m hm' _ => hM m hm'⟩
      · exact ⟨0, fun m _ h0 => absurd h0 hWi⟩
    · intro m hP
      obtain ⟨k, hk, hk1, hk2, -⟩ := hs 0 h.data.model.nb_pos
      obtain ⟨r, b, k1, k2, k3, -⟩ := hP k hk hk1
      refine ⟨r, _, k1, by rw [k2, k3]; exact hev b, by simp [tab], fun i hi hWi => ?_⟩
      obtain ⟨r', b', l1, l2, l3, l4⟩ := hP i hi hWi
      rw [k1] at l1
      injection l1 with l1
      subst l1
      rw [k2] at l2
      have l2 := List.ofFn_injective (fins_inj l2)
      subst l2
      rw [vec_tab hi, vec_tab hi]
      exact l4

/-- **C120** (coefficients).  If no combination of the basis functions vanishes at all grid points of
positive weight, the best coefficients are unique and the returned coefficients converge to them. -/
theorem C120_coefficients {F : FPI} {S : Shape} {N : ℕ} {W f : ℕ → ℝ} {μ T : ℝ}
    (h : IsFPI F true S N W f μ T) (hW : ∀ i < N, 0 ≤ W i) (hT : 0 < T) (hs : S.Sees N W f)
    (hf : ∀ i < N, 0 < f i) (eT : XR) (c e : List ℝ) (hg : S.Good c e) (hcp : ∀ a ∈ c, 0 < a)
    (hsum : c.sum = T) (hm : S.Clear N f μ T e) (hind : S.Independent true N W (fun _ => 1) e) :
    ∃ c', (∀ d, F.BestCoeffs S.nb T e d ↔ d = c') ∧
      ∀ δ > 0, ∃ M : ℕ, ∀ maxiter : ℤ, (M : ℤ) ≤ maxiter → ∃ r, ∃ b : List ℝ,
        F.run (.arr (ND.vec (fins c))) (.arr (ND.vec (fins e)))
          ⟨true, false, maxiter, XR.fin 0, eT, XR.fin 0⟩ = .ok r ∧
        r.coeffs = fins b ∧ r.exps = fins e ∧ b.length = S.nb ∧ ∀ k < S.nb, |vec b k - vec c' k| < δ := by
  have hN := hs.pos h.data.model.nb_pos
  obtain ⟨a, ha, hun⟩ := best_exists h hW hT hN hf hg hsum hm
  have huq : ∀ d, F.BestCoeffs S.nb T e d → d = List.ofFn a := by
    intro d hd
    obtain ⟨b, rfl⟩ := list_ofFn_get d hd.1
    exact eq_of_independent hind (by simp) (by simp) fun i hi hWi _ => hun b hd i hi hWi
  refine ⟨List.ofFn a, fun d => ⟨huq d, fun hd => hd ▸ ha⟩, fun δ hδ => ?_⟩
  refine limit_uniform (n := S.nb) (P := fun k m => ∃ r, ∃ b : Fin S.nb → ℝ,
      F.run (.arr (ND.vec (fins c))) (.arr (ND.vec (fins e)))
        ⟨true, false, m, XR.fin 0, eT, XR.fin 0⟩ = .ok r ∧
      r.coeffs = fins (List.ofFn b) ∧ r.exps = fins e ∧ |vec (List.ofFn b) k - vec (List.ofFn a) k| < δ) ?_ ?_
  · intro k hk
    obtain ⟨M, hM⟩ := coeff_limit h hW hT hs hf eT c e hg hcp hsum hm ha
      (q := fun b => vec (List.ofFn b) k) (by
        have : (fun b : Fin S.nb → ℝ => vec (List.ofFn b) k) = fun b => b ⟨k, hk⟩ := by
          funext b
          exact vec_ofFn b ⟨k, hk⟩
        rw [this]
        fun_prop)
      (fun b hb => by rw [huq _ hb]) δ hδ
    exact ⟨M, hM⟩
  · intro m hP
    obtain ⟨r, b, k1, k2, k3, -⟩ := hP 0 h.data.model.nb_pos
    refine ⟨r, _, k1, k2, k3, by simp, fun k hk => ?_⟩
    obtain ⟨r', b', l1, l2, l3, l4⟩ := hP k hk
    rw [k1] at l1
    injection l1 with l1
    subst l1
    rw [k2] at l2
    have l2 := List.ofFn_injective (fins_inj l2)
    subst l2
    exact l4

theorem conv_independent : (atomShape [1, 2] 1 1).Independent true 2 (vec [1 / 2, 1 / 2]) (fun _ => 1) [1, 2] := by
  intro a ha
  have h0 := ha 0 (by norm_num) (by norm_num [vec]) one_pos
  have h1 := ha 1 (by norm_num) (by norm_num [vec]) one_pos
  obtain ⟨A, hA, e1⟩ : ∃ A, 0 < A ∧ ∀ r, bf true true 1 r = A * exp (-r ^ 2) :=
    ⟨(1 / π) ^ (3 / 2 : ℝ), by positivity, fun r => by simp only [bf, sBasis, if_true, neg_mul, one_mul]⟩
  obtain ⟨B, hB, e2⟩ : ∃ B, 0 < B ∧ ∀ r, bf false true 2 r = B * (r ^ 2 * exp (-2 * r ^ 2)) :=
    ⟨2 * 2 ^ (5 / 2 : ℝ) / (3 * π ^ (3 / 2 : ℝ)), by positivity, fun r => by
      simp only [bf, pBasis, Bool.false_eq_true, if_true, if_false]⟩
  have s0 : (atomShape [1, 2] 1 1).isS 0 = true := rfl
  have s1 : (atomShape [1, 2] 1 1).isS 1 = false := rfl
  have r0 : ∀ k, (atomShape [1, 2] 1 1).rad k 0 = 1 := fun _ => rfl
  have r1 : ∀ k, (atomShape [1, 2] 1 1).rad k 1 = 2 := fun _ => rfl
  have nb : (atomShape [1, 2] 1 1).nb = 2 := rfl
  have v0 : vec [1, 2] 0 = 1 := rfl
  have v1 : vec [1, 2] 1 = 2 := rfl
  simp only [nb, sum_range_succ, sum_range_zero, zero_add, s0, s1, r0, r1, v0, v1, e1, e2] at h0 h1
  rw [nb]
  have hx : 0 < exp (-1) := exp_pos _
  have hx1 : exp (-1 : ℝ) < 1 / 2 := by
    rw [exp_neg, inv_eq_one_div]
    exact one_div_lt_one_div_of_lt two_pos (by have := exp_one_gt_d9; linarith)
  have p2 : exp (-(1 : ℝ) ^ 2) = exp (-1) := by norm_num
  have p3 : exp (-2 * (1 : ℝ) ^ 2) = exp (-1) ^ 2 := by rw [← exp_nat_mul]; norm_num
  have p4 : exp (-(2 : ℝ) ^ 2) = exp (-1) ^ 4 := by rw [← exp_nat_mul]; norm_num
  have p5 : exp (-2 * (2 : ℝ) ^ 2) = exp (-1) ^ 8 := by rw [← exp_nat_mul]; norm_num
  rw [p2, p3] at h0
  rw [p4, p5] at h1
  set x := exp (-1 : ℝ)
  have k1 : a 1 * (B * (x ^ 5 * (4 * x ^ 3 - 1))) = 0 := by linear_combination h1 - x ^ 3 * h0
  have k2 : 4 * x ^ 3 - 1 < 0 := by
    have : x ^ 3 < (1 / 2) ^ 3 := pow_lt_pow_left₀ hx1 hx.le (by norm_num)
    norm_num at this
    linarith
  have k3 : a 1 = 0 := by
    rcases mul_eq_zero.mp k1 with h | h
    · exact h
    · exact absurd h (mul_ne_zero hB.ne' (mul_ne_zero (pow_pos hx 5).ne' k2.ne))
  rw [k3, zero_mul, add_zero] at h0
  have k4 : a 0 = 0 := by
    rcases mul_eq_zero.mp h0 with h | h
    · exact h
    · exact absurd h (mul_pos hA hx).ne'
  intro k hk
  interval_cases k <;> assumption

/-- C120 on the object of `conv_isFPI`, from coefficients `1, 2`. -/
example : ∃ F, FPI.init (.radial ⟨fins [1, 2]⟩) (fins [1, 1]) (.atom convAtom) (XR.fin 0)
      (some (XR.fin 3)) false = .ok F ∧ ∃ c', (∀ d, F.BestCoeffs 2 3 [1, 2] d ↔ d = c') ∧
      ∀ δ > 0, ∃ M : ℕ, ∀ maxiter : ℤ, (M : ℤ) ≤ maxiter → ∃ r, ∃ b : List ℝ,
        F.run (.arr (ND.vec (fins [1, 2]))) (.arr (ND.vec (fins [1, 2])))
          ⟨true, false, maxiter, XR.fin 0, XR.fin 0, XR.fin 0⟩ = .ok r ∧
        r.coeffs = fins b ∧ r.exps = fins [1, 2] ∧ b.length = 2 ∧ ∀ k < 2, |vec b k - vec c' k| < δ := by
  obtain ⟨F, h1, h2⟩ := conv_isFPI
  exact ⟨F, h1, C120_coefficients h2 (by intro i hi; interval_cases i <;> norm_num [vec]) (by norm_num)
    (fun k _ => ⟨0, by norm_num, by norm_num [vec], by norm_num, by norm_num [atomShape, vec]⟩)
    (fun _ _ => one_pos) (XR.fin 0) [1, 2] [1, 2] ⟨rfl, rfl, by simp, by simp⟩ (by simp) (by norm_num)
    conv_clear conv_independent⟩

/-- The models of the returned coefficients on the same object converge at both grid points. -/
example : ∃ F, FPI.init (.radial ⟨fins [1, 2]⟩) (fins [1, 1]) (.atom convAtom) (XR.fin 0)
      (some (XR.fin 3)) false = .ok F ∧ ∃ v : List ℝ,
      ∀ δ > 0, ∃ M : ℕ, ∀ maxiter : ℤ, (M : ℤ) ≤ maxiter → ∃ r, ∃ w : List ℝ,
        F.run (.arr (ND.vec (fins [1, 2]))) (.arr (ND.vec (fins [1, 2])))
          ⟨true, false, maxiter, XR.fin 0, XR.fin 0, XR.fin 0⟩ = .ok r ∧
        F.model.evaluate r.coeffs r.exps false = .ok (fins w, none) ∧ ∀ i < 2, |vec w i - vec v i| < δ := by
  obtain ⟨F, h1, h2⟩ := conv_isFPI
  obtain ⟨v, -, -, h3⟩ := C120_model h2 (by intro i hi; interval_cases i <;> norm_num [vec]) (by norm_num)
    (fun k _ => ⟨0, by norm_num, by norm_num [vec], by norm_num, by norm_num [atomShape, vec]⟩)
    (fun _ _ => one_pos) (XR.fin 0) [1, 2] [1, 2] ⟨rfl, rfl, by simp, by simp⟩ (by simp) (by norm_num)
    conv_clear
  refine ⟨F, h1, v, fun δ hδ => ?_⟩
  obtain ⟨M, hM⟩ := h3 δ hδ
  refine ⟨M, fun maxiter hmax => ?_⟩
  obtain ⟨r, w, k1, k2, -, k4⟩ := hM maxiter hmax
  exact ⟨r, w, k1, k2, fun i hi => k4 i hi (by interval_cases i <;> norm_num [vec])⟩

end
end BFit
