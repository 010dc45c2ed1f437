import Verif.Props.FPIConverge
import Verif.Lemmas.Mixture

/-!
Optimising the coefficients only: fixed points are global minima of the divergence, and the run
approaches the global minimum at an explicit rate.
-/

namespace BFit

open Real Classical Finset

noncomputable section

/-- Every single basis function with coefficient `T` is above the mask at every grid point. -/
def Shape.Clear (S : Shape) (N : ℕ) (f : ℕ → ℝ) (μ T : ℝ) (e : List ℝ) : Prop :=
  ∀ k < S.nb, ∀ i < N, Unmasked μ (f i) (T * bf (S.isS k) true (vec e k) (S.rad k i))

/-- The basis functions on the grid. -/
def Shape.phi (S : Shape) (e : List ℝ) (k i : ℕ) : ℝ := bf (S.isS k) true (vec e k) (S.rad k i)

theorem dens_mixD (S : Shape) (c : ℕ → ℝ) (e : List ℝ) (i : ℕ) :
    S.dens true c (vec e) i = mixD S.nb (S.phi e) c i := rfl

theorem Shape.Clear.unmasked {S : Shape} {N : ℕ} {f : ℕ → ℝ} {μ T : ℝ} {e : List ℝ}
    (h : S.Clear N f μ T e) (hT : 0 < T) {c : List ℝ} (hc : c.length = S.nb) (hcn : ∀ a ∈ c, 0 ≤ a)
    (hsum : c.sum = T) : S.AllUnmasked true N μ f c e := by
  intro i hi
  have hcv := vec_of_mem hc hcn
  rw [sum_vec hc] at hsum
  obtain ⟨k, hk, hk0⟩ : ∃ k ∈ range S.nb, 0 < vec c k := by
    by_contra hcon
    push Not at hcon
    have := Finset.sum_nonpos hcon
    linarith
  have key : ∀ x : ℝ, (∀ k < S.nb, x < T * S.phi e k i) → x < S.dens true (vec c) (vec e) i := by
    intro x hx
    have h1 : ∑ k ∈ range S.nb, vec c k * x < ∑ k ∈ range S.nb, vec c k * (T * S.phi e k i) :=
      Finset.sum_lt_sum (fun l hl => mul_le_mul_of_nonneg_left (hx l (mem_range.mp hl)).le
        (hcv l (mem_range.mp hl))) ⟨k, hk, mul_lt_mul_of_pos_left (hx k (mem_range.mp hk)) hk0⟩
    rw [← Finset.sum_mul, hsum] at h1
    have h2 : ∑ k ∈ range S.nb, vec c k * (T * S.phi e k i) = T * S.dens true (vec c) (vec e) i := by
      unfold Shape.dens
      rw [Finset.mul_sum]
      exact Finset.sum_congr rfl fun k _ => by unfold Shape.phi; ring
    rw [h2] at h1
    exact lt_of_mul_lt_mul_left h1 hT.le
  exact ⟨key _ fun k hk => (h k hk i hi).1, key _ fun k hk => (h k hk i hi).2⟩

theorem Shape.Clear.phi_pos {S : Shape} {N : ℕ} {f : ℕ → ℝ} {μ T : ℝ} {e : List ℝ}
    (h : S.Clear N f μ T e) (hT : 0 < T) (hf : ∀ i < N, 0 < f i) : ∀ k < S.nb, ∀ i < N, 0 < S.phi e k i := by
  intro k hk i hi
  have h1 := unmasked_pos (hf i hi).le (h k hk i hi)
  exact pos_of_mul_pos_right h1 hT.le

theorem klTotal_mixL {S : Shape} {N : ℕ} {W f : ℕ → ℝ} {μ : ℝ} {c e : List ℝ} (hf : ∀ i < N, 0 < f i)
    (hu : S.AllUnmasked true N μ f c e) : klTotal S N W f μ c e =
      ∑ i ∈ range N, W i * f i * log (f i) - mixL S.nb N (S.phi e) (fun i => W i * f i) (vec c) := by
  unfold klTotal mixL
  rw [← Finset.sum_sub_distrib]
  apply Finset.sum_congr rfl
  intro i hi
  have hi := mem_range.mp hi
  rw [klVal_unmasked (hu i hi)]
  unfold klInt
  rw [log_div (hf i hi).ne' (unmasked_pos (hf i hi).le (hu i hi)).ne', dens_mixD]
  ring

theorem fpiA_mixA (S : Shape) (N : ℕ) (W f : ℕ → ℝ) (c : ℕ → ℝ) (e : List ℝ) (k : ℕ) :
    fpiA S true N W (fun i => f i / S.dens true c (vec e) i) (vec e) k =
      mixA S.nb N (S.phi e) (fun i => W i * f i) c k := by
  unfold fpiA mixA
  apply Finset.sum_congr rfl
  intro i _
  simp only [dens_mixD]
  unfold Shape.phi
  ring

/-- What an update of the coefficients computes. -/
theorem coef_update {F : FPI} {S : Shape} {N : ℕ} {W f : ℕ → ℝ} {μ T : ℝ}
    (h : IsFPI F true S N W f μ T) (hf : ∀ i < N, 0 < f i) (c e : List ℝ) (hg : S.Good c e)
    (hu : S.AllUnmasked true N μ f c e) :
    F.updateParams (fins c) (fins e) true false = .ok (fins (tab S.nb fun k =>
      vec c k * mixA S.nb N (S.phi e) (fun i => W i * f i) (vec c) k / ((∑ i ∈ range N, W i * f i) / T)),
      fins e) := by
  have hev := vec_of_mem hg.elen hg.epos
  rw [updateParams_fins h.data h.mask h.lm h.lm_ne h.f_nonneg c e hg.clen hg.elen
    (fun _ a ha => (hg.epos a ha).le)
    (fun i hi => (unmasked_pos (hf i hi).le (hu i hi)).le) true false (Or.inl rfl) (by simp)]
  simp only [if_true, Bool.false_eq_true, if_false]
  rw [(fpiA_congr (ratio_unmasked hu)).1]
  congr 3
  · congr 1
    funext k
    rw [fpiA_mixA]
  · exact (eq_range_map e _ hg.elen).symm

/-- **C80**.  Optimising the coefficients only: let every basis function with all the charge be above
the mask at every grid point.  Positive coefficients with sum `integral_dens` are a fixed point of the
update if and only if no other non-negative coefficients with this sum have a smaller Kullback-Leibler
divergence, as `goodness_of_fit` reports it. -/
theorem C80_optimal {F : FPI} {S : Shape} {N : ℕ} {W f : ℕ → ℝ} {μ T : ℝ}
    (h : IsFPI F true S N W f μ T) (hW : ∀ i < N, 0 ≤ W i) (hT : 0 < T) (hs : S.Sees N W f)
    (hf : ∀ i < N, 0 < f i) (c e : List ℝ) (hg : S.Good c e) (hcp : ∀ a ∈ c, 0 < a) (hsum : c.sum = T)
    (hm : S.Clear N f μ T e) :
    F.updateParams (fins c) (fins e) true false = .ok (fins c, fins e) ↔
      ∀ c' : List ℝ, c'.length = S.nb → (∀ a ∈ c', 0 ≤ a) → c'.sum = T →
        ∃ p p' x x', F.goodness (fins c) (fins e) = .ok p ∧ F.goodness (fins c') (fins e) = .ok p' ∧
          p.kl = XR.fin x ∧ p'.kl = XR.fin x' ∧ x ≤ x' := by
  have hN := hs.pos h.data.model.nb_pos
  have hu := hm.unmasked hT hg.clen hg.cnn hsum
  have hL : 0 < (∑ i ∈ range N, W i * f i) / T :=
    lt_of_le_of_ne (div_nonneg (Finset.sum_nonneg fun i hi =>
      mul_nonneg (hW i (mem_range.mp hi)) (h.f_nonneg i (mem_range.mp hi))) hT.le) h.lm_ne.symm
  set L := (∑ i ∈ range N, W i * f i) / T with hLd
  have hLT : L * T = ∑ i ∈ range N, W i * f i := by rw [hLd]; field_simp
  have ha : ∀ i < N, 0 ≤ W i * f i := fun i hi => mul_nonneg (hW i hi) (hf i hi).le
  have hφ := hm.phi_pos hT hf
  have hcv := vec_of_mem hg.clen hcp
  have hgm : ∀ i < N, 0 < mixD S.nb (S.phi e) (vec c) i := fun i hi => unmasked_pos (hf i hi).le (hu i hi)
  obtain ⟨p, hp, hpk⟩ := goodness_klTotal h.data hN h.mask hf c e hg.clen hg.elen hg.cnn hg.epos
  have hfixiff : F.updateParams (fins c) (fins e) true false = .ok (fins c, fins e) ↔
      ∀ k < S.nb, mixA S.nb N (S.phi e) (fun i => W i * f i) (vec c) k = L := by
    rw [coef_update h hf c e hg hu]
    constructor
    · intro heq k hk
      injection heq with heq
      rw [Prod.mk.injEq] at heq
      have h1 := fins_inj heq.1
      have h2 : vec (tab S.nb fun k => vec c k * mixA S.nb N (S.phi e) (fun i => W i * f i) (vec c) k / L) k =
          vec c k := by rw [h1]
      rw [vec_tab hk] at h2
      have h3 := hcv k hk
      field_simp at h2
      linarith
    · intro hall
      congr 3
      have e1 : (tab S.nb fun k => vec c k * mixA S.nb N (S.phi e) (fun i => W i * f i) (vec c) k / L) =
          (List.range S.nb).map fun k => vec c k := by
        apply List.map_congr_left
        intro k hk
        rw [hall k (List.mem_range.mp hk)]
        field_simp
      rw [e1]
      exact (eq_range_map c _ hg.clen).symm
  have hA : ∀ k < S.nb, 0 < mixA S.nb N (S.phi e) (fun i => W i * f i) (vec c) k := by
    intro k hk
    rw [← fpiA_mixA]
    exact (fpiA_pos hs hW (fun i hi => div_nonneg (hf i hi).le (hgm i hi).le)
      (fun i hi _ => div_pos (hf i hi) (hgm i hi)) hk (vec_of_mem hg.elen hg.epos k hk)).1
  rw [hfixiff]
  constructor
  · intro hall c' hc' hcn' hsum'
    have hu' := hm.unmasked hT hc' hcn' hsum'
    obtain ⟨p', hp', hpk'⟩ := goodness_klTotal h.data hN h.mask hf c' e hc' hg.elen hcn' hg.epos
    refine ⟨p, p', _, _, hp, hp', hpk, hpk', ?_⟩
    rw [klTotal_mixL hf hu, klTotal_mixL hf hu']
    have := mix_opt (n := S.nb) (φ := S.phi e) (L := L) ha (fun k hk => (hall k hk).le)
      (vec_of_mem hc' hcn') hgm (fun i hi => unmasked_pos (hf i hi).le (hu' i hi))
      (by rw [← sum_vec hc', hsum', hLT])
    linarith
  · intro hopt k hk
    have hstep := mix_step (n := S.nb) (φ := S.phi e) (c := vec c) hL ha (fun k hk i hi => (hφ k hk i hi).le)
      hA (fun k hk => (hcv k hk).le) hgm (by rw [← sum_vec hg.clen, hsum, hLT])
    refine hstep.2 ?_ k hk (hcv k hk)
    set c' := tab S.nb fun k => vec c k * mixA S.nb N (S.phi e) (fun i => W i * f i) (vec c) k / L with hc'd
    have hvec : ∀ k < S.nb, vec c' k =
        vec c k * mixA S.nb N (S.phi e) (fun i => W i * f i) (vec c) k / L := fun k hk => by
      rw [hc'd, vec_tab hk]
    have hlen : c'.length = S.nb := by simp [hc'd]
    have hnn : ∀ a ∈ c', 0 ≤ a := by
      intro a ha
      obtain ⟨k, hk, rfl⟩ := List.mem_map.mp ha
      have hk := List.mem_range.mp hk
      exact div_nonneg (mul_nonneg (hcv k hk).le (hA k hk).le) hL.le
    have hs' : c'.sum = T := by
      rw [sum_vec hlen, Finset.sum_congr rfl fun k hk => hvec k (mem_range.mp hk), ← Finset.sum_div, sum_mixA]
      have : ∑ i ∈ range N, W i * f i * (mixD S.nb (S.phi e) (vec c) i / mixD S.nb (S.phi e) (vec c) i) =
          L * T := by
        rw [hLT]
        exact Finset.sum_congr rfl fun i hi => by rw [div_self (hgm i (mem_range.mp hi)).ne', mul_one]
      rw [this]
      field_simp
    have hu' := hm.unmasked hT hlen hnn hs'
    obtain ⟨q, q', x, x', g1, g2, g3, g4, g5⟩ := hopt c' hlen hnn hs'
    obtain ⟨p', hp', hpk'⟩ := goodness_klTotal h.data hN h.mask hf c' e hlen hg.elen hnn hg.epos
    rw [hp] at g1
    rw [hp'] at g2
    injection g1 with g1
    injection g2 with g2
    subst g1 g2
    rw [hpk, XR.fin_inj] at g3
    rw [hpk', XR.fin_inj] at g4
    subst g3 g4
    rw [klTotal_mixL hf hu, klTotal_mixL hf hu'] at g5
    have e1 : mixL S.nb N (S.phi e) (fun i => W i * f i) (vec c') =
        mixL S.nb N (S.phi e) (fun i => W i * f i)
          (fun k => vec c k * mixA S.nb N (S.phi e) (fun i => W i * f i) (vec c) k / L) := by
      unfold mixL mixD
      apply Finset.sum_congr rfl
      intro i _
      congr 2
      exact Finset.sum_congr rfl fun k hk => by rw [hvec k (mem_range.mp hk)]
    rw [← e1]
    linarith

/-- All iterates of the coefficient updates. -/
theorem coef_iter {F : FPI} {S : Shape} {N : ℕ} {W f : ℕ → ℝ} {μ T : ℝ}
    (h : IsFPI F true S N W f μ T) (hW : ∀ i < N, 0 ≤ W i) (hT : 0 < T) (hs : S.Sees N W f)
    (hf : ∀ i < N, 0 < f i) (c e : List ℝ) (hg : S.Good c e) (hcp : ∀ a ∈ c, 0 < a) (hsum : c.sum = T)
    (hm : S.Clear N f μ T e) :
    ∃ cs : ℕ → List ℝ, IsIter F true false c e cs (fun _ => e) ∧ ∀ j, S.Good (cs j) e ∧
      (∀ a ∈ cs j, 0 < a) ∧ (cs j).sum = T ∧ S.AllUnmasked true N μ f (cs j) e ∧
      ∀ k < S.nb, vec (cs (j + 1)) k = vec (cs j) k *
        mixA S.nb N (S.phi e) (fun i => W i * f i) (vec (cs j)) k / ((∑ i ∈ range N, W i * f i) / T) := by
  obtain ⟨cs, es, hit⟩ := exists_iter h hW hT hs true false (Or.inl rfl) c e hg
  have hes : ∀ j, es j = e := by
    intro j
    induction j with
    | zero => exact hit.zero.2
    | succ j ih => exact (fins_inj ((updateParams_frozen (hit.succ j)).2 rfl)).trans ih
  have hgood := hit.good h hW hT hs (Or.inl rfl) hg
  have hL : 0 < (∑ i ∈ range N, W i * f i) / T :=
    lt_of_le_of_ne (div_nonneg (Finset.sum_nonneg fun i hi =>
      mul_nonneg (hW i (mem_range.mp hi)) (h.f_nonneg i (mem_range.mp hi))) hT.le) h.lm_ne.symm
  have hstep : ∀ j, S.AllUnmasked true N μ f (cs j) e → cs (j + 1) = tab S.nb fun k =>
      vec (cs j) k * mixA S.nb N (S.phi e) (fun i => W i * f i) (vec (cs j)) k /
        ((∑ i ∈ range N, W i * f i) / T) := by
    intro j hu
    have g := hgood j
    rw [hes] at g
    have h1 := coef_update h hf _ _ g hu
    have h2 := hit.succ j
    rw [hes, h1] at h2
    injection h2 with h2
    rw [Prod.mk.injEq] at h2
    exact (fins_inj h2.1).symm
  have hinv : ∀ j, (∀ a ∈ cs j, 0 < a) ∧ (cs j).sum = T := by
    intro j
    induction j with
    | zero => rw [hit.zero.1]; exact ⟨hcp, hsum⟩
    | succ j ih =>
      have g := hgood j
      rw [hes] at g
      have hu := hm.unmasked hT g.clen g.cnn ih.2
      have hgm : ∀ i < N, 0 < mixD S.nb (S.phi e) (vec (cs j)) i := fun i hi =>
        unmasked_pos (hf i hi).le (hu i hi)
      have hcv := vec_of_mem g.clen ih.1
      have hA : ∀ k < S.nb, 0 < mixA S.nb N (S.phi e) (fun i => W i * f i) (vec (cs j)) k := by
        intro k hk
        rw [← fpiA_mixA]
        exact (fpiA_pos hs hW (fun i hi => div_nonneg (hf i hi).le (hgm i hi).le)
          (fun i hi _ => div_pos (hf i hi) (hgm i hi)) hk (vec_of_mem hg.elen hg.epos k hk)).1
      constructor
      · rw [hstep j hu]
        intro a ha
        obtain ⟨k, hk, rfl⟩ := List.mem_map.mp ha
        have hk := List.mem_range.mp hk
        exact div_pos (mul_pos (hcv k hk) (hA k hk)) hL
      · rw [hstep j hu]
        unfold tab
        rw [sum_list_tab, ← Finset.sum_div, sum_mixA]
        have : ∑ i ∈ range N, W i * f i *
            (mixD S.nb (S.phi e) (vec (cs j)) i / mixD S.nb (S.phi e) (vec (cs j)) i) =
            (∑ i ∈ range N, W i * f i) / T * T := by
          rw [div_mul_cancel₀ _ hT.ne']
          exact Finset.sum_congr rfl fun i hi => by rw [div_self (hgm i (mem_range.mp hi)).ne', mul_one]
        rw [this]
        exact mul_div_cancel_left₀ _ hL.ne'
  refine ⟨cs, ⟨⟨hit.zero.1, rfl⟩, fun j => ?_⟩, fun j => ?_⟩
  · have := hit.succ j
    rw [hes, hes] at this
    exact this
  · have g := hgood j
    rw [hes] at g
    have hu := hm.unmasked hT g.clen g.cnn (hinv j).2
    refine ⟨g, (hinv j).1, (hinv j).2, hu, fun k hk => ?_⟩
    rw [hstep j hu, vec_tab hk]

/-- The divergence after `j` updates against any other coefficients. -/
theorem coef_rate {F : FPI} {S : Shape} {N : ℕ} {W f : ℕ → ℝ} {μ T m : ℝ}
    (h : IsFPI F true S N W f μ T) (hW : ∀ i < N, 0 ≤ W i) (hT : 0 < T)
    (hf : ∀ i < N, 0 < f i) (c e : List ℝ) (hm0 : 0 < m) (hcm : ∀ a ∈ c, m ≤ a)
    (hm : S.Clear N f μ T e) (cs : ℕ → List ℝ) (h0 : cs 0 = c)
    (hcs : ∀ j, S.Good (cs j) e ∧
      (∀ a ∈ cs j, 0 < a) ∧ (cs j).sum = T ∧ S.AllUnmasked true N μ f (cs j) e ∧
      ∀ k < S.nb, vec (cs (j + 1)) k = vec (cs j) k *
        mixA S.nb N (S.phi e) (fun i => W i * f i) (vec (cs j)) k / ((∑ i ∈ range N, W i * f i) / T))
    (j : ℕ) (c' : List ℝ) (hc' : c'.length = S.nb) (hcn' : ∀ a ∈ c', 0 ≤ a) (hs' : c'.sum = T) :
    klTotal S N W f μ (cs j) e ≤
      klTotal S N W f μ c' e + (∑ i ∈ range N, W i * f i) * log (T / m) / (j + 1) := by
  have hL : 0 < (∑ i ∈ range N, W i * f i) / T :=
    lt_of_le_of_ne (div_nonneg (Finset.sum_nonneg fun i hi =>
      mul_nonneg (hW i (mem_range.mp hi)) (h.f_nonneg i (mem_range.mp hi))) hT.le) h.lm_ne.symm
  have hLT : (∑ i ∈ range N, W i * f i) / T * T = ∑ i ∈ range N, W i * f i := by field_simp
  have hu' := hm.unmasked hT hc' hcn' hs'
  rw [klTotal_mixL hf (hcs j).2.2.2.1, klTotal_mixL hf hu']
  have := mix_rate (φ := S.phi e) (a := fun i => W i * f i) (m := m) h.data.model.nb_pos hL hT
    (fun i hi => mul_nonneg (hW i hi) (hf i hi).le) (hm.phi_pos hT hf) hLT (fun j => vec (cs j))
    (fun j => (hcs j).2.2.2.2) hm0
    (by
      rw [h0]
      have hl : c.length = S.nb := by rw [← h0]; exact (hcs 0).1.clen
      exact vec_of_mem (P := fun a => m ≤ a) hl hcm)
    (fun j => vec_of_mem (hcs j).1.clen (hcs j).2.1)
    (fun j => by rw [← sum_vec (hcs j).1.clen]; exact (hcs j).2.2.1) j (vec c') (vec_of_mem hc' hcn')
    (by rw [← sum_vec hc', hs'])
  rw [hLT] at this
  linarith

/-- The trace of a run agrees with the sequence of iterates. -/
theorem trace_iter {F : FPI} {o : FPIOpts} {c e : List ℝ} {cs es : ℕ → List ℝ}
    (hit : IsIter F o.optCoeffs o.optExpons c e cs es) {n : ℕ} {tr : ℕ → List XR × List XR}
    (h0 : tr 0 = (fins c, fins e))
    (hst : ∀ j < n, F.updateParams (tr j).1 (tr j).2 o.optCoeffs o.optExpons = .ok (tr (j + 1))) :
    ∀ j ≤ n, tr j = (fins (cs j), fins (es j)) := by
  intro j hj
  induction j with
  | zero => rw [h0, hit.zero.1, hit.zero.2]
  | succ j ih =>
    have h1 := hst j (by omega)
    rw [ih (by omega), hit.succ j] at h1
    injection h1 with h1
    exact h1.symm

/-- The largest change bounds every change. -/
theorem maxChange_ge {a b : List ℝ} (h : a.length = b.length) (hp : 0 < a.length) :
    ∃ M, maxChange (fins a) (fins b) = .ok (XR.fin M) ∧ ∀ k < a.length, |vec a k - vec b k| ≤ M := by
  have key : maxChange (fins a) (fins b) =
      npMax (fins ((List.zipWith (fun u v => u - v) a b).map fun z => |z|)) := by
    unfold maxChange
    rw [zipWith_fins (g := fun u v => u - v) (by simp)]
    simp [fins]
  have hne : (List.zipWith (fun u v => u - v) a b).map (fun z => |z|) ≠ [] := by
    intro h0
    have := congrArg List.length h0
    simp at this
    rcases this with rfl | rfl <;> simp_all
  obtain ⟨M, h1, h2, h3⟩ := npMax_fins hne
  refine ⟨M, by rw [key, h2], fun k hk => h3 _ ?_⟩
  rw [List.mem_map]
  refine ⟨vec a k - vec b k, ?_, rfl⟩
  rw [List.mem_iff_getElem]
  refine ⟨k, by simp; omega, ?_⟩
  have hb : k < b.length := by omega
  simp [vec, List.getD_eq_getElem?_getD, hk, hb]

/-- **C81** (rate).  Optimising the coefficients only, from coefficients of at least `m > 0` that sum to
`integral_dens`: the `j`-th entry of `fun` (from 0) exceeds the divergence of any non-negative
coefficients with this sum by at most `I log (integral_dens / m) / (j + 2)`, with `I` the integral of
the density.  So does the returned model after `n` updates with `n + 1` in place of `j + 2`. -/
theorem C81_rate {F : FPI} {S : Shape} {N : ℕ} {W f : ℕ → ℝ} {μ T m : ℝ}
    (h : IsFPI F true S N W f μ T) (hW : ∀ i < N, 0 ≤ W i) (hT : 0 < T) (hs : S.Sees N W f)
    (hf : ∀ i < N, 0 < f i) (o : FPIOpts) (hoc : o.optCoeffs = true) (hoe : o.optExpons = false)
    (c e : List ℝ) (hg : S.Good c e) (hm0 : 0 < m) (hcm : ∀ a ∈ c, m ≤ a) (hsum : c.sum = T)
    (hm : S.Clear N f μ T e) :
    ∃ r hist c' I, F.run (.arr (ND.vec (fins c))) (.arr (ND.vec (fins e))) o = .ok r ∧
      r.fun_ = fins hist ∧ r.coeffs = fins c' ∧ r.exps = fins e ∧
      (c'.length = S.nb ∧ (∀ a ∈ c', 0 < a) ∧ c'.sum = T) ∧
      F.integrate F.density = .ok (XR.fin I) ∧
      ∀ c'' : List ℝ, c''.length = S.nb → (∀ a ∈ c'', 0 ≤ a) → c''.sum = T →
        ∃ p x q y, F.goodness (fins c'') (fins e) = .ok p ∧ p.kl = XR.fin x ∧
          F.goodness r.coeffs r.exps = .ok q ∧ q.kl = XR.fin y ∧
          y ≤ x + I * log (T / m) / (hist.length + 1) ∧
          ∀ j < hist.length, vec hist j ≤ x + I * log (T / m) / (j + 2) := by
  have hcp : ∀ a ∈ c, 0 < a := fun a ha => hm0.trans_le (hcm a ha)
  have hN := hs.pos h.data.model.nb_pos
  obtain ⟨cs, hit, hcs⟩ := coef_iter h hW hT hs hf c e hg hcp hsum hm
  obtain ⟨r, n, ds, es, h1, -, h2, -⟩ := C39_total h hW hT hs o (Or.inl hoc) c e hg
  have htr := trace_iter (o := o) (by rw [hoc, hoe]; exact hit) h2.start h2.step
  have hlast := h2.last
  rw [htr n le_rfl, Prod.mk.injEq] at hlast
  have hfun : r.fun_ = fins (tab n fun j => klTotal S N W f μ (cs (j + 1)) e) := by
    rw [h2.fun_]
    apply List.ext_getElem
    · simp [h2.len]
    · intro j hj hj'
      have hjn : j < n := by simpa using hj'
      have g := (hcs (j + 1)).1
      obtain ⟨p, hp, hpk⟩ := goodness_klTotal h.data hN h.mask hf _ _ g.clen g.elen g.cnn g.epos
      have := h2.perf j (by rw [h2.len]; exact hjn)
      rw [htr (j + 1) hjn] at this
      simp only at this
      rw [hp] at this
      injection this with this
      simp [← this, hpk, fins, tab]
  refine ⟨r, _, cs n, ∑ i ∈ range N, W i * f i, h1, hfun, hlast.1.symm, hlast.2.symm,
    ⟨(hcs n).1.clen, (hcs n).2.1, (hcs n).2.2.1⟩,
    by rw [h.data.dens]; exact h.data.quad.fin f, ?_⟩
  intro c'' hl hnn hs'
  obtain ⟨p, hp, hpk⟩ := goodness_klTotal h.data hN h.mask hf c'' e hl hg.elen hnn hg.epos
  have g := (hcs n).1
  obtain ⟨q, hq, hqk⟩ := goodness_klTotal h.data hN h.mask hf _ _ g.clen g.elen g.cnn g.epos
  have hrate := fun j => coef_rate h hW hT hf c e hm0 hcm hm cs hit.zero.1 hcs j c'' hl hnn hs'
  refine ⟨p, _, q, _, hp, hpk, by rw [← hlast.1, ← hlast.2]; exact hq, hqk, ?_, fun j hj => ?_⟩
  · have := hrate n
    simpa using this
  · have hjn : j < n := by simpa using hj
    rw [vec_tab hjn]
    have := hrate (j + 1)
    have e1 : ((j + 1 : ℕ) : ℝ) + 1 = (j : ℝ) + 2 := by push_cast; ring
    rw [e1] at this
    exact this

/-- **C81** (limit).  With thresholds zero, the divergence of the returned coefficients comes as close
as wanted to the smallest possible one when `maxiter` is large enough. -/
theorem C81_limit {F : FPI} {S : Shape} {N : ℕ} {W f : ℕ → ℝ} {μ T : ℝ}
    (h : IsFPI F true S N W f μ T) (hW : ∀ i < N, 0 ≤ W i) (hT : 0 < T) (hs : S.Sees N W f)
    (hf : ∀ i < N, 0 < f i) (eT : XR) (c e : List ℝ) (hg : S.Good c e) (hcp : ∀ a ∈ c, 0 < a)
    (hsum : c.sum = T) (hm : S.Clear N f μ T e) (ε : ℝ) (hε : 0 < ε) :
    ∃ M : ℕ, ∀ maxiter : ℤ, (M : ℤ) ≤ maxiter → ∃ r q y,
      F.run (.arr (ND.vec (fins c))) (.arr (ND.vec (fins e)))
        ⟨true, false, maxiter, XR.fin 0, eT, XR.fin 0⟩ = .ok r ∧
      F.goodness r.coeffs r.exps = .ok q ∧ q.kl = XR.fin y ∧
      ∀ c' : List ℝ, c'.length = S.nb → (∀ a ∈ c', 0 ≤ a) → c'.sum = T →
        ∃ p x, F.goodness (fins c') (fins e) = .ok p ∧ p.kl = XR.fin x ∧ y ≤ x + ε := by
  have hN := hs.pos h.data.model.nb_pos
  have hnb := h.data.model.nb_pos
  obtain ⟨cs, hit, hcs⟩ := coef_iter h hW hT hs hf c e hg hcp hsum hm
  -- a positive lower bound of the initial coefficients
  obtain ⟨m, hm0, hcm⟩ : ∃ m, 0 < m ∧ ∀ a ∈ c, m ≤ a := by
    clear hsum hcs hit hg
    induction c with
    | nil => exact ⟨1, one_pos, by simp⟩
    | cons a c ih =>
      obtain ⟨m, h1, h2⟩ := ih fun b hb => hcp b (List.mem_cons_of_mem _ hb)
      refine ⟨min a m, lt_min (hcp a (by simp)) h1, fun b hb => ?_⟩
      rcases List.mem_cons.mp hb with rfl | hb
      · exact min_le_left _ _
      · exact (min_le_right _ _).trans (h2 b hb)
  set B := (∑ i ∈ range N, W i * f i) * log (T / m) with hB
  obtain ⟨M, hM⟩ := exists_nat_gt (B / ε)
  refine ⟨M + 1, fun maxiter hmax => ?_⟩
  set o : FPIOpts := ⟨true, false, maxiter, XR.fin 0, eT, XR.fin 0⟩ with ho
  have hshape : ∀ l : List ℝ, l.length = S.nb →
      ¬ ((ND.vec (fins l)).shape.map Int.ofNat ≠ [F.model.nbasis]) := by
    intro l hl
    simp [ND.vec, h.data.model.nbasis, hl]
  obtain ⟨s, hloop⟩ := loop_total h hW hT hs o (Or.inl rfl) maxiter.toNat
    ⟨fins c, fins e, XR.pinf, XR.pinf, XR.pinf, []⟩ c e hg rfl rfl
  have hrun : F.run (.arr (ND.vec (fins c))) (.arr (ND.vec (fins e))) o =
      .ok ⟨s.cs, s.es, s.performance.map Perf.kl,
        decide ¬ ((maxiter = s.performance.length ∧ s.diffDiv > XR.fin 0) ∨ s.diffDiv = XR.nan),
        s.performance⟩ := by
    unfold FPI.run
    simp only
    rw [if_neg (hshape c hg.clen), if_neg (hshape e hg.elen)]
    have e1 : (ND.vec (fins c)).data = fins c := rfl
    have e2 : (ND.vec (fins e)).data = fins e := rfl
    rw [e1, e2, hloop]
  obtain ⟨k, tr, new, t1, t2, t3, t4, t5, t6, t7, t8, t9, t10, t11⟩ := loop_trace F o _ _ _ hloop
  have htr := trace_iter (o := o) hit t4 t6
  rw [htr k le_rfl, Prod.mk.injEq] at t5
  have g := (hcs k).1
  obtain ⟨q, hq, hqk⟩ := goodness_klTotal h.data hN h.mask hf _ _ g.clen g.elen g.cnn g.epos
  refine ⟨_, q, _, hrun, by rw [← t5.1, ← t5.2]; exact hq, hqk, ?_⟩
  intro c' hl hnn hs'
  obtain ⟨p, hp, hpk⟩ := goodness_klTotal h.data hN h.mask hf c' e hl hg.elen hnn hg.epos
  refine ⟨p, _, hp, hpk, ?_⟩
  -- if two consecutive iterates agree, the second one is optimal
  have hopt : ∀ j, cs (j + 1) = cs j →
      klTotal S N W f μ (cs (j + 1)) e ≤ klTotal S N W f μ c' e := by
    intro j hj
    have h1 := hit.succ j
    simp only [hj] at h1
    obtain ⟨a, b, x, y, g1, g2, g3, g4, g5⟩ := (C80_optimal h hW hT hs hf (cs j) e (hcs j).1 (hcs j).2.1
      (hcs j).2.2.1 hm).mp h1 c' hl hnn hs'
    have gj := (hcs j).1
    obtain ⟨a', ha, hak⟩ := goodness_klTotal h.data hN h.mask hf _ _ gj.clen gj.elen gj.cnn gj.epos
    rw [ha] at g1
    rw [hp] at g2
    injection g1 with g1
    injection g2 with g2
    subst g1 g2
    rw [hak, XR.fin_inj] at g3
    rw [hpk, XR.fin_inj] at g4
    rw [hj, g3, g4]
    exact g5
  by_cases hk : k < maxiter.toNat
  · have hconv := t8 hk
    have hk0 : 0 < k := by
      rcases Nat.eq_zero_or_pos k with h0 | h0
      · exfalso
        rw [t10 h0] at hconv
        exact hconv ⟨Or.inr trivial, trivial⟩
      · exact h0
    obtain ⟨i, rfl⟩ : ∃ i, k = i + 1 := ⟨k - 1, by omega⟩
    obtain ⟨u1, u2, u3, u4⟩ := t11 hk0
    simp only [Nat.add_sub_cancel] at u1 u2
    rw [htr (i + 1) le_rfl, htr i (by omega)] at u1
    have hstop : klTotal S N W f μ (cs (i + 1)) e ≤ klTotal S N W f μ c' e := by
      by_cases hdc : s.maxDC > XR.fin 0
      · have hdd : ¬ s.diffDiv > XR.fin 0 := fun hd => hconv ⟨Or.inr hdc, hd⟩
        have hplen : s.performance.length = i + 1 := by rw [t3]; simpa using t2
        rcases Nat.eq_zero_or_pos i with h0 | h0
        · exfalso
          apply hdd
          rw [u3 (by omega)]
          trivial
        · -- equal divergences
          obtain ⟨l, rfl⟩ : ∃ l, i = l + 1 := ⟨i - 1, by omega⟩
          have hne : s.performance ≠ [] := by intro h0; rw [h0] at hplen; simp at hplen
          have e1 : s.performance = s.performance.dropLast.dropLast ++
              [s.performance[l]'(by omega), s.performance[l + 1]'(by omega)] := by
            apply List.ext_getElem
            · simp [hplen]
            · intro t ht1 ht2
              rw [List.getElem_append]
              split
              · simp
              · rename_i hge
                simp [hplen] at hge
                have : t = l ∨ t = l + 1 := by omega
                rcases this with rfl | rfl
                · simp [hplen]
                · simp [hplen]
          have hdd' := u4 _ _ _ e1
          have hperf : ∀ j (hj : j < s.performance.length),
              s.performance[j].kl = XR.fin (klTotal S N W f μ (cs (j + 1)) e) := by
            intro j hj
            simp only [List.nil_append] at t3
            have h1 := t7 j (by rw [← t3]; exact hj)
            rw [htr (j + 1) (by omega)] at h1
            have gj := (hcs (j + 1)).1
            obtain ⟨a, ha, hak⟩ := goodness_klTotal h.data hN h.mask hf _ _ gj.clen gj.elen gj.cnn gj.epos
            simp only at h1
            rw [ha] at h1
            injection h1 with h1
            simp only [t3]
            rw [← h1, hak]
          rw [hperf, hperf] at hdd'
          rw [hdd'] at hdd
          have hdd : ¬ (0 < |klTotal S N W f μ (cs (l + 1 + 1)) e - klTotal S N W f μ (cs (l + 1)) e|) := hdd
          rw [abs_pos, not_not, sub_eq_zero] at hdd
          apply hopt
          -- strictness of the descent
          obtain ⟨v1, v2, v3, v4, v5⟩ := hcs (l + 1)
          obtain ⟨w1, w2, w3, w4, w5⟩ := hcs (l + 1 + 1)
          have hL : 0 < (∑ i ∈ range N, W i * f i) / T :=
            lt_of_le_of_ne (div_nonneg (Finset.sum_nonneg fun i hi =>
              mul_nonneg (hW i (mem_range.mp hi)) (h.f_nonneg i (mem_range.mp hi))) hT.le) h.lm_ne.symm
          have hgm : ∀ i < N, 0 < mixD S.nb (S.phi e) (vec (cs (l + 1))) i := fun i hi =>
            unmasked_pos (hf i hi).le (v4 i hi)
          have hA : ∀ k < S.nb, 0 < mixA S.nb N (S.phi e) (fun i => W i * f i) (vec (cs (l + 1))) k := by
            intro k hk
            rw [← fpiA_mixA]
            exact (fpiA_pos hs hW (fun i hi => div_nonneg (hf i hi).le (hgm i hi).le)
              (fun i hi _ => div_pos (hf i hi) (hgm i hi)) hk (vec_of_mem hg.elen hg.epos k hk)).1
          have hcv := vec_of_mem v1.clen v2
          have hstep := (mix_step (n := S.nb) (φ := S.phi e) (c := vec (cs (l + 1))) hL
            (fun i hi => mul_nonneg (hW i hi) (hf i hi).le)
            (fun k hk i hi => (hm.phi_pos hT hf k hk i hi).le) hA (fun k hk => (hcv k hk).le) hgm
            (by rw [← sum_vec v1.clen, v3]; field_simp)).2 (by
              rw [klTotal_mixL hf v4, klTotal_mixL hf w4] at hdd
              have e2 : mixL S.nb N (S.phi e) (fun i => W i * f i) (vec (cs (l + 1 + 1))) =
                  mixL S.nb N (S.phi e) (fun i => W i * f i) (fun k => vec (cs (l + 1)) k *
                    mixA S.nb N (S.phi e) (fun i => W i * f i) (vec (cs (l + 1))) k /
                      ((∑ i ∈ range N, W i * f i) / T)) := by
                unfold mixL
                apply Finset.sum_congr rfl
                intro i _
                congr 2
                unfold mixD
                exact Finset.sum_congr rfl fun k hk => by rw [v5 k (mem_range.mp hk)]
              rw [← e2]
              linarith)
          rw [eq_range_map (cs (l + 1 + 1)) _ w1.clen, eq_range_map (cs (l + 1)) _ v1.clen]
          apply List.map_congr_left
          intro k hk
          have hk := List.mem_range.mp hk
          rw [v5 k hk, hstep k hk (hcv k hk), mul_div_cancel_right₀ _ hL.ne']
      · apply hopt
        have gi := (hcs i).1
        obtain ⟨M', w1, w2⟩ := maxChange_ge (g.clen.trans gi.clen.symm) (by rw [g.clen]; exact hnb)
        rw [u1] at w1
        injection w1 with w1
        rw [w1] at hdc
        have hdc : ¬ 0 < M' := hdc
        rw [eq_range_map (cs (i + 1)) _ g.clen, eq_range_map (cs i) _ gi.clen]
        apply List.map_congr_left
        intro k hk
        have hk := List.mem_range.mp hk
        have := w2 k (by rw [g.clen]; exact hk)
        have h0 : |vec (cs (i + 1)) k - vec (cs i) k| = 0 := le_antisymm (by linarith) (abs_nonneg _)
        linarith [abs_eq_zero.mp h0]
    linarith
  · have hkM : M ≤ k := by omega
    have h1 := coef_rate h hW hT hf c e hm0 hcm hm cs hit.zero.1 hcs k c' hl hnn hs'
    have h2 : B / ((k : ℝ) + 1) ≤ ε := by
      rw [div_le_iff₀ (by positivity)]
      rw [div_lt_iff₀ hε] at hM
      have : (M : ℝ) ≤ k := by exact_mod_cast hkM
      nlinarith
    rw [← hB] at h1
    linarith

theorem conv_clear : (atomShape [1, 2] 1 1).Clear 2 (fun _ => 1) 0 3 [1, 2] := by
  intro k hk i hi
  have hk : k < 2 := hk
  have h1 : bfFloor (3 / 8) (5 / 2) 1 2 ≤
      bf ((atomShape [1, 2] 1 1).isS k) true (vec [1, 2] k) ((atomShape [1, 2] 1 1).rad k i) := by
    apply bfFloor_le _ (by norm_num) _ _ one_pos
    · interval_cases i <;> norm_num [atomShape, vec]
    · interval_cases i <;> norm_num [atomShape, vec]
    · interval_cases k <;> norm_num [vec]
    · interval_cases k <;> norm_num [vec]
  have h2 := bfFloor_pos (e₀ := 3 / 8) (e₁ := 5 / 2) (ρ := 1) (R := 2) (by norm_num) one_pos
  have h3 := conv_floor
  constructor
  · linarith
  · rw [one_mul]; linarith

/-- C80 on the object of `conv_isFPI`, from coefficients `1, 2`. -/
example : ∃ F, FPI.init (.radial ⟨fins [1, 2]⟩) (fins [1, 1]) (.atom convAtom) (XR.fin 0)
      (some (XR.fin 3)) false = .ok F ∧
    (F.updateParams (fins [1, 2]) (fins [1, 2]) true false = .ok (fins [1, 2], fins [1, 2]) ↔
      ∀ c' : List ℝ, c'.length = 2 → (∀ a ∈ c', 0 ≤ a) → c'.sum = 3 →
        ∃ p p' x x', F.goodness (fins [1, 2]) (fins [1, 2]) = .ok p ∧
          F.goodness (fins c') (fins [1, 2]) = .ok p' ∧ p.kl = XR.fin x ∧ p'.kl = XR.fin x' ∧ x ≤ x') := by
  obtain ⟨F, h1, h2⟩ := conv_isFPI
  exact ⟨F, h1, C80_optimal h2 (by intro i hi; interval_cases i <;> norm_num [vec]) (by norm_num)
    (fun k _ => ⟨0, by norm_num, by norm_num [vec], by norm_num, by norm_num [atomShape, vec]⟩)
    (fun _ _ => one_pos) [1, 2] [1, 2] ⟨rfl, rfl, by simp, by simp⟩ (by simp) (by norm_num) conv_clear⟩

/-- C81 on the same object: within any distance of the best coefficients with sum 3. -/
example (ε : ℝ) (hε : 0 < ε) : ∃ F, FPI.init (.radial ⟨fins [1, 2]⟩) (fins [1, 1]) (.atom convAtom)
      (XR.fin 0) (some (XR.fin 3)) false = .ok F ∧
    ∃ M : ℕ, ∀ maxiter : ℤ, (M : ℤ) ≤ maxiter → ∃ r q y,
      F.run (.arr (ND.vec (fins [1, 2]))) (.arr (ND.vec (fins [1, 2])))
        ⟨true, false, maxiter, XR.fin 0, XR.fin 0, XR.fin 0⟩ = .ok r ∧
      F.goodness r.coeffs r.exps = .ok q ∧ q.kl = XR.fin y ∧
      ∃ p x, F.goodness (fins [3, 0]) (fins [1, 2]) = .ok p ∧ p.kl = XR.fin x ∧ y ≤ x + ε := by
  obtain ⟨F, h1, h2⟩ := conv_isFPI
  obtain ⟨M, hM⟩ := C81_limit h2 (by intro i hi; interval_cases i <;> norm_num [vec]) (by norm_num)
    (fun k _ => ⟨0, by norm_num, by norm_num [vec], by norm_num, by norm_num [atomShape, vec]⟩)
    (fun _ _ => one_pos) (XR.fin 0) [1, 2] [1, 2] ⟨rfl, rfl, by simp, by simp⟩ (by simp) (by norm_num)
    conv_clear ε hε
  refine ⟨F, h1, M, fun maxiter hm => ?_⟩
  obtain ⟨r, q, y, k1, k2, k3, k4⟩ := hM maxiter hm
  exact ⟨r, q, y, k1, k2, k3, k4 [3, 0] rfl (by simp) (by norm_num)⟩

/-- The rate of C81 on the same object: after `n` updates at most `log 3 / (n + 1)` above the best. -/
example (o : FPIOpts) (ho : o.optCoeffs = true ∧ o.optExpons = false) :
    ∃ F, FPI.init (.radial ⟨fins [1, 2]⟩) (fins [1, 1]) (.atom convAtom)
      (XR.fin 0) (some (XR.fin 3)) false = .ok F ∧
    ∃ r hist I, F.run (.arr (ND.vec (fins [1, 2]))) (.arr (ND.vec (fins [1, 2]))) o = .ok r ∧
      r.fun_ = fins hist ∧ F.integrate F.density = .ok (XR.fin I) ∧
      ∃ p x, F.goodness (fins [3, 0]) (fins [1, 2]) = .ok p ∧ p.kl = XR.fin x ∧
        ∀ j < hist.length, vec hist j ≤ x + I * log (3 / 1) / (j + 2) := by
  obtain ⟨F, h1, h2⟩ := conv_isFPI
  obtain ⟨r, hist, c', I, k1, k2, -, -, -, k6, k7⟩ := C81_rate h2
    (by intro i hi; interval_cases i <;> norm_num [vec]) (by norm_num)
    (fun k _ => ⟨0, by norm_num, by norm_num [vec], by norm_num, by norm_num [atomShape, vec]⟩)
    (fun _ _ => one_pos) o ho.1 ho.2 [1, 2] [1, 2] ⟨rfl, rfl, by simp, by simp⟩ one_pos (by simp)
    (by norm_num) conv_clear
  obtain ⟨p, x, q, y, j1, j2, -, -, -, j6⟩ := k7 [3, 0] rfl (by simp) (by norm_num)
  exact ⟨F, h1, r, hist, I, k1, k2, k6, p, x, j1, j2, j6⟩

end
end BFit
