import Verif.Props.FPIOptimal
import Mathlib.Topology.Sequences

/-!
The parameters returned by `KLDivergenceFPI.run` as the number of updates grows: the divergences converge, the
changes tend to zero and every accumulation point is stationary.
-/

namespace BFit

open Real Classical Finset Filter Topology

noncomputable section

/-! ### The update as a function of real numbers -/

/-- The new coefficients. -/
def newC (S : Shape) (N : ℕ) (W f : ℕ → ℝ) (L : ℝ) (uc : Bool) (c e : ℕ → ℝ) (k : ℕ) : ℝ :=
  if uc then c k * fpiA S true N W (fun i => f i / S.dens true c e i) e k / L else c k

/-- The new exponents. -/
def newE (S : Shape) (N : ℕ) (W f : ℕ → ℝ) (ue : Bool) (c e : ℕ → ℝ) (k : ℕ) : ℝ :=
  if ue then S.pref k * fpiA S true N W (fun i => f i / S.dens true c e i) e k /
    fpiA2 S true N W (fun i => f i / S.dens true c e i) e k else e k

theorem fpiA_unmasked_pos {F : FPI} {S : Shape} {N : ℕ} {W f : ℕ → ℝ} {μ T : ℝ}
    (h : IsFPI F true S N W f μ T) (hW : ∀ i < N, 0 ≤ W i) (hs : S.Sees N W f) {c e : List ℝ} (hg : S.Good c e)
    (hu : S.AllUnmasked true N μ f c e) {k : ℕ} (hk : k < S.nb) :
    0 < fpiA S true N W (fun i => f i / S.dens true (vec c) (vec e) i) (vec e) k ∧
      0 < fpiA2 S true N W (fun i => f i / S.dens true (vec c) (vec e) i) (vec e) k := by
  have hcg := fpiA_congr (S := S) (norm := true) (W := W) (e := vec e) (ratio_unmasked hu)
  rw [← hcg.1, ← hcg.2]
  exact fpiA_pos hs hW (fun i hi => ratio_nonneg (h.f_nonneg i hi)) (fun i _ => ratio_pos) hk
    (vec_of_mem hg.elen hg.epos k hk)

theorem update_form {F : FPI} {S : Shape} {N : ℕ} {W f : ℕ → ℝ} {μ T : ℝ}
    (h : IsFPI F true S N W f μ T) (hW : ∀ i < N, 0 ≤ W i) (hs : S.Sees N W f) {c e : List ℝ} (hg : S.Good c e)
    (hu : S.AllUnmasked true N μ f c e) (uc ue : Bool) (huc : uc = true ∨ ue = true) :
    F.updateParams (fins c) (fins e) uc ue =
      .ok (fins (tab S.nb (newC S N W f ((∑ i ∈ range N, W i * f i) / T) uc (vec c) (vec e))),
        fins (tab S.nb (newE S N W f ue (vec c) (vec e)))) := by
  have hcg := fpiA_congr (S := S) (norm := true) (W := W) (e := vec e) (ratio_unmasked hu)
  have hA := fun k hk => fpiA_unmasked_pos h hW hs hg hu (k := k) hk
  have := updateParams_fins h.data h.mask h.lm h.lm_ne h.f_nonneg c e hg.clen hg.elen
    (fun _ a ha => (hg.epos a ha).le) (fun i hi => (unmasked_pos (h.f_nonneg i hi) (hu i hi)).le) uc ue huc
    (fun _ k hk => by rw [hcg.2]; exact (hA k hk).2.ne')
  rw [this, hcg.1, hcg.2]
  rfl

/-- Convergence of the parameters of all basis functions. -/
structure Conv (S : Shape) (cn en : ℕ → List ℝ) (c e : List ℝ) : Prop where
  c : ∀ k < S.nb, Tendsto (fun n => vec (cn n) k) atTop (𝓝 (vec c k))
  e : ∀ k < S.nb, Tendsto (fun n => vec (en n) k) atTop (𝓝 (vec e k))

theorem Conv.dens {S : Shape} {cn en : ℕ → List ℝ} {c e : List ℝ} (h : Conv S cn en c e)
    (he : ∀ k < S.nb, 0 < vec e k) (i : ℕ) :
    Tendsto (fun n => S.dens true (vec (cn n)) (vec (en n)) i) atTop (𝓝 (S.dens true (vec c) (vec e) i)) := by
  unfold Shape.dens
  refine tendsto_finsetSum _ fun k hk => (h.c k (mem_range.mp hk)).mul ?_
  have hk := mem_range.mp hk
  exact ((hasDerivAt_bf (S.isS k) true (vec e k) (S.rad k i) fun _ => he k hk).continuousAt.tendsto).comp (h.e k hk)

theorem Conv.fpiA {S : Shape} {cn en : ℕ → List ℝ} {c e : List ℝ} (h : Conv S cn en c e)
    (he : ∀ k < S.nb, 0 < vec e k) {N : ℕ} {W f : ℕ → ℝ} (hd : ∀ i < N, 0 < S.dens true (vec c) (vec e) i)
    {k : ℕ} (hk : k < S.nb) :
    Tendsto (fun n => fpiA S true N W (fun i => f i / S.dens true (vec (cn n)) (vec (en n)) i) (vec (en n)) k) atTop
        (𝓝 (fpiA S true N W (fun i => f i / S.dens true (vec c) (vec e) i) (vec e) k)) ∧
      Tendsto (fun n => fpiA2 S true N W (fun i => f i / S.dens true (vec (cn n)) (vec (en n)) i) (vec (en n)) k) atTop
        (𝓝 (fpiA2 S true N W (fun i => f i / S.dens true (vec c) (vec e) i) (vec e) k)) := by
  have hb : ∀ i, Tendsto (fun n => bf (S.isS k) true (vec (en n) k) (S.rad k i)) atTop
      (𝓝 (bf (S.isS k) true (vec e k) (S.rad k i))) := fun i =>
    ((hasDerivAt_bf (S.isS k) true (vec e k) (S.rad k i) fun _ => he k hk).continuousAt.tendsto).comp (h.e k hk)
  have hq : ∀ i < N, Tendsto (fun n => f i / S.dens true (vec (cn n)) (vec (en n)) i) atTop
      (𝓝 (f i / S.dens true (vec c) (vec e) i)) := fun i hi =>
    tendsto_const_nhds.div (h.dens he i) (hd i hi).ne'
  constructor
  · exact tendsto_finsetSum _ fun i hi => ((hq i (mem_range.mp hi)).mul (hb i)).const_mul _
  · exact tendsto_finsetSum _ fun i hi => (((hq i (mem_range.mp hi)).mul (hb i)).mul_const _).const_mul _

theorem Conv.new {S : Shape} {cn en : ℕ → List ℝ} {c e : List ℝ} (h : Conv S cn en c e)
    (he : ∀ k < S.nb, 0 < vec e k) {N : ℕ} {W f : ℕ → ℝ} (hd : ∀ i < N, 0 < S.dens true (vec c) (vec e) i)
    (L : ℝ) (uc ue : Bool)
    (h2 : ∀ k < S.nb, 0 < fpiA2 S true N W (fun i => f i / S.dens true (vec c) (vec e) i) (vec e) k) :
    Conv S (fun n => tab S.nb (newC S N W f L uc (vec (cn n)) (vec (en n))))
      (fun n => tab S.nb (newE S N W f ue (vec (cn n)) (vec (en n))))
      (tab S.nb (newC S N W f L uc (vec c) (vec e))) (tab S.nb (newE S N W f ue (vec c) (vec e))) := by
  constructor
  · intro k hk
    simp only [vec_tab hk, newC]
    cases uc with
    | false => exact h.c k hk
    | true =>
      simp only [if_true]
      exact ((h.c k hk).mul (h.fpiA he hd hk).1).div_const _
  · intro k hk
    simp only [vec_tab hk, newE]
    cases ue with
    | false => exact h.e k hk
    | true =>
      simp only [if_true]
      exact ((h.fpiA he hd hk).1.const_mul _).div (h.fpiA he hd hk).2 (h2 k hk).ne'

theorem Conv.kl {S : Shape} {cn en : ℕ → List ℝ} {c e : List ℝ} (h : Conv S cn en c e)
    (he : ∀ k < S.nb, 0 < vec e k) {N : ℕ} {W f : ℕ → ℝ} {μ : ℝ} (hf : ∀ i < N, 0 < f i)
    (hu : S.AllUnmasked true N μ f c e) :
    Tendsto (fun n => klTotal S N W f μ (cn n) (en n)) atTop (𝓝 (klTotal S N W f μ c e)) := by
  refine tendsto_finsetSum _ fun i hi => Tendsto.const_mul _ ?_
  have hi := mem_range.mp hi
  have ht := h.dens he i
  rw [klVal_unmasked (hu i hi)]
  have hp := unmasked_pos (hf i hi).le (hu i hi)
  have hev : ∀ᶠ n in atTop, Unmasked μ (f i) (S.dens true (vec (cn n)) (vec (en n)) i) :=
    ((ht.eventually (lt_mem_nhds (hu i hi).1)).and (ht.eventually (lt_mem_nhds (hu i hi).2))).mono
      fun n hn => ⟨hn.1, hn.2⟩
  refine Tendsto.congr' (hev.mono fun n hn => (klVal_unmasked hn).symm) ?_
  unfold klInt
  exact ((tendsto_const_nhds.div ht hp.ne').log (div_pos (hf i hi) hp).ne').const_mul _

/-! ### The situation of C76 -/

/-- All grid points are at a distance between `ρ > 0` and `R` from every centre, the exponents are in
`[e₀, e₁]`, which contains `3 / (2 R²)` and `5 / (2 ρ²)`, and the mask is below the smallest density such
exponents can give. -/
structure Box (S : Shape) (N : ℕ) (f : ℕ → ℝ) (μ T ρ R e₀ e₁ : ℝ) (c e : List ℝ) : Prop where
  rho : 0 < ρ
  rad : ∀ k < S.nb, ∀ i < N, ρ ≤ |S.rad k i| ∧ |S.rad k i| ≤ R
  pos : 0 < e₀
  low : e₀ ≤ 3 / (2 * R ^ 2)
  high : 5 / (2 * ρ ^ 2) ≤ e₁
  start : ∀ k < S.nb, e₀ ≤ vec e k ∧ vec e k ≤ e₁
  mask : ∀ i < N, μ < min T c.sum * bfFloor e₀ e₁ ρ R ∧ f i * tiny < min T c.sum * bfFloor e₀ e₁ ρ R

theorem Box.unmasked {S : Shape} {N : ℕ} {f : ℕ → ℝ} {μ T ρ R e₀ e₁ : ℝ} {c e c' e' : List ℝ}
    (hb : Box S N f μ T ρ R e₀ e₁ c e) (hg : S.Good c' e') (hx : ∀ k < S.nb, e₀ ≤ vec e' k ∧ vec e' k ≤ e₁)
    (hsum : min T c.sum ≤ c'.sum) : S.AllUnmasked true N μ f c' e' := by
  intro i hi
  have hcv := vec_of_mem hg.clen hg.cnn
  have hle : min T c.sum * bfFloor e₀ e₁ ρ R ≤ S.dens true (vec c') (vec e') i := by
    calc min T c.sum * bfFloor e₀ e₁ ρ R ≤ c'.sum * bfFloor e₀ e₁ ρ R :=
          mul_le_mul_of_nonneg_right hsum (bfFloor_pos hb.pos hb.rho).le
      _ = ∑ k ∈ range S.nb, vec c' k * bfFloor e₀ e₁ ρ R := by
          rw [sum_vec hg.clen, Finset.sum_mul]
      _ ≤ _ := by
          apply Finset.sum_le_sum
          intro k hk
          have hk := mem_range.mp hk
          exact mul_le_mul_of_nonneg_left (bfFloor_le _ hb.pos (hx k hk).1 (hx k hk).2 hb.rho
            (hb.rad k hk i hi).1 (hb.rad k hk i hi).2) (hcv k hk)
  exact ⟨(hb.mask i hi).1.trans_le hle, (hb.mask i hi).2.trans_le hle⟩

/-- Data of the limit theorems: an infinite sequence of updates in the situation of C76. -/
structure Seq (F : FPI) (S : Shape) (N : ℕ) (W f : ℕ → ℝ) (μ T ρ R e₀ e₁ : ℝ) (uc ue : Bool) (c e : List ℝ)
    (cs es : ℕ → List ℝ) : Prop where
  fpi : IsFPI F true S N W f μ T
  hW : ∀ i < N, 0 ≤ W i
  hT : 0 < T
  sees : S.Sees N W f
  hf : ∀ i < N, 0 < f i ∧ μ ≤ f i
  huc : uc = true ∨ ue = true
  good : S.Good c e
  box : Box S N f μ T ρ R e₀ e₁ c e
  iter : IsIter F uc ue c e cs es

section
variable {F : FPI} {S : Shape} {N : ℕ} {W f : ℕ → ℝ} {μ T ρ R e₀ e₁ : ℝ} {uc ue : Bool} {c e : List ℝ}
  {cs es : ℕ → List ℝ}

theorem Seq.lm_pos (q : Seq F S N W f μ T ρ R e₀ e₁ uc ue c e cs es) : 0 < (∑ i ∈ range N, W i * f i) / T :=
  lt_of_le_of_ne (div_nonneg (Finset.sum_nonneg fun i hi =>
    mul_nonneg (q.hW i (mem_range.mp hi)) (q.fpi.f_nonneg i (mem_range.mp hi))) q.hT.le) q.fpi.lm_ne.symm

theorem Seq.good' (q : Seq F S N W f μ T ρ R e₀ e₁ uc ue c e cs es) (j : ℕ) : S.Good (cs j) (es j) :=
  q.iter.good q.fpi q.hW q.hT q.sees q.huc q.good j

theorem Seq.inv (q : Seq F S N W f μ T ρ R e₀ e₁ uc ue c e cs es) (j : ℕ) :
    (∀ k < S.nb, e₀ ≤ vec (es j) k ∧ vec (es j) k ≤ e₁) ∧ min T c.sum ≤ (cs j).sum ∧
      S.AllUnmasked true N μ f (cs j) (es j) :=
  iter_unmasked q.fpi q.hW q.hT q.sees ρ R e₀ e₁ q.box.rho q.box.rad q.box.pos q.box.low q.box.high uc ue q.huc c e
    q.good q.box.start q.box.mask cs es q.iter j

theorem Seq.next (q : Seq F S N W f μ T ρ R e₀ e₁ uc ue c e cs es) (j : ℕ) :
    cs (j + 1) = tab S.nb (newC S N W f ((∑ i ∈ range N, W i * f i) / T) uc (vec (cs j)) (vec (es j))) ∧
      es (j + 1) = tab S.nb (newE S N W f ue (vec (cs j)) (vec (es j))) := by
  have := update_form q.fpi q.hW q.sees (q.good' j) (q.inv j).2.2 uc ue q.huc
  rw [q.iter.succ j] at this
  injection this with this
  rw [Prod.mk.injEq] at this
  exact ⟨fins_inj this.1, fins_inj this.2⟩

/-- The Lagrangian. -/
def lagr (S : Shape) (N : ℕ) (W f : ℕ → ℝ) (μ T : ℝ) (c e : List ℝ) : ℝ :=
  klTotal S N W f μ c e + (∑ i ∈ range N, W i * f i) / T * c.sum

theorem Seq.sum (q : Seq F S N W f μ T ρ R e₀ e₁ uc ue c e cs es) (j : ℕ) :
    (uc = true → (cs (j + 1)).sum = T) ∧ (uc = false → cs (j + 1) = cs j) ∧
      lagr S N W f μ T (cs (j + 1)) (es (j + 1)) ≤ lagr S N W f μ T (cs j) (es j) ∧
      (lagr S N W f μ T (cs (j + 1)) (es (j + 1)) = lagr S N W f μ T (cs j) (es j) →
        ∀ k < S.nb, 0 < vec (cs j) k →
          vec (cs (j + 1)) k = vec (cs j) k ∧ vec (es (j + 1)) k = vec (es j) k) := by
  have g := q.good' j
  obtain ⟨c', e', k1, k2, k3, k4, k5, k6, k7, k8, k9⟩ := fpi_descent q.fpi q.hW q.hT q.sees q.hf _ _
    g.clen g.elen g.cnn g.epos (q.inv j).2.2 uc ue q.huc
  rw [q.iter.succ j] at k1
  injection k1 with k1
  rw [Prod.mk.injEq] at k1
  rw [fins_inj k1.1, fins_inj k1.2]
  exact ⟨k6, k7, k8, k9⟩

theorem Seq.sum_le (q : Seq F S N W f μ T ρ R e₀ e₁ uc ue c e cs es) (j : ℕ) : (cs j).sum ≤ max T c.sum := by
  induction j with
  | zero => rw [q.iter.zero.1]; exact le_max_right _ _
  | succ j ih =>
    cases hu : uc with
    | true => rw [(q.sum j).1 hu]; exact le_max_left _ _
    | false => rw [(q.sum j).2.1 hu]; exact ih

/-- The Lagrangian converges. -/
theorem Seq.limit (q : Seq F S N W f μ T ρ R e₀ e₁ uc ue c e cs es) :
    ∃ g, Tendsto (fun j => lagr S N W f μ T (cs j) (es j)) atTop (𝓝 g) := by
  refine ⟨_, tendsto_atTop_ciInf (antitone_nat_of_succ_le fun j => (q.sum j).2.2.1) ?_⟩
  refine ⟨klFloor N W f ρ (max T c.sum), ?_⟩
  rintro _ ⟨j, rfl⟩
  have h1 := klFloor_le q.hW (fun i hi => (q.hf i hi).1) q.box.rho (fun k hk i hi _ => (q.box.rad k hk i hi).1) _ _
    (q.good' j) (q.sum_le j) (q.inv j).2.2
  have h2 : 0 ≤ (cs j).sum := List.sum_nonneg (q.good' j).cnn
  have h3 := mul_nonneg q.lm_pos.le h2
  simp only [lagr]
  linarith

theorem Conv.sum {S : Shape} {cn en : ℕ → List ℝ} {c e : List ℝ} (h : Conv S cn en c e)
    (hc : c.length = S.nb) (hn : ∀ n, (cn n).length = S.nb) :
    Tendsto (fun n => (cn n).sum) atTop (𝓝 c.sum) := by
  simp only [sum_vec hc, fun n => sum_vec (hn n)]
  exact tendsto_finsetSum _ fun k hk => h.c k (mem_range.mp hk)

/-- An accumulation point of the sequence. -/
theorem Seq.core (q : Seq F S N W f μ T ρ R e₀ e₁ uc ue c e cs es) {ns : ℕ → ℕ} (hns : Tendsto ns atTop atTop)
    {c' e' : List ℝ} (hc : c'.length = S.nb) (he : e'.length = S.nb)
    (hcv : Conv S (fun n => cs (ns n)) (fun n => es (ns n)) c' e') :
    S.Good c' e' ∧ S.AllUnmasked true N μ f c' e' ∧
      Conv S (fun n => cs (ns n + 1)) (fun n => es (ns n + 1))
        (tab S.nb (newC S N W f ((∑ i ∈ range N, W i * f i) / T) uc (vec c') (vec e')))
        (tab S.nb (newE S N W f ue (vec c') (vec e'))) ∧
      (∀ k < S.nb, newC S N W f ((∑ i ∈ range N, W i * f i) / T) uc (vec c') (vec e') k = vec c' k) ∧
      (∀ k < S.nb, 0 < vec c' k → newE S N W f ue (vec c') (vec e') k = vec e' k) := by
  set L := (∑ i ∈ range N, W i * f i) / T with hL
  have hbox' : ∀ k < S.nb, e₀ ≤ vec e' k ∧ vec e' k ≤ e₁ := fun k hk =>
    ⟨ge_of_tendsto' (hcv.e k hk) fun n => ((q.inv (ns n)).1 k hk).1,
      le_of_tendsto' (hcv.e k hk) fun n => ((q.inv (ns n)).1 k hk).2⟩
  have hcn : ∀ k < S.nb, 0 ≤ vec c' k := fun k hk =>
    ge_of_tendsto' (hcv.c k hk) fun n => vec_of_mem (q.good' (ns n)).clen (q.good' (ns n)).cnn k hk
  have hep : ∀ k < S.nb, 0 < vec e' k := fun k hk => q.box.pos.trans_le (hbox' k hk).1
  have hg : S.Good c' e' := ⟨hc, he, mem_of_vec hc hcn, mem_of_vec he hep⟩
  have hsum : min T c.sum ≤ c'.sum :=
    ge_of_tendsto' (hcv.sum hc fun n => (q.good' (ns n)).clen) fun n => (q.inv (ns n)).2.1
  have hu := q.box.unmasked hg hbox' hsum
  have hA := fun k hk => fpiA_unmasked_pos q.fpi q.hW q.sees hg hu (k := k) hk
  have hd : ∀ i < N, 0 < S.dens true (vec c') (vec e') i := fun i hi => unmasked_pos (q.hf i hi).1.le (hu i hi)
  have hnew : Conv S (fun n => cs (ns n + 1)) (fun n => es (ns n + 1)) (tab S.nb (newC S N W f L uc (vec c') (vec e')))
      (tab S.nb (newE S N W f ue (vec c') (vec e'))) := by
    have := hcv.new hep hd L uc ue fun k hk => (hA k hk).2
    simp only [fun j => (q.next j).1, fun j => (q.next j).2]
    exact this
  obtain ⟨c₁, e₁', k1, k2, k3, k4, k5, k6, k7, k8, k9⟩ := fpi_descent q.fpi q.hW q.hT q.sees q.hf _ _
    hg.clen hg.elen hg.cnn hg.epos hu uc ue q.huc
  rw [update_form q.fpi q.hW q.sees hg hu uc ue q.huc] at k1
  injection k1 with k1
  rw [Prod.mk.injEq] at k1
  have e1 := fins_inj k1.1
  have e2 := fins_inj k1.2
  rw [← hL] at e1
  have hg1 : S.Good c₁ e₁' := ⟨k2, k3, k4, k5⟩
  rw [e1, e2] at hnew
  have hu1 : S.AllUnmasked true N μ f c₁ e₁' := by
    refine q.box.unmasked hg1 (fun k hk => ?_) ?_
    · exact ⟨ge_of_tendsto' (hnew.e k hk) fun n => ((q.inv (ns n + 1)).1 k hk).1,
        le_of_tendsto' (hnew.e k hk) fun n => ((q.inv (ns n + 1)).1 k hk).2⟩
    · exact ge_of_tendsto' (hnew.sum k2 fun n => (q.good' (ns n + 1)).clen) fun n => (q.inv (ns n + 1)).2.1
  obtain ⟨g, hlim⟩ := q.limit
  have t1 : Tendsto (fun n => lagr S N W f μ T (cs (ns n)) (es (ns n))) atTop (𝓝 (lagr S N W f μ T c' e')) :=
    (hcv.kl hep (fun i hi => (q.hf i hi).1) hu).add ((hcv.sum hc fun n => (q.good' (ns n)).clen).const_mul _)
  have t2 : Tendsto (fun n => lagr S N W f μ T (cs (ns n + 1)) (es (ns n + 1))) atTop (𝓝 (lagr S N W f μ T c₁ e₁')) :=
    (hnew.kl (vec_of_mem k3 k5) (fun i hi => (q.hf i hi).1) hu1).add
      ((hnew.sum k2 fun n => (q.good' (ns n + 1)).clen).const_mul _)
  have u1 := tendsto_nhds_unique t1 (hlim.comp hns)
  have u2 := tendsto_nhds_unique t2 (hlim.comp ((tendsto_add_atTop_nat 1).comp hns))
  have heq := k9 (u2.trans u1.symm)
  rw [← e1, ← e2] at hnew heq
  refine ⟨hg, hu, hnew, fun k hk => ?_, fun k hk hpos => ?_⟩
  · rcases (hcn k hk).eq_or_lt with h0 | h0
    · unfold newC
      rw [← h0]
      split <;> simp
    · have := (heq k hk h0).1
      rwa [vec_tab hk] at this
  · have := (heq k hk hpos).2
    rwa [vec_tab hk] at this

/-- Every subsequence has a convergent subsequence. -/
theorem Seq.compact (q : Seq F S N W f μ T ρ R e₀ e₁ uc ue c e cs es) (ns : ℕ → ℕ) :
    ∃ (ms : ℕ → ℕ) (c' e' : List ℝ), StrictMono ms ∧ c'.length = S.nb ∧ e'.length = S.nb ∧
      Conv S (fun n => cs (ns (ms n))) (fun n => es (ns (ms n))) c' e' := by
  have hcpt : IsCompact (Set.pi Set.univ fun _ : Fin S.nb => Set.Icc 0 (max T c.sum) ×ˢ Set.Icc e₀ e₁) :=
    isCompact_univ_pi fun _ => isCompact_Icc.prod isCompact_Icc
  have hmem : ∀ n, (fun k : Fin S.nb => (vec (cs (ns n)) k, vec (es (ns n)) k)) ∈
      Set.pi Set.univ fun _ : Fin S.nb => Set.Icc 0 (max T c.sum) ×ˢ Set.Icc e₀ e₁ := by
    intro n k _
    have hcv := vec_of_mem (q.good' (ns n)).clen (q.good' (ns n)).cnn
    refine ⟨⟨hcv k k.2, le_trans ?_ (q.sum_le (ns n))⟩, (q.inv (ns n)).1 k k.2⟩
    rw [sum_vec (q.good' (ns n)).clen]
    exact Finset.single_le_sum (f := fun k => vec (cs (ns n)) k) (fun i hi => hcv i (mem_range.mp hi))
      (mem_range.mpr k.2)
  obtain ⟨x, -, ms, hms, hx⟩ := hcpt.tendsto_subseq hmem
  rw [tendsto_pi_nhds] at hx
  refine ⟨ms, tab S.nb fun k => if hk : k < S.nb then (x ⟨k, hk⟩).1 else 0,
    tab S.nb fun k => if hk : k < S.nb then (x ⟨k, hk⟩).2 else 0, hms, by simp [tab], by simp [tab], ?_, ?_⟩
  · intro k hk
    rw [vec_tab hk, dif_pos hk]
    exact (continuous_fst.tendsto _).comp (hx ⟨k, hk⟩)
  · intro k hk
    rw [vec_tab hk, dif_pos hk]
    exact (continuous_snd.tendsto _).comp (hx ⟨k, hk⟩)

/-- The changes tend to zero. -/
theorem Seq.changes (q : Seq F S N W f μ T ρ R e₀ e₁ uc ue c e cs es) {k : ℕ} (hk : k < S.nb) :
    Tendsto (fun n => vec (cs (n + 1)) k - vec (cs n) k) atTop (𝓝 0) ∧
      Tendsto (fun n => vec (cs n) k * (vec (es (n + 1)) k - vec (es n) k)) atTop (𝓝 0) := by
  have key : ∀ ns : ℕ → ℕ, Tendsto ns atTop atTop → ∃ ms : ℕ → ℕ,
      Tendsto (fun n => vec (cs (ns (ms n) + 1)) k - vec (cs (ns (ms n))) k) atTop (𝓝 0) ∧
      Tendsto (fun n => vec (cs (ns (ms n))) k * (vec (es (ns (ms n) + 1)) k - vec (es (ns (ms n))) k)) atTop (𝓝 0) := by
    intro ns hns
    obtain ⟨ms, c', e', hms, hc, he, hcv⟩ := q.compact ns
    obtain ⟨hg, hu, hn, h1, h2⟩ := q.core (hns.comp hms.tendsto_atTop) hc he hcv
    have a1 := (hn.c k hk).sub (hcv.c k hk)
    have a2 := (hcv.c k hk).mul ((hn.e k hk).sub (hcv.e k hk))
    rw [vec_tab hk, h1 k hk, sub_self] at a1
    have hz : vec c' k * (vec (tab S.nb (newE S N W f ue (vec c') (vec e'))) k - vec e' k) = 0 := by
      rw [vec_tab hk]
      rcases (vec_of_mem hg.clen hg.cnn k hk).eq_or_lt with h0 | h0
      · rw [← h0, zero_mul]
      · rw [h2 k hk h0, sub_self, mul_zero]
    rw [hz] at a2
    exact ⟨ms, a1, a2⟩
  constructor
  · refine tendsto_of_subseq_tendsto fun ns hns => ?_
    obtain ⟨ms, h1, -⟩ := key ns hns
    exact ⟨ms, h1⟩
  · refine tendsto_of_subseq_tendsto fun ns hns => ?_
    obtain ⟨ms, -, h2⟩ := key ns hns
    exact ⟨ms, h2⟩

/-! ### Runs -/

theorem Seq.positive (q : Seq F S N W f μ T ρ R e₀ e₁ uc ue c e cs es) (hcp : ∀ a ∈ c, 0 < a) (j : ℕ) :
    ∀ k < S.nb, 0 < vec (cs j) k := by
  induction j with
  | zero =>
    intro k hk
    rw [q.iter.zero.1]
    exact vec_of_mem q.good.clen hcp k hk
  | succ j ih =>
    intro k hk
    rw [(q.next j).1, vec_tab hk]
    unfold newC
    have := (fpiA_unmasked_pos q.fpi q.hW q.sees (q.good' j) (q.inv j).2.2 hk).1
    have h1 := ih k hk
    have h2 := q.lm_pos
    split
    · positivity
    · exact h1

/-- Equal divergences mean equal parameters. -/
theorem Seq.stop (q : Seq F S N W f μ T ρ R e₀ e₁ uc ue c e cs es) (hcp : ∀ a ∈ c, 0 < a) {j : ℕ} (hj : 0 < j)
    (hkl : klTotal S N W f μ (cs (j + 1)) (es (j + 1)) = klTotal S N W f μ (cs j) (es j)) :
    cs (j + 1) = cs j ∧ es (j + 1) = es j := by
  have hsum : (cs (j + 1)).sum = (cs j).sum := by
    cases hu : uc with
    | true =>
      obtain ⟨i, rfl⟩ : ∃ i, j = i + 1 := ⟨j - 1, by omega⟩
      rw [(q.sum (i + 1)).1 hu, (q.sum i).1 hu]
    | false => rw [(q.sum j).2.1 hu]
  have := (q.sum j).2.2.2 (by unfold lagr; rw [hkl, hsum])
  have hg := q.good' j
  have hg1 := q.good' (j + 1)
  have hp := q.positive hcp j
  exact ⟨vec_ext (hg1.clen.trans hg.clen.symm) fun k hk => (this k (hg.clen ▸ hk) (hp k (hg.clen ▸ hk))).1,
    vec_ext (hg1.elen.trans hg.elen.symm) fun k hk => (this k (hg.elen ▸ hk) (hp k (hg.elen ▸ hk))).2⟩

theorem Seq.constant (q : Seq F S N W f μ T ρ R e₀ e₁ uc ue c e cs es) {j : ℕ}
    (h : cs (j + 1) = cs j ∧ es (j + 1) = es j) (n : ℕ) : cs (j + n) = cs j ∧ es (j + n) = es j := by
  induction n with
  | zero => exact ⟨rfl, rfl⟩
  | succ n ih =>
    have h1 := q.next (j + n)
    have h2 := q.next j
    rw [ih.1, ih.2, ← h2.1, ← h2.2] at h1
    exact ⟨h1.1.trans h.1, h1.2.trans h.2⟩

theorem step_max {F : FPI} {o : FPIOpts} {s s' : FPIState} (h : F.step o s = .ok s') :
    maxChange s'.cs s.cs = .ok s'.maxDC ∧ maxChange s'.es s.es = .ok s'.maxDE := by
  unfold FPI.step at h
  by_cases ho : o.optCoeffs = false ∧ o.optExpons = false
  · rw [if_pos ho] at h; simp [raise] at h
  rw [if_neg ho] at h
  rcases hup : F.updateParams s.cs s.es o.optCoeffs o.optExpons with err | ⟨cs, es⟩
  · rw [hup] at h; simp at h
  rw [hup] at h
  simp only at h
  rcases hdc : maxChange cs s.cs with err | dc
  · rw [hdc] at h; simp at h
  rw [hdc] at h
  simp only at h
  rcases hde : maxChange es s.es with err | de
  · rw [hde] at h; simp at h
  rw [hde] at h
  simp only at h
  rcases hgo : F.goodness cs es with err | p
  · rw [hgo] at h; simp at h
  rw [hgo] at h
  simp only [Except.ok.injEq] at h
  subst h
  exact ⟨hdc, hde⟩

theorem maxChange_nonpos {a b : List ℝ} (h : a.length = b.length) (hp : 0 < a.length) {x : XR} {t : ℝ}
    (hx : maxChange (fins a) (fins b) = .ok x) (ht : t ≤ 0) (hn : ¬ x > XR.fin t) : a = b := by
  obtain ⟨M, h1, h2⟩ := maxChange_ge h hp
  rw [h1] at hx
  injection hx with hx
  subst hx
  rw [fin_gt_iff, not_lt] at hn
  refine vec_ext h fun k hk => ?_
  have := (h2 k (h ▸ hk)).trans (hn.trans ht)
  have := abs_nonpos_iff.mp this
  linarith

/-- With thresholds that are not positive the loop makes all updates, up to such without effect. -/
theorem Seq.loop {o : FPIOpts} (q : Seq F S N W f μ T ρ R e₀ e₁ o.optCoeffs o.optExpons c e cs es)
    (hcp : ∀ a ∈ c, 0 < a) {tc te td : ℝ} (hc : o.cThr = XR.fin tc) (he : o.eThr = XR.fin te)
    (hd : o.dThr = XR.fin td) (hc0 : tc ≤ 0) (he0 : te ≤ 0) (hd0 : td ≤ 0) (n : ℕ) (j : ℕ) (s s' : FPIState)
    (hat : AtIter cs es (fun j => klTotal S N W f μ (cs j) (es j)) j s)
    (hst : ¬ s.notConverged o → cs (j + 1) = cs j ∧ es (j + 1) = es j)
    (hz : j = 0 → s.diffDiv = XR.pinf) (hl : F.loop o n s = .ok s') :
    s'.cs = fins (cs (j + n)) ∧ s'.es = fins (es (j + n)) := by
  induction n generalizing j s with
  | zero =>
    simp only [FPI.loop, Except.ok.injEq] at hl
    subst hl
    exact ⟨hat.cs, hat.es⟩
  | succ n ih =>
    rw [FPI.loop] at hl
    by_cases hcv : s.notConverged o
    · rw [if_pos hcv] at hl
      rcases hs1 : F.step o s with err | s₁
      · rw [hs1] at hl; simp at hl
      rw [hs1] at hl
      simp only at hl
      obtain ⟨h1, h0, h2⟩ := step_at q.fpi q.hW q.hT q.sees (fun i hi => (q.hf i hi).1) o q.huc q.good q.iter j s s₁
        hat hs1
      obtain ⟨m1, m2⟩ := step_max hs1
      rw [h1.cs, hat.cs] at m1
      rw [h1.es, hat.es] at m2
      have g := q.good' j
      have g1 := q.good' (j + 1)
      have hnb := q.fpi.data.model.nb_pos
      have hnext : ¬ s₁.notConverged o → cs (j + 1 + 1) = cs (j + 1) ∧ es (j + 1 + 1) = es (j + 1) := by
        intro hn
        have hsame : cs (j + 1) = cs j ∧ es (j + 1) = es j := by
          by_cases hdd : s₁.diffDiv > o.dThr
          · have : ¬ (s₁.maxDE > o.eThr ∨ s₁.maxDC > o.cThr) := fun hh => hn ⟨hh, hdd⟩
            rw [not_or, hc, he] at this
            exact ⟨maxChange_nonpos (g1.clen.trans g.clen.symm) (by rw [g1.clen]; exact hnb) m1 hc0 this.2,
              maxChange_nonpos (g1.elen.trans g.elen.symm) (by rw [g1.elen]; exact hnb) m2 he0 this.1⟩
          · rcases Nat.eq_zero_or_pos j with hj | hj
            · exfalso
              apply hdd
              rw [h0 hj, hz hj, hd]
              trivial
            · refine q.stop hcp hj ?_
              rw [h2 hj, hd, fin_gt_iff, not_lt] at hdd
              have := abs_nonpos_iff.mp (hdd.trans hd0)
              linarith
        have h3 := q.next (j + 1)
        have h4 := q.next j
        rw [hsame.1, hsame.2, ← h4.1, ← h4.2] at h3
        rw [hsame.1, hsame.2]
        exact ⟨h3.1.trans hsame.1, h3.2.trans hsame.2⟩
      have := ih (j + 1) s₁ h1 hnext (by omega) hl
      rwa [show j + 1 + n = j + (n + 1) by omega] at this
    · rw [if_neg hcv] at hl
      simp only [Except.ok.injEq] at hl
      subst hl
      have := q.constant (hst hcv) (n + 1)
      rw [this.1, this.2]
      exact ⟨hat.cs, hat.es⟩

end

/-- The options with another number of updates. -/
def FPIOpts.limit (o : FPIOpts) (n : ℕ) : FPIOpts := { o with maxiter := n }

theorem Seq.run {F : FPI} {S : Shape} {N : ℕ} {W f : ℕ → ℝ} {μ T ρ R e₀ e₁ : ℝ} {o : FPIOpts} {c e : List ℝ}
    {cs es : ℕ → List ℝ} (q : Seq F S N W f μ T ρ R e₀ e₁ o.optCoeffs o.optExpons c e cs es)
    (hcp : ∀ a ∈ c, 0 < a) {tc te td : ℝ} (hc : o.cThr = XR.fin tc) (he : o.eThr = XR.fin te)
    (hd : o.dThr = XR.fin td) (hc0 : tc ≤ 0) (he0 : te ≤ 0) (hd0 : td ≤ 0) (n : ℕ) :
    ∃ r, F.run (.arr (ND.vec (fins c))) (.arr (ND.vec (fins e))) (o.limit n) = .ok r ∧ r.coeffs = fins (cs n) ∧
      r.exps = fins (es n) := by
  have hshape : ∀ l : List ℝ, l.length = S.nb →
      ¬ ((ND.vec (fins l)).shape.map Int.ofNat ≠ [F.model.nbasis]) := by
    intro l hl
    simp [ND.vec, q.fpi.data.model.nbasis, hl]
  have q' : Seq F S N W f μ T ρ R e₀ e₁ (o.limit n).optCoeffs (o.limit n).optExpons c e cs es := q
  obtain ⟨s, hloop⟩ := loop_total q.fpi q.hW q.hT q.sees (o.limit n) q.huc n
    ⟨fins c, fins e, XR.pinf, XR.pinf, XR.pinf, []⟩ c e q.good rfl rfl
  have := q'.loop hcp hc he hd hc0 he0 hd0 n 0 _ s
    ⟨by rw [q.iter.zero.1], by rw [q.iter.zero.2], rfl, by simp⟩
    (fun hn => by
      exfalso
      apply hn
      have e1 : (o.limit n).cThr = XR.fin tc := hc
      have e2 : (o.limit n).dThr = XR.fin td := hd
      refine ⟨Or.inr ?_, ?_⟩
      · rw [e1]; trivial
      · rw [e2]; trivial) (fun _ => rfl) hloop
  rw [zero_add] at this
  have hrun : F.run (.arr (ND.vec (fins c))) (.arr (ND.vec (fins e))) (o.limit n) =
      .ok ⟨s.cs, s.es, s.performance.map Perf.kl,
        decide ¬ ((((n : ℕ) : ℤ) = s.performance.length ∧ s.diffDiv > o.dThr) ∨ s.diffDiv = XR.nan),
        s.performance⟩ := by
    unfold FPI.run
    simp only
    rw [if_neg (hshape c q.good.clen), if_neg (hshape e q.good.elen)]
    have e1 : (ND.vec (fins c)).data = fins c := rfl
    have e2 : (ND.vec (fins e)).data = fins e := rfl
    have e3 : (o.limit n).maxiter.toNat = n := by simp [FPIOpts.limit]
    rw [e1, e2, e3, hloop]
    rfl
  exact ⟨_, hrun, this⟩

/-- The slopes of the divergence at an accumulation point. -/
theorem Seq.slopes {F : FPI} {S : Shape} {N : ℕ} {W f : ℕ → ℝ} {μ T ρ R e₀ e₁ : ℝ} {uc ue : Bool} {c e : List ℝ}
    {cs es : ℕ → List ℝ} (q : Seq F S N W f μ T ρ R e₀ e₁ uc ue c e cs es) {ns : ℕ → ℕ}
    (hns : Tendsto ns atTop atTop) {c' e' : List ℝ} (hc : c'.length = S.nb) (he : e'.length = S.nb)
    (hcv : Conv S (fun n => cs (ns n)) (fun n => es (ns n)) c' e') {k : ℕ} (hk : k < S.nb) :
    (uc = true → 0 < vec c' k →
      KLSlope F.toFit (fun t => (c'.set k t, e')) (vec c' k) (-((∑ i ∈ range N, W i * f i) / T))) ∧
    (ue = true → KLSlope F.toFit (fun t => (c', e'.set k t)) (vec e' k) 0) := by
  obtain ⟨hg, hu, -, h1, h2⟩ := q.core hns hc he hcv
  have hN := q.sees.pos q.fpi.data.model.nb_pos
  have hA := fpiA_unmasked_pos q.fpi q.hW q.sees hg hu hk
  have hek := vec_of_mem hg.elen hg.epos k hk
  have hsc := klSlope_coeff q.fpi.data hN q.fpi.mask (fun i hi => (q.hf i hi).1) c' e' hc he
    (fun _ a ha => (hg.epos a ha).le) hu k hk
  have hse := klSlope_expon q.fpi.data hN q.fpi.mask (fun i hi => (q.hf i hi).1) c' e' hc he hg.epos hu k hk
  refine ⟨?_, ?_⟩
  · rintro rfl hpos
    have := h1 k hk
    simp only [newC, if_true] at this
    have hL := q.lm_pos
    rw [div_eq_iff hL.ne', mul_right_inj' hpos.ne'] at this
    rwa [this] at hsc
  · rintro rfl
    convert hse using 1
    rcases (vec_of_mem hg.clen hg.cnn k hk).eq_or_lt with h0 | h0
    · rw [← h0]; ring
    · have := h2 k hk h0
      simp only [newE, if_true] at this
      rw [div_eq_iff hA.2.ne'] at this
      have : S.pref k / vec e' k * fpiA S true N W (fun i => f i / S.dens true (vec c') (vec e') i) (vec e') k =
          fpiA2 S true N W (fun i => f i / S.dens true (vec c') (vec e') i) (vec e') k := by
        rw [div_mul_eq_mul_div, this]
        field_simp
      rw [this]
      ring

theorem Seq.kl_limit {F : FPI} {S : Shape} {N : ℕ} {W f : ℕ → ℝ} {μ T ρ R e₀ e₁ : ℝ} {uc ue : Bool} {c e : List ℝ}
    {cs es : ℕ → List ℝ} (q : Seq F S N W f μ T ρ R e₀ e₁ uc ue c e cs es) :
    ∃ K, Tendsto (fun n => klTotal S N W f μ (cs n) (es n)) atTop (𝓝 K) := by
  obtain ⟨g, hg⟩ := q.limit
  have hsum : ∀ n, (cs (n + 1)).sum = (cs 1).sum := by
    intro n
    induction n with
    | zero => rfl
    | succ n ih =>
      cases hu : uc with
      | true => rw [(q.sum (n + 1)).1 hu, (q.sum 0).1 hu]
      | false => rw [(q.sum (n + 1)).2.1 hu, ih]
  refine ⟨g - (∑ i ∈ range N, W i * f i) / T * (cs 1).sum, ?_⟩
  rw [← tendsto_add_atTop_iff_nat 1]
  refine (((tendsto_add_atTop_iff_nat 1).mpr hg).sub_const _).congr fun n => ?_
  simp only [lagr]
  rw [hsum n]
  ring

/-- The parameters `(c', e')` are an accumulation point of the parameters in the results `r`. -/
def Accumulates (r : ℕ → FPIResult) (c' e' : List ℝ) : Prop :=
  ∃ (ns : ℕ → ℕ) (cs es : ℕ → List ℝ), StrictMono ns ∧
    (∀ n, (r (ns n)).coeffs = fins (cs n) ∧ (r (ns n)).exps = fins (es n) ∧ (cs n).length = c'.length ∧
      (es n).length = e'.length) ∧
    (∀ k < c'.length, Tendsto (fun n => vec (cs n) k) atTop (𝓝 (vec c' k))) ∧
    ∀ k < e'.length, Tendsto (fun n => vec (es n) k) atTop (𝓝 (vec e' k))

/-- **C98**.  In the situation of C76 (`Box`), with positive initial coefficients and thresholds that are not
positive, consider the results `r n` of the runs that are allowed `n` updates.  The divergence of the returned
models converges; the changes of the coefficients, and those of the exponents times the coefficient, tend to
zero.  There is an accumulation point of the parameters, and at each of them: the divergence is the limit, it is
stationary in all optimised exponents, and if the coefficients are optimised, its slope in each positive
coefficient is minus the Lagrange multiplier. -/
theorem C98_limits {F : FPI} {S : Shape} {N : ℕ} {W f : ℕ → ℝ} {μ T : ℝ}
    (h : IsFPI F true S N W f μ T) (hW : ∀ i < N, 0 ≤ W i) (hT : 0 < T) (hs : S.Sees N W f)
    (hf : ∀ i < N, 0 < f i ∧ μ ≤ f i) (ρ R e₀ e₁ : ℝ) (o : FPIOpts)
    (huc : o.optCoeffs = true ∨ o.optExpons = true) (tc te td : ℝ) (htc : o.cThr = XR.fin tc)
    (hte : o.eThr = XR.fin te) (htd : o.dThr = XR.fin td) (hc0 : tc ≤ 0) (he0 : te ≤ 0) (hd0 : td ≤ 0)
    (c e : List ℝ) (hg : S.Good c e) (hcp : ∀ a ∈ c, 0 < a) (hbox : Box S N f μ T ρ R e₀ e₁ c e) :
    ∃ (r : ℕ → FPIResult) (cs es : ℕ → List ℝ) (kl : ℕ → ℝ) (K lm : ℝ),
      (∀ n, F.run (.arr (ND.vec (fins c))) (.arr (ND.vec (fins e))) (o.limit n) = .ok (r n) ∧
        (r n).coeffs = fins (cs n) ∧ (r n).exps = fins (es n) ∧ S.Good (cs n) (es n) ∧
        ∃ p, F.goodness (r n).coeffs (r n).exps = .ok p ∧ p.kl = XR.fin (kl n)) ∧
      Tendsto kl atTop (𝓝 K) ∧ F.lm = XR.fin lm ∧
      (∀ k < S.nb, Tendsto (fun n => vec (cs (n + 1)) k - vec (cs n) k) atTop (𝓝 0) ∧
        Tendsto (fun n => vec (cs n) k * (vec (es (n + 1)) k - vec (es n) k)) atTop (𝓝 0)) ∧
      (∃ c' e', Accumulates r c' e') ∧
      ∀ c' e', Accumulates r c' e' → S.Good c' e' ∧
        (∃ p, F.goodness (fins c') (fins e') = .ok p ∧ p.kl = XR.fin K) ∧ ∀ k < S.nb,
          (o.optCoeffs = true → 0 < vec c' k →
            KLSlope F.toFit (fun t => (c'.set k t, e')) (vec c' k) (-lm)) ∧
          (o.optExpons = true → KLSlope F.toFit (fun t => (c', e'.set k t)) (vec e' k) 0) := by
  obtain ⟨cs, es, hit⟩ := exists_iter h hW hT hs o.optCoeffs o.optExpons huc c e hg
  have q : Seq F S N W f μ T ρ R e₀ e₁ o.optCoeffs o.optExpons c e cs es :=
    ⟨h, hW, hT, hs, hf, huc, hg, hbox, hit⟩
  have hN := hs.pos h.data.model.nb_pos
  choose r hr using q.run hcp htc hte htd hc0 he0 hd0
  obtain ⟨K, hK⟩ := q.kl_limit
  refine ⟨r, cs, es, fun n => klTotal S N W f μ (cs n) (es n), K, _, ?_, hK, h.lm, fun k hk => q.changes hk, ?_, ?_⟩
  · intro n
    have g := q.good' n
    refine ⟨(hr n).1, (hr n).2.1, (hr n).2.2, g, ?_⟩
    rw [(hr n).2.1, (hr n).2.2]
    exact goodness_klTotal h.data hN h.mask (fun i hi => (hf i hi).1) _ _ g.clen g.elen g.cnn g.epos
  · obtain ⟨ms, c', e', hms, hc, he, hcv⟩ := q.compact id
    exact ⟨c', e', ms, fun n => cs (ms n), fun n => es (ms n), hms,
      fun n => ⟨(hr _).2.1, (hr _).2.2, (q.good' _).clen.trans hc.symm, (q.good' _).elen.trans he.symm⟩,
      fun k hk => hcv.c k (hc ▸ hk), fun k hk => hcv.e k (he ▸ hk)⟩
  · rintro c' e' ⟨ns, cs', es', hns, hrr, h1, h2⟩
    have hcs : ∀ n, cs' n = cs (ns n) ∧ es' n = es (ns n) := by
      intro n
      obtain ⟨a, b, -⟩ := hrr n
      rw [(hr _).2.1] at a
      rw [(hr _).2.2] at b
      exact ⟨(fins_inj a).symm, (fins_inj b).symm⟩
    have hc : c'.length = S.nb := by rw [← (hrr 0).2.2.1, (hcs 0).1]; exact (q.good' _).clen
    have he : e'.length = S.nb := by rw [← (hrr 0).2.2.2, (hcs 0).2]; exact (q.good' _).elen
    have hcv : Conv S (fun n => cs (ns n)) (fun n => es (ns n)) c' e' := by
      constructor
      · intro k hk
        have := h1 k (hc ▸ hk)
        simpa only [fun n => (hcs n).1] using this
      · intro k hk
        have := h2 k (he ▸ hk)
        simpa only [fun n => (hcs n).2] using this
    obtain ⟨g, hu, -⟩ := q.core hns.tendsto_atTop hc he hcv
    refine ⟨g, ?_, fun k hk => q.slopes hns.tendsto_atTop hc he hcv hk⟩
    obtain ⟨p, hp, hpk⟩ := goodness_klTotal h.data hN h.mask (fun i hi => (hf i hi).1) _ _ g.clen g.elen g.cnn g.epos
    refine ⟨p, hp, ?_⟩
    rw [hpk, tendsto_nhds_unique (hcv.kl (vec_of_mem g.elen g.epos) (fun i hi => (hf i hi).1) hu)
      (hK.comp hns.tendsto_atTop)]

/-- **C98** (convergent runs).  If the coefficients are optimised and all parameters converge, then the limit
satisfies the optimality conditions for non-negative coefficients too: the slope of the divergence in a
coefficient that tends to zero is at least minus the multiplier. -/
theorem C98_kuhn_tucker {F : FPI} {S : Shape} {N : ℕ} {W f : ℕ → ℝ} {μ T : ℝ}
    (h : IsFPI F true S N W f μ T) (hW : ∀ i < N, 0 ≤ W i) (hT : 0 < T) (hs : S.Sees N W f)
    (hf : ∀ i < N, 0 < f i ∧ μ ≤ f i) (ρ R e₀ e₁ : ℝ) (o : FPIOpts)
    (huc : o.optCoeffs = true) (tc te td : ℝ) (htc : o.cThr = XR.fin tc)
    (hte : o.eThr = XR.fin te) (htd : o.dThr = XR.fin td) (hc0 : tc ≤ 0) (he0 : te ≤ 0) (hd0 : td ≤ 0)
    (c e : List ℝ) (hg : S.Good c e) (hcp : ∀ a ∈ c, 0 < a) (hbox : Box S N f μ T ρ R e₀ e₁ c e)
    (cs es : ℕ → List ℝ) (c' e' : List ℝ) (hc : c'.length = S.nb) (he : e'.length = S.nb)
    (hr : ∀ n, ∃ r, F.run (.arr (ND.vec (fins c))) (.arr (ND.vec (fins e))) (o.limit n) = .ok r ∧
      r.coeffs = fins (cs n) ∧ r.exps = fins (es n))
    (htoc : ∀ k < S.nb, Tendsto (fun n => vec (cs n) k) atTop (𝓝 (vec c' k)))
    (htoe : ∀ k < S.nb, Tendsto (fun n => vec (es n) k) atTop (𝓝 (vec e' k))) :
    ∃ lm, F.lm = XR.fin lm ∧ c'.sum = T ∧ ∀ k < S.nb, ∃ d,
      KLSlope F.toFit (fun t => (c'.set k t, e')) (vec c' k) d ∧ -lm ≤ d ∧ (0 < vec c' k → d = -lm) := by
  obtain ⟨cs', es', hit⟩ := exists_iter h hW hT hs o.optCoeffs o.optExpons (Or.inl huc) c e hg
  have q : Seq F S N W f μ T ρ R e₀ e₁ o.optCoeffs o.optExpons c e cs' es' :=
    ⟨h, hW, hT, hs, hf, Or.inl huc, hg, hbox, hit⟩
  have hcs : ∀ n, cs' n = cs n ∧ es' n = es n := by
    intro n
    obtain ⟨r, h1, h2, h3⟩ := q.run hcp htc hte htd hc0 he0 hd0 n
    obtain ⟨r', k1, k2, k3⟩ := hr n
    rw [h1] at k1
    injection k1 with k1
    subst k1
    rw [h2] at k2
    rw [h3] at k3
    exact ⟨fins_inj k2, fins_inj k3⟩
  have ec : cs' = cs := funext fun n => (hcs n).1
  have ee : es' = es := funext fun n => (hcs n).2
  subst ec ee
  have hcv : Conv S (fun n => cs' (id n)) (fun n => es' (id n)) c' e' := ⟨htoc, htoe⟩
  obtain ⟨g, hu, hnew, h1, -⟩ := q.core tendsto_id hc he hcv
  have hN := hs.pos h.data.model.nb_pos
  have hL := q.lm_pos
  refine ⟨_, h.lm, ?_, fun k hk => ?_⟩
  · have t1 := hcv.sum hc fun n => (q.good' n).clen
    have t2 := t1.comp (tendsto_add_atTop_nat 1)
    refine tendsto_nhds_unique t2 (tendsto_const_nhds.congr fun n => ?_)
    exact ((q.sum n).1 huc).symm
  · have hsl := klSlope_coeff h.data hN h.mask (fun i hi => (hf i hi).1) c' e' hc he
      (fun _ a ha => (g.epos a ha).le) hu k hk
    refine ⟨_, hsl, ?_, fun hpos => ?_⟩
    · -- otherwise the coefficient would grow
      by_contra hcon
      push Not at hcon
      have hlt := neg_lt_neg_iff.mp hcon
      have hd : ∀ i < N, 0 < S.dens true (vec c') (vec e') i := fun i hi => unmasked_pos (hf i hi).1.le (hu i hi)
      have hA := (hcv.fpiA (W := W) (f := f) (vec_of_mem g.elen g.epos) hd hk).1
      have hev := hA.eventually (lt_mem_nhds hlt)
      obtain ⟨n₀, hn₀⟩ := eventually_atTop.mp hev
      have hgrow : ∀ n ≥ n₀, vec (cs' n) k ≤ vec (cs' (n + 1)) k := by
        intro n hn
        have hp := q.positive hcp n k hk
        rw [(q.next n).1, vec_tab hk]
        simp only [newC, huc, if_true]
        rw [le_div_iff₀ hL]
        exact mul_le_mul_of_nonneg_left (hn₀ n hn).le hp.le
      have hge : ∀ n ≥ n₀, vec (cs' n₀) k ≤ vec (cs' n) k := by
        intro n hn
        induction n, hn using Nat.le_induction with
        | base => exact le_rfl
        | succ n hn ih => exact ih.trans (hgrow n hn)
      have hpos : 0 < vec c' k :=
        (q.positive hcp n₀ k hk).trans_le (ge_of_tendsto (htoc k hk) (eventually_atTop.mpr ⟨n₀, hge⟩))
      have := h1 k hk
      simp only [newC, huc, if_true] at this
      rw [div_eq_iff hL.ne', mul_right_inj' hpos.ne'] at this
      linarith
    · have := h1 k hk
      simp only [newC, huc, if_true] at this
      rw [div_eq_iff hL.ne', mul_right_inj' hpos.ne'] at this
      rw [this]

/-- C98 on the object of C76. -/
example : ∃ F, FPI.init (.radial ⟨fins [1, 2]⟩) (fins [1, 1]) (.atom convAtom) (XR.fin 0) (some (XR.fin 3)) false =
      .ok F ∧ ∃ (r : ℕ → FPIResult) (c' e' : List ℝ),
    (∀ n : ℕ, F.run (.arr (ND.vec (fins [1, 1]))) (.arr (ND.vec (fins [1, 2])))
      ⟨true, true, n, XR.fin 0, XR.fin 0, XR.fin 0⟩ = .ok (r n)) ∧ Accumulates r c' e' ∧
      ∀ k < 2, KLSlope F.toFit (fun t => (c', e'.set k t)) (vec e' k) 0 := by
  obtain ⟨F, h1, h2⟩ := conv_isFPI
  have hrad : ∀ k < 2, ∀ i < 2, (1 : ℝ) ≤ |(atomShape [1, 2] 1 1).rad k i| ∧
      |(atomShape [1, 2] 1 1).rad k i| ≤ 2 := by
    intro k _ i hi
    interval_cases i <;> norm_num [atomShape, vec]
  have hW : ∀ i < 2, 0 ≤ vec [1 / 2, 1 / 2] i := by
    intro i hi; interval_cases i <;> norm_num [vec]
  have hmin : min 3 ([1, 1] : List ℝ).sum = 2 := by norm_num
  obtain ⟨r, cs, es, kl, K, lm, k1, -, -, -, ⟨c', e', k2⟩, k3⟩ := C98_limits h2 hW (by norm_num)
    (fun k _ => ⟨0, by norm_num, by norm_num [vec], by norm_num, by norm_num [atomShape, vec]⟩)
    (fun i _ => ⟨one_pos, zero_le_one⟩) 1 2 (3 / 8) (5 / 2) ⟨true, true, 0, XR.fin 0, XR.fin 0, XR.fin 0⟩
    (Or.inl rfl) 0 0 0 rfl rfl rfl le_rfl le_rfl le_rfl [1, 1] [1, 2]
    ⟨rfl, rfl, by simp, by simp⟩ (by simp)
    ⟨one_pos, hrad, by norm_num, by norm_num, by norm_num,
      by intro k hk; have hk : k < 2 := hk; interval_cases k <;> norm_num [vec],
      by
        intro i _
        rw [hmin]
        exact ⟨mul_pos two_pos (bfFloor_pos (by norm_num) one_pos), by rw [one_mul]; exact conv_floor⟩⟩
  exact ⟨F, h1, r, c', e', fun n => (k1 n).1, k2, fun k hk => ((k3 c' e' k2).2.2 k hk).2 rfl⟩

/-- One s-type function on the grid `1, 2`. -/
def limitAtom : Atomic :=
  { points := .one (fins [1, 2]), coord := fins [0], radii := fins [1, 2], ns := 1, np := 0,
    normalized := true }

/-- The last theorem on a fit of one coefficient, which reaches 3 with the first update. -/
example : ∃ F, FPI.init (.radial ⟨fins [1, 2]⟩) (fins [1, 1]) (.atom limitAtom) (XR.fin 0) (some (XR.fin 3)) false =
      .ok F ∧ ∃ d lm, F.lm = XR.fin lm ∧ KLSlope F.toFit (fun t => (([3] : List ℝ).set 0 t, [1])) 3 d ∧ d = -lm := by
  obtain ⟨F, h1, h2, -⟩ := (C34_finite (f := fun _ => 1) 0 (some 3)
    (atom_isModel (m := limitAtom) (rs := [1, 2]) ⟨rfl, rfl, rfl⟩ (by decide)) conv_quad (by simp)
    (fun i _ => zero_le_one)).1 (by norm_num [Finset.sum_range_succ, vec]) (by norm_num)
  have hrad : ∀ k < 1, ∀ i < 2, (1 : ℝ) ≤ |(atomShape [1, 2] 1 0).rad k i| ∧
      |(atomShape [1, 2] 1 0).rad k i| ≤ 2 := by
    intro k _ i hi
    interval_cases i <;> norm_num [atomShape, vec]
  have hW : ∀ i < 2, 0 ≤ vec [1 / 2, 1 / 2] i := by
    intro i hi; interval_cases i <;> norm_num [vec]
  have hmin : min 3 ([2] : List ℝ).sum = 2 := by norm_num
  have hs : (atomShape [1, 2] 1 0).Sees 2 (vec [1 / 2, 1 / 2]) (fun _ => 1) := fun k _ =>
    ⟨0, by norm_num, by norm_num [vec], by norm_num, by norm_num [atomShape, vec]⟩
  have hbox : Box (atomShape [1, 2] 1 0) 2 (fun _ => 1) 0 3 1 2 (3 / 8) (5 / 2) [2] [1] :=
    ⟨one_pos, hrad, by norm_num, by norm_num, by norm_num,
      by intro k hk; have hk : k < 1 := hk; interval_cases k; norm_num [vec],
      by
        intro i _
        rw [hmin]
        exact ⟨mul_pos two_pos (bfFloor_pos (by norm_num) one_pos), by rw [one_mul]; exact conv_floor⟩⟩
  have hg : (atomShape [1, 2] 1 0).Good [2] [1] := ⟨rfl, rfl, by simp, by simp⟩
  obtain ⟨cs, es, hit⟩ := exists_iter h2 hW (by norm_num : (0 : ℝ) < 3) hs true false (Or.inl rfl) _ _ hg
  set o : FPIOpts := ⟨true, false, 0, XR.fin 0, XR.fin 0, XR.fin 0⟩ with ho
  have q : Seq F (atomShape [1, 2] 1 0) 2 (vec [1 / 2, 1 / 2]) (fun _ => 1) 0 3 1 2 (3 / 8) (5 / 2) o.optCoeffs
      o.optExpons [2] [1] cs es :=
    ⟨h2, hW, by norm_num, hs, fun i _ => ⟨one_pos, zero_le_one⟩, Or.inl rfl, hg, hbox, hit⟩
  have hes : ∀ n, es n = [1] := by
    intro n
    induction n with
    | zero => exact hit.zero.2
    | succ n ih =>
      rw [(q.next n).2, ih]
      have : (atomShape [1, 2] 1 0).nb = 1 := rfl
      simp [newE, this, tab, vec, ho]
  have hcs : ∀ n, cs (n + 1) = [3] := by
    intro n
    have a := (q.sum n).1 rfl
    have b : (cs (n + 1)).length = 1 := (q.good' (n + 1)).clen
    obtain ⟨x, hx⟩ := List.length_eq_one_iff.mp b
    rw [hx] at a ⊢
    simpa using a
  obtain ⟨lm, k1, -, k2⟩ := C98_kuhn_tucker h2 hW (by norm_num) hs (fun i _ => ⟨one_pos, zero_le_one⟩) 1 2 (3 / 8)
    (5 / 2) o rfl 0 0 0 rfl rfl rfl le_rfl le_rfl le_rfl [2] [1] hg (by simp) hbox cs es [3] [1] rfl rfl
    (q.run (by simp) rfl rfl rfl le_rfl le_rfl le_rfl)
    (fun k _ => by
      rw [← tendsto_add_atTop_iff_nat 1]
      simp only [hcs]
      exact tendsto_const_nhds)
    (fun k _ => by
      simp only [hes]
      exact tendsto_const_nhds)
  obtain ⟨d, k3, -, k4⟩ := k2 0 (by decide)
  exact ⟨F, h1, d, lm, k1, k3, k4 (by norm_num [vec])⟩

end
end BFit
