import Verif.Lemmas.DensDeriv

/-! Evaluation of the objective of ScipyFit on finite data. -/

namespace BFit

open Real Classical Finset Topology

noncomputable section

/-- Where `P` holds, the measure has the real values `v` and derivatives `dv` at the points. -/
structure MeasAt (m : Meas) (d : List XR) (N : ℕ) (P : ℕ → ℝ → Prop) (v dv : ℕ → ℝ → ℝ) : Prop where
  eval : ∀ g : ℕ → ℝ, (∀ i < N, P i (g i)) →
    m.evaluate (.arr (ND.vec d)) (.arr (ND.vec (fins (tab N g)))) (.bool true) =
      .ok (fins (tab N fun i => v i (g i)), some (fins (tab N fun i => dv i (g i))))
  slope : ∀ i < N, ∀ y, P i y → HasDerivAt (v i) (dv i y) y
  isOpen : ∀ i < N, ∀ y, P i y → ∀ᶠ z in 𝓝 y, P i z

theorem measAt_sq (N : ℕ) (f : ℕ → ℝ) :
    MeasAt .sq (fins (tab N f)) N (fun _ _ => True) (fun i y => (f i - y) ^ 2)
      (fun i y => -2 * (f i - y)) where
  eval g _ := by
    show sqEvaluate _ _ _ = _
    rw [sq_evaluate_vec _ _ (by simp), sq_core_tab]
    simp
  slope i _ y _ := by
    have := ((hasDerivAt_id y).const_sub (f i)).pow 2
    refine HasDerivAt.congr_deriv this ?_
    simp
  isOpen _ _ _ _ := Filter.Eventually.of_forall fun _ => trivial

theorem tab_congr {n : ℕ} {f g : ℕ → ℝ} (h : ∀ i < n, f i = g i) : tab n f = tab n g :=
  List.map_congr_left fun i hi => h i (List.mem_range.mp hi)

theorem measAt_kl (N : ℕ) (f : ℕ → ℝ) (μ : ℝ) (nv : XR) (hf : ∀ i < N, 0 < f i) :
    MeasAt (.kl ⟨XR.fin μ, nv⟩) (fins (tab N f)) N (fun i y => Unmasked μ (f i) y)
      (fun i y => klInt (f i) y) (fun i y => -(f i / y)) where
  eval g hg := by
    have hg0 : ∀ i < N, 0 ≤ g i := fun i hi => (unmasked_pos (hf i hi).le (hg i hi)).le
    show KL.evaluate _ _ _ _ = _
    rw [kl_evaluate_vec _ _ _ (by simp)]
    have h1 := kl_core_tab μ nv N f g hf hg0 true
    have h2 := kl_core_tab_deriv μ nv N f g (fun i hi => (hf i hi).le) hg0
    rw [tab_congr (g := fun i => klInt (f i) (g i)) fun i hi => klVal_unmasked (hg i hi)] at h1
    rw [tab_congr (f := fun i => -klRatio μ (f i) (g i)) (g := fun i => -(f i / g i))
      fun i hi => by simp [klRatio, hg i hi]] at h2
    rw [← h1, ← h2]
  slope i hi y hy := hasDerivAt_klInt (hf i hi) (unmasked_pos (hf i hi).le hy)
  isOpen i _ y hy := eventually_unmasked continuousAt_id hy

theorem measAt_ts (N : ℕ) (f : ℕ → ℝ) (α μ : ℝ) (hα : α ≠ 1) (hf : ∀ i < N, 0 < f i) :
    MeasAt (.ts ⟨α, XR.fin μ⟩) (fins (tab N f)) N (fun i y => Unmasked μ (f i) y)
      (fun i y => tsInt α (f i) y) (fun i y => -((f i / y) ^ α)) where
  eval g hg := by
    show Tsallis.evaluate _ _ _ _ = _
    rw [ts_evaluate_vec _ _ _ (by simp)]
    unfold Tsallis.core
    congr 1
    simp only [if_true, Prod.mk.injEq, Option.some.injEq]
    constructor
    · apply List.ext_getElem
      · simp
      · intro i h1 h2
        have hi : i < N := by simpa using h2
        simp only [fins, tab, List.getElem_map, List.getElem_zipWith, List.getElem_range]
        exact ts_entry (hf i hi) (hg i hi) hα
    · apply List.ext_getElem
      · simp
      · intro i h1 h2
        have hi : i < N := by simpa using h2
        have hg0 := unmasked_pos (hf i hi).le (hg i hi)
        simp only [fins, tab, List.getElem_map, List.getElem_zipWith, List.getElem_range]
        rw [maDiv_unmasked (hf i hi).le hg0 (hg i hi), XR.pow_fin_of_pos (div_pos (hf i hi) hg0)]
        rfl
  slope i hi y hy := hasDerivAt_tsInt hα (hf i hi) (unmasked_pos (hf i hi).le hy)
  isOpen i _ y hy := eventually_unmasked continuousAt_id hy

/-- The vector `x` handed to the objective with `args` stands for coefficients `c` and exponents `e`. -/
inductive Params (nb : ℕ) : SArgs → List ℝ → List ℝ → List ℝ → Prop
  | both (c e : List ℝ) (hc : c.length = nb) (he : e.length = nb) : Params nb .none (c ++ e) c e
  | coeffs (c e : List ℝ) (hc : c.length = nb) (he : e.length = nb) :
      Params nb (.fixedExpons (fins e)) c c e
  | expons (c e : List ℝ) (hc : c.length = nb) (he : e.length = nb) :
      Params nb (.fixedCoeffs (fins c)) e c e

/-- Entry `j` of row `i` of the Jacobian of the model. -/
def Shape.jcol (S : Shape) (norm : Bool) (c e : List ℝ) (j i : ℕ) : ℝ :=
  if j < S.nb then bf (S.isS j) norm (vec e j) (S.rad j i)
  else vec c (j - S.nb) * dbf (S.isS (j - S.nb)) norm (vec e (j - S.nb)) (S.rad (j - S.nb) i)

/-- First column handed to the objective. -/
def SArgs.off (nb : ℕ) : SArgs → ℕ
  | .fixedCoeffs _ => nb
  | _ => 0

theorem jrow_eq (S : Shape) (norm : Bool) (c e : List ℝ) (i : ℕ) :
    (List.range S.nb).map (fun k => bf (S.isS k) norm (vec e k) (S.rad k i)) ++
      (List.range S.nb).map (fun k => vec c k * dbf (S.isS k) norm (vec e k) (S.rad k i)) =
    tab (2 * S.nb) fun j => S.jcol norm c e j i := by
  apply List.ext_getElem
  · simp; omega
  · intro j h1 h2
    simp only [List.getElem_append, List.length_map, List.length_range, tab, List.getElem_map,
      List.getElem_range, Shape.jcol]
    split <;> rfl

theorem slice_tab (n a b : ℕ) (f : ℕ → ℝ) (hb : b ≤ n) :
    sliceFrom (sliceTo (fins (tab n f)) (b : ℤ)) (a : ℤ) = fins (tab (b - a) fun k => f (a + k)) := by
  rw [sliceTo_nat, sliceFrom_nat]
  apply List.ext_getElem
  · simp; omega
  · intro j h1 h2
    simp [fins, tab]

theorem Params.len {nb : ℕ} {args : SArgs} {x c e : List ℝ} (h : Params nb args x c e) :
    c.length = nb ∧ e.length = nb := by
  cases h <;> exact ⟨by assumption, by assumption⟩

theorem evaluateModel_fins {S : SFit} {norm : Bool} {Sh : Shape} {N : ℕ} {W f : ℕ → ℝ}
    (h : FitData S.toFit norm Sh N W f) {args : SArgs} {x c e : List ℝ} (hp : Params Sh.nb args x c e)
    (hpos : norm = true → ∀ a ∈ e, 0 ≤ a) :
    S.evaluateModel (fins x) args = .ok (fins (tab N (Sh.dens norm (vec c) (vec e))),
      (List.range N).map fun i => fins (tab x.length fun k => Sh.jcol norm c e (args.off Sh.nb + k) i)) := by
  have hev := h.model.eval c e true hp.len.1 hp.len.2 hpos
  have hnb : S.model.nbasis = (Sh.nb : ℤ) := h.model.nbasis
  simp only [if_true, jrow_eq] at hev
  have h2 : (2 * (Sh.nb : ℤ)) = ((2 * Sh.nb : ℕ) : ℤ) := by push_cast; ring
  unfold SFit.evaluateModel
  cases hp with
  | both _ _ hc he =>
    have e1 : sliceTo (fins (c ++ e)) (Sh.nb : ℤ) = fins c := by
      rw [sliceTo_nat, ← hc]; simp [fins]
    have e2 : sliceFrom (fins (c ++ e)) (Sh.nb : ℤ) = fins e := by
      rw [sliceFrom_nat, ← hc]; simp [fins]
    simp only [hnb, e1, e2, hev, h2, Option.getD_some]
    refine congrArg Except.ok (Prod.ext rfl ?_)
    simp only
    rw [List.map_map]
    apply List.map_congr_left
    intro i _
    have := slice_tab (2 * Sh.nb) 0 (2 * Sh.nb) (fun j => Sh.jcol norm c e j i) le_rfl
    simp only [Nat.cast_zero, Nat.sub_zero] at this
    have hl : (c ++ e).length = 2 * Sh.nb := by simp [hc, he]; omega
    rw [hl]
    exact this
  | coeffs _ _ hc he =>
    simp only [hnb, hev, Option.getD_some]
    refine congrArg Except.ok (Prod.ext rfl ?_)
    simp only
    rw [List.map_map]
    apply List.map_congr_left
    intro i _
    have := slice_tab (2 * Sh.nb) 0 Sh.nb (fun j => Sh.jcol norm x e j i) (by omega)
    simp only [Nat.cast_zero, Nat.sub_zero] at this
    rw [hc]
    exact this
  | expons _ _ hc he =>
    simp only [hnb, hev, h2, Option.getD_some]
    refine congrArg Except.ok (Prod.ext rfl ?_)
    simp only
    rw [List.map_map]
    apply List.map_congr_left
    intro i _
    have := slice_tab (2 * Sh.nb) Sh.nb (2 * Sh.nb) (fun j => Sh.jcol norm c x j i) le_rfl
    have h3 : 2 * Sh.nb - Sh.nb = Sh.nb := by omega
    rw [h3] at this
    rw [he]
    exact this

theorem bcast_tab (N : ℕ) (u v : ℕ → ℝ) :
    bcast (· * ·) (fins (tab N u)) (fins (tab N v)) = .ok (fins (tab N fun i => u i * v i)) := by
  unfold bcast
  rw [if_pos (by simp), zipWith_tab (g := fun a b => a * b) (by simp)]

theorem column_tab (N n k : ℕ) (J : ℕ → ℕ → ℝ) (hk : k < n) :
    column ((List.range N).map fun i => fins (tab n fun j => J j i)) k = .ok (fins (tab N (J k))) := by
  unfold column
  rw [mapPy_ok (g := fun row : List XR => row.getD k XR.nan)]
  · congr 1
    simp only [List.map_map, fins, tab]
    apply List.map_congr_left
    intro i _
    simp [List.getD_eq_getElem?_getD, hk]
  · intro row hrow
    obtain ⟨i, -, rfl⟩ := List.mem_map.mp hrow
    simp [fins, tab, hk, List.getD_eq_getElem?_getD]

/-- The objective and its gradient on finite data, for a measure with the values `v` and derivatives `dv`
at the model. -/
theorem func_fins_of {S : SFit} {norm : Bool} {Sh : Shape} {N : ℕ} {W f w : ℕ → ℝ}
    (h : FitData S.toFit norm Sh N W f) (hw : S.weights = fins (tab N w)) {v dv : ℕ → ℝ → ℝ}
    {args : SArgs} {x c e : List ℝ} (hp : Params Sh.nb args x c e)
    (hpos : norm = true → ∀ a ∈ e, 0 ≤ a)
    (hm : S.measure.evaluate (.arr (ND.vec (fins (tab N f))))
        (.arr (ND.vec (fins (tab N (Sh.dens norm (vec c) (vec e)))))) (.bool true) =
      .ok (fins (tab N fun i => v i (Sh.dens norm (vec c) (vec e) i)),
        some (fins (tab N fun i => dv i (Sh.dens norm (vec c) (vec e) i))))) :
    S.func (fins x) args = .ok
      (XR.fin (∑ i ∈ range N, W i * (w i * v i (Sh.dens norm (vec c) (vec e) i))),
       fins (tab x.length fun k => ∑ i ∈ range N, W i * (w i * dv i (Sh.dens norm (vec c) (vec e) i) *
         Sh.jcol norm c e (args.off Sh.nb + k) i))) := by
  unfold SFit.func
  rw [evaluateModel_fins h hp hpos]
  simp only
  rw [h.dens, hm]
  simp only
  rw [hw, bcast_tab]
  simp only [Fit.integrate]
  rw [h.quad.fin]
  simp only [Option.getD_some]
  rw [mapPy_ok (g := fun k => XR.fin (∑ i ∈ range N, W i * (w i * dv i (Sh.dens norm (vec c) (vec e) i) *
         Sh.jcol norm c e (args.off Sh.nb + k) i)))]
  · simp [fins, tab]
  · intro k hk
    have hk : k < x.length := by simpa using hk
    unfold SFit.gradEntry
    rw [hw, bcast_tab]
    simp only
    rw [column_tab _ _ _ (fun j i => Sh.jcol norm c e (args.off Sh.nb + j) i) hk]
    simp only
    rw [bcast_tab]
    exact h.quad.fin _

/-- The objective and its gradient on finite data. -/
theorem func_fins {S : SFit} {norm : Bool} {Sh : Shape} {N : ℕ} {W f w : ℕ → ℝ}
    (h : FitData S.toFit norm Sh N W f) (hw : S.weights = fins (tab N w)) {P : ℕ → ℝ → Prop}
    {v dv : ℕ → ℝ → ℝ} (hm : MeasAt S.measure (fins (tab N f)) N P v dv)
    {args : SArgs} {x c e : List ℝ} (hp : Params Sh.nb args x c e)
    (hpos : norm = true → ∀ a ∈ e, 0 ≤ a) (hP : ∀ i < N, P i (Sh.dens norm (vec c) (vec e) i)) :
    S.func (fins x) args = .ok
      (XR.fin (∑ i ∈ range N, W i * (w i * v i (Sh.dens norm (vec c) (vec e) i))),
       fins (tab x.length fun k => ∑ i ∈ range N, W i * (w i * dv i (Sh.dens norm (vec c) (vec e) i) *
         Sh.jcol norm c e (args.off Sh.nb + k) i))) :=
  func_fins_of h hw hp hpos (hm.eval _ hP)

/-- Changing one entry of the vector changes one coefficient or exponent. -/
theorem params_set {Sh : Shape} {norm : Bool} {args : SArgs} {x c e : List ℝ} (hp : Params Sh.nb args x c e)
    (k : ℕ) (hk : k < x.length) (hpos : norm = true → ∀ a ∈ e, 0 < a) :
    ∃ path : ℝ → List ℝ × List ℝ, (∀ t, Params Sh.nb args (x.set k t) (path t).1 (path t).2) ∧
      path (vec x k) = (c, e) ∧
      (∀ᶠ t in 𝓝 (vec x k), norm = true → ∀ a ∈ (path t).2, 0 ≤ a) ∧
      ∀ i, HasDerivAt (fun t => Sh.dens norm (vec (path t).1) (vec (path t).2) i)
        (Sh.jcol norm c e (args.off Sh.nb + k) i) (vec x k) := by
  have hevc : ∀ (c : ℝ → List ℝ) t₀, ∀ᶠ t in 𝓝 t₀, norm = true → ∀ a ∈ (c t, e).2, 0 ≤ a := fun c t₀ =>
    Filter.Eventually.of_forall fun t hn a ha => (hpos hn a ha).le
  have heve : ∀ j, j < e.length → ∀ᶠ t in 𝓝 (vec e j), norm = true → ∀ a ∈ (c, e.set j t).2, 0 ≤ a := by
    intro j hj
    cases norm with
    | false => exact Filter.Eventually.of_forall fun _ h => by simp at h
    | true =>
      filter_upwards [lt_mem_nhds (vec_of_mem rfl (hpos rfl) j hj)] with t ht _ a ha
      rcases List.mem_or_eq_of_mem_set ha with h | h
      · exact (hpos rfl a h).le
      · rw [h]; exact ht.le
  cases hp with
  | both _ _ hc he =>
    by_cases hkn : k < Sh.nb
    · have hv : vec (c ++ e) k = vec c k := by
        simp [vec, List.getD_eq_getElem?_getD, List.getElem?_append_left (hc ▸ hkn)]
      refine ⟨fun t => (c.set k t, e), fun t => ?_, ?_, ?_, ?_⟩
      · rw [List.set_append_left _ _ (hc ▸ hkn)]
        exact .both _ _ (by simp [hc]) he
      · simp only [hv]; rw [set_vec_self c k (hc ▸ hkn)]
      · exact hevc _ _
      · intro i
        rw [hv]
        have := hasDerivAt_dens_c Sh norm c e hc k i hkn
        simpa [Shape.jcol, SArgs.off, hkn] using this
    · have hk2 : k - Sh.nb < Sh.nb := by simp [hc, he] at hk; omega
      have hv : vec (c ++ e) k = vec e (k - Sh.nb) := by
        simp [vec, List.getD_eq_getElem?_getD, List.getElem?_append_right (hc ▸ not_lt.mp hkn), hc]
      refine ⟨fun t => (c, e.set (k - Sh.nb) t), fun t => ?_, ?_, ?_, ?_⟩
      · rw [List.set_append_right _ _ (by omega), hc]
        exact .both _ _ hc (by simp [he])
      · simp only [hv]; rw [set_vec_self e _ (he ▸ hk2)]
      · rw [hv]; exact heve _ (he ▸ hk2)
      · intro i
        rw [hv]
        have := hasDerivAt_dens_e Sh norm c e he (k - Sh.nb) i hk2
          fun hn => vec_of_mem he (hpos hn) _ hk2
        simpa [Shape.jcol, SArgs.off, hkn] using this
  | coeffs _ _ hc he =>
    have hkn : k < Sh.nb := hc ▸ hk
    refine ⟨fun t => (x.set k t, e), fun t => .coeffs _ _ (by simp [hc]) he, ?_, hevc _ _, ?_⟩
    · simp only; rw [set_vec_self x k hk]
    · intro i
      have := hasDerivAt_dens_c Sh norm x e hc k i hkn
      simpa [Shape.jcol, SArgs.off, hkn] using this
  | expons _ _ hc he =>
    have hkn : k < Sh.nb := he ▸ hk
    refine ⟨fun t => (c, x.set k t), fun t => .expons _ _ hc (by simp [he]), ?_, heve k hk, ?_⟩
    · simp only; rw [set_vec_self x k hk]
    · intro i
      have := hasDerivAt_dens_e Sh norm c x he k i hkn fun hn => vec_of_mem he (hpos hn) _ hkn
      simpa [Shape.jcol, SArgs.off] using this

end
end BFit
