import Verif.Props.ScipyFit

/-! Property C105: the weights of a `ScipyFit` object. -/

namespace BFit

open Classical Finset

noncomputable section

theorem meas_lengths (m : Meas) (d g : List XR) (k : List XR) (dk : Option (List XR))
    (h : m.evaluate (.arr (ND.vec d)) (.arr (ND.vec g)) (.bool true) = .ok (k, dk)) :
    k.length = d.length ∧ (dk.getD []).length = d.length := by
  have hl : g.length = d.length := by
    by_contra hn
    have hc : checkArgs (.arr (ND.vec d)) (.arr (ND.vec g)) (.bool true) = .error .valueError := by
      simp [checkArgs, ND.vec, ND.ndim, hn, raise]
    cases m <;> simp [Meas.evaluate, sqEvaluate, KL.evaluate, Tsallis.evaluate, hc] at h
  have hc : checkArgs (.arr (ND.vec d)) (.arr (ND.vec g)) (.bool true) = .ok (d, g, true) := by
    simp [checkArgs, ND.vec, ND.ndim, hl]
  cases m with
  | sq =>
    simp only [Meas.evaluate, sqEvaluate, hc, sqCore, Except.ok.injEq, Prod.mk.injEq, if_true] at h
    obtain ⟨rfl, rfl⟩ := h
    simp [hl]
  | kl K =>
    simp only [Meas.evaluate, KL.evaluate, hc, KL.core, Except.ok.injEq, if_true] at h
    split at h
    · obtain ⟨rfl, rfl⟩ := Prod.mk.inj h
      simp [hl]
    · obtain ⟨rfl, rfl⟩ := Prod.mk.inj h
      simp [hl, KL.ratio]
  | ts t =>
    simp only [Meas.evaluate, Tsallis.evaluate, hc, Tsallis.core, Except.ok.injEq, Prod.mk.injEq, if_true] at h
    obtain ⟨rfl, rfl⟩ := h
    simp [hl]

theorem bcast_single (u : XR) (l : List XR) :
    bcast (· * ·) [u] l = bcast (· * ·) (List.replicate l.length u) l := by
  have e : List.zipWith (· * ·) (List.replicate l.length u) l = l.map (u * ·) := by
    induction l with
    | nil => rfl
    | cons a l ih => simp [List.replicate_succ, ih]
  unfold bcast
  rw [if_pos (show (List.replicate l.length u).length = l.length by simp), e]
  split
  · next h =>
    obtain ⟨a, rfl⟩ := List.length_eq_one_iff.1 h.symm
    rfl
  · split
    · next h1 h2 => exact absurd h2.symm h1
    · simp

/-- **C105** (one weight).  A weights array with a single entry stands for that weight at all points: the
objective, its gradient and every run are the same. -/
theorem C105_single (S : SFit) (u : XR) :
    (∀ x args, ({ S with weights := [u] } : SFit).func x args =
      ({ S with weights := List.replicate S.density.length u } : SFit).func x args) ∧
    ∀ minimize c0 e0 o, ({ S with weights := [u] } : SFit).run minimize c0 e0 o =
      ({ S with weights := List.replicate S.density.length u } : SFit).run minimize c0 e0 o := by
  have key : ∀ x args, ({ S with weights := [u] } : SFit).func x args =
      ({ S with weights := List.replicate S.density.length u } : SFit).func x args := by
    intro x args
    have he : ∀ w, ({ S with weights := w } : SFit).evaluateModel x args = S.evaluateModel x args :=
      fun _ => rfl
    unfold SFit.func
    rw [he [u], he (List.replicate S.density.length u)]
    rcases S.evaluateModel x args with err | ⟨m, dm⟩
    · rfl
    · simp only
      rcases hk : S.measure.evaluate (.arr (ND.vec S.density)) (.arr (ND.vec m)) (.bool true) with err | ⟨k, dk⟩
      · rfl
      · obtain ⟨h1, h2⟩ := meas_lengths _ _ _ _ _ hk
        have e1 := bcast_single u k
        have e2 := bcast_single u (dk.getD [])
        rw [h1] at e1
        rw [h2] at e2
        have e3 : ({ S with weights := [u] } : SFit).gradEntry (dk.getD []) dm =
            ({ S with weights := List.replicate S.density.length u } : SFit).gradEntry (dk.getD []) dm := by
          funext i
          unfold SFit.gradEntry
          simp only [e2]
        simp only [e1, e3]
  refine ⟨key, fun minimize c0 e0 o => ?_⟩
  have hp : ({ S with weights := [u] } : SFit).problem c0 e0 o =
      ({ S with weights := List.replicate S.density.length u } : SFit).problem c0 e0 o := by
    unfold SFit.problem
    have hs : ∀ w, ({ S with weights := w } : SFit).setup c0 e0 o.optCoeffs o.optExpons =
      S.setup c0 e0 o.optCoeffs o.optExpons := fun _ => rfl
    have hcn : ∀ w args, ({ S with weights := w } : SFit).constraints args o.withConstraint =
      S.constraints args o.withConstraint := fun _ _ => rfl
    rw [hs [u], hs (List.replicate S.density.length u)]
    simp only [key, hcn]
  unfold SFit.run
  rw [hp]

/-- **C105** (default).  Without weights the objective is the least-squares error, or the Kullback-Leibler
divergence for a measure with the mask of the fit, that `goodness_of_fit` reports for the parameters. -/
theorem C105_default (grid : Grid) (density : List XR) (model : GModel) (ms : Meas) (method : String)
    (T : Option XR) (spherical : Bool) (mask : XR) (S : SFit)
    (hS : SFit.init grid density model (.inst ms) method none T spherical mask = .ok S)
    {norm : Bool} {Sh : Shape} {N : ℕ} {W f : ℕ → ℝ} (h : FitData S.toFit norm Sh N W f) (hN : 0 < N)
    (args : SArgs) (x c e : List ℝ) (hp : Params Sh.nb args x c e)
    (hpos : norm = true → ∀ a ∈ e, 0 ≤ a) :
    (ms = .sq → ∃ v g p, S.func (fins x) args = .ok (XR.fin v, g) ∧
      S.goodness (fins c) (fins e) = .ok p ∧ p.ls = XR.fin v) ∧
    (∀ μ nv, ms = .kl ⟨XR.fin μ, nv⟩ → mask = XR.fin μ → (∀ i < N, 0 < f i) →
      Sh.AllUnmasked norm N μ f c e → ∃ v g p, S.func (fins x) args = .ok (XR.fin v, g) ∧
      S.goodness (fins c) (fins e) = .ok p ∧ p.kl = XR.fin v) := by
  have hw : S.weights = fins (tab N fun _ => 1) ∧ S.measure = ms ∧ S.maskValue = mask := by
    have hd := h.dens
    unfold SFit.init raise at hS
    split at hS
    · simp at hS
    · simp at hS
    split at hS
    · simp at hS
    split at hS
    · simp at hS
    simp only at hS
    rcases hF : Fit.init grid density model T spherical mask with err | F
    · rw [hF] at hS; simp at hS
    rw [hF] at hS
    injection hS with hS
    subst hS
    have hF' : F.density = density ∧ F.maskValue = mask := by
      unfold Fit.init raise at hF
      repeat' split at hF
      all_goals first
        | (simp at hF; done)
        | (injection hF with hF; subst hF; exact ⟨rfl, rfl⟩)
    refine ⟨?_, rfl, hF'.2⟩
    have hl : density.length = N := by
      have := congrArg List.length hd
      simpa [hF'.1] using this
    simp only [Option.getD_none, hl, fins, tab, List.map_map]
    apply List.ext_getElem <;> simp
  obtain ⟨hw, hm, hmask⟩ := hw
  obtain ⟨M, kl, h1, -, -, h4⟩ := goodness_fins h hN c e hp.len.1 hp.len.2 hpos
  constructor
  · rintro rfl
    have := func_fins h hw (by rw [hm]; exact measAt_sq N f) hp hpos fun _ _ => trivial
    simp only [one_mul] at this
    exact ⟨_, _, _, this, h1, rfl⟩
  · intro μ nv hms hμ hf hu
    have := func_fins h hw (by rw [hm, hms]; exact measAt_kl N f μ nv hf) hp hpos hu
    simp only [one_mul] at this
    refine ⟨_, _, _, this, h1, ?_⟩
    show kl = _
    rw [h4 μ (by rw [hmask, hμ]) hf fun i hi => (unmasked_pos (hf i hi).le (hu i hi)).le]
    congr 1
    apply sum_congr rfl
    intro i hi
    rw [klVal_unmasked (hu i (mem_range.1 hi))]

/-- **C105** (linear).  The objective and the gradient are linear in the weights. -/
theorem C105_linear {S : SFit} {norm : Bool} {Sh : Shape} {N : ℕ} {W f : ℕ → ℝ}
    (h : FitData S.toFit norm Sh N W f) {args : SArgs} {x c e : List ℝ} (hp : Params Sh.nb args x c e)
    (hpos : norm = true → ∀ a ∈ e, 0 ≤ a)
    (hms : S.measure = .sq ∨ ∃ μ nv, S.measure = .kl ⟨XR.fin μ, nv⟩ ∧ (∀ i < N, 0 < f i) ∧
      Sh.AllUnmasked norm N μ f c e) :
    ∃ (φ : (ℕ → ℝ) → ℝ) (ψ : (ℕ → ℝ) → ℕ → ℝ),
      (∀ w, ({ S with weights := fins (tab N w) } : SFit).func (fins x) args =
        .ok (XR.fin (φ w), fins (tab x.length (ψ w)))) ∧
      (∀ a b v w, φ (fun i => a * v i + b * w i) = a * φ v + b * φ w) ∧
      ∀ a b v w k, ψ (fun i => a * v i + b * w i) k = a * ψ v k + b * ψ w k := by
  have main : ∀ (P : ℕ → ℝ → Prop) (v dv : ℕ → ℝ → ℝ), MeasAt S.measure (fins (tab N f)) N P v dv →
      (∀ i < N, P i (Sh.dens norm (vec c) (vec e) i)) → _ := fun P v dv hm hP =>
    show ∃ (φ : (ℕ → ℝ) → ℝ) (ψ : (ℕ → ℝ) → ℕ → ℝ),
      (∀ w, ({ S with weights := fins (tab N w) } : SFit).func (fins x) args =
        .ok (XR.fin (φ w), fins (tab x.length (ψ w)))) ∧
      (∀ a b v w, φ (fun i => a * v i + b * w i) = a * φ v + b * φ w) ∧
      ∀ a b v w k, ψ (fun i => a * v i + b * w i) k = a * ψ v k + b * ψ w k from
    ⟨fun w => ∑ i ∈ range N, W i * (w i * v i (Sh.dens norm (vec c) (vec e) i)),
      fun w k => ∑ i ∈ range N, W i * (w i * dv i (Sh.dens norm (vec c) (vec e) i) *
         Sh.jcol norm c e (args.off Sh.nb + k) i),
      fun w => func_fins (S := { S with weights := fins (tab N w) }) ⟨h.model, h.dens, h.quad⟩ rfl hm hp hpos hP,
      fun a b v w => by
        rw [mul_sum, mul_sum, ← sum_add_distrib]
        exact sum_congr rfl fun i _ => by ring,
      fun a b v w k => by
        rw [mul_sum, mul_sum, ← sum_add_distrib]
        exact sum_congr rfl fun i _ => by ring⟩
  rcases hms with hm | ⟨μ, nv, hm, hf, hu⟩
  · exact main _ _ _ (by rw [hm]; exact measAt_sq N f) fun _ _ => trivial
  · exact main _ _ _ (by rw [hm]; exact measAt_kl N f μ nv hf) hu

/-- An object with default weights made by the constructor. -/
theorem demo_default (m : Meas) : SFit.init (.radial ⟨fins [0, 1, 2]⟩) (fins (tab 3 demoF)) (.atom (demoS true))
      (.inst m) "SLSQP" none (some (XR.fin 1)) false (XR.fin 0) =
    .ok { demoSFit m with weights := List.replicate 3 (XR.fin 1) } := by
  unfold SFit.init
  rw [demo_points]
  simp only
  rw [if_neg (by simp [Grid.len]), parse_names.1]
  have : Fit.init (.radial ⟨fins [0, 1, 2]⟩) (fins (tab 3 demoF)) (.atom (demoS true)) (some (XR.fin 1)) false
      (XR.fin 0) = .ok (demoFit true demoF) := by
    unfold Fit.init
    rw [if_neg, if_neg (by simp)]
    · rfl
    · simp only [fins, tab, List.mem_map, exists_exists_and_eq_and, XR.lt_fin]
      rintro ⟨i, -, h⟩
      exact absurd h (demoF_pos i).not_gt
  simp only [this]
  simp [demoSFit]

/-- C105 on the object of the examples: a single weight, the reported errors and linearity. -/
example : (∀ x args, ({ demoSFit .sq with weights := [XR.fin 2] } : SFit).func x args =
      ({ demoSFit .sq with weights := List.replicate 3 (XR.fin 2) } : SFit).func x args) ∧
    (∃ v g p, ({ demoSFit .sq with weights := List.replicate 3 (XR.fin 1) } : SFit).func (fins [1, 1]) .none =
        .ok (XR.fin v, g) ∧
      (demoSFit .sq).goodness (fins [1]) (fins [1]) = .ok p ∧ p.ls = XR.fin v) ∧
    (∃ v g p, ({ demoSFit (.kl ⟨XR.fin 0, XR.fin 7⟩) with weights := List.replicate 3 (XR.fin 1) } : SFit).func
        (fins [1, 1]) .none = .ok (XR.fin v, g) ∧
      (demoSFit .sq).goodness (fins [1]) (fins [1]) = .ok p ∧ p.kl = XR.fin v) ∧
    ∃ (φ : (ℕ → ℝ) → ℝ) (ψ : (ℕ → ℝ) → ℕ → ℝ),
      (∀ w, ({ demoSFit .sq with weights := fins (tab 3 w) } : SFit).func (fins [1, 1]) .none =
        .ok (XR.fin (φ w), fins (tab 2 (ψ w)))) ∧
      (∀ a b v w, φ (fun i => a * v i + b * w i) = a * φ v + b * φ w) ∧
      ∀ a b v w k, ψ (fun i => a * v i + b * w i) k = a * ψ v k + b * ψ w k :=
  ⟨(C105_single (demoSFit .sq) (XR.fin 2)).1,
   (C105_default _ _ _ _ _ _ _ _ _ (demo_default .sq) (demoSFit_data .sq) (by norm_num) .none [1, 1] [1] [1]
     (.both [1] [1] rfl rfl) (by simp)).1 rfl,
   (C105_default _ _ _ _ _ _ _ _ _ (demo_default (.kl ⟨XR.fin 0, XR.fin 7⟩)) (demoSFit_data .sq) (by norm_num)
     .none [1, 1] [1] [1] (.both [1] [1] rfl rfl) (by simp)).2 0 (XR.fin 7) rfl rfl (fun i _ => demoF_pos i)
     demo_unmasked,
   C105_linear (demoSFit_data .sq) (.both [1] [1] rfl rfl) (by simp) (Or.inl rfl)⟩

end
end BFit
