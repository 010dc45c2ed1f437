import Verif.Props.Fit

/-! What happens when the density and the model of a fit do not have the same number of points. -/

namespace BFit

open Real Classical Finset

noncomputable section

theorem bcast_error {op : XR → XR → XR} {a b : List XR} {err : PyErr} (h : bcast op a b = .error err) :
    err = .valueError := by
  unfold bcast raise at h
  split_ifs at h
  injection h with h
  exact h.symm

theorem grid_integrate_error {g : Grid} {a : ND XR} {err : PyErr} (h : g.integrate a = .error err) :
    err = .valueError := by
  cases g with
  | radial g =>
    simp only [Grid.integrate, RadialGrid.integrate, raise] at h
    split_ifs at h
    injection h with h
    exact h.symm
  | cubic g =>
    simp only [Grid.integrate, CubicGrid.integrate, raise] at h
    split_ifs at h
    all_goals (injection h with h; exact h.symm)

theorem integrateOn_error {g : Grid} {s : Bool} {l : List XR} {err : PyErr}
    (h : integrateOn g s l = .error err) : err = .valueError := by
  unfold integrateOn at h
  split_ifs at h
  · cases g with
    | radial g =>
      simp only at h
      split at h
      · rename_i e he
        injection h with h
        rw [← h]
        exact bcast_error he
      · exact grid_integrate_error h
    | cubic g =>
      unfold raise at h
      injection h with h
      exact h.symm
  · exact grid_integrate_error h

theorem checkArgs_mismatch {a b : List XR} (d : Bool) (h : b.length ≠ a.length) :
    checkArgs (.arr (ND.vec a)) (.arr (ND.vec b)) (.bool d) = .error .valueError := by
  simp [checkArgs, ND.vec, raise, h]

/-- **C33** (sizes).  Without as many density values as the model has points `goodness_of_fit` raises ValueError,
although single values would be broadcast. -/
theorem C33_sizes (F : Fit) (c e g : List XR) (dg : Option (List (List XR)))
    (h : F.model.evaluate c e false = .ok (g, dg)) (hl : g.length ≠ F.density.length) :
    F.goodness c e = .error .valueError := by
  unfold Fit.goodness
  rw [h]
  simp only
  split
  · rename_i err he
    rw [bcast_error he]
  · split
    · rename_i err he
      rw [integrateOn_error he]
    · split
      · rename_i err he
        rw [integrateOn_error he]
      · split
        · rename_i err he
          unfold npMax raise at he
          split at he
          · injection he with he
            rw [← he]
          · cases he
        · unfold sqEvaluate
          rw [checkArgs_mismatch false hl]

/-- **C33** (sizes, updates).  The same holds for the updates of the fixed-point iteration, whatever is updated. -/
theorem C33_sizes_update (F : FPI) (c e g : List XR) (dg : Option (List (List XR)))
    (h : F.model.evaluate c e true = .ok (g, dg)) (hl : g.length ≠ F.density.length) (uc ue : Bool) :
    F.updateParams c e uc ue = .error .valueError := by
  unfold FPI.updateParams
  split
  · rfl
  · rw [h]
    simp only [KL.evaluate]
    rw [checkArgs_mismatch true hl]

/-- Two density values for a model on three points: the constructor accepts them on a grid of two points. -/
example : ∃ F, Fit.init (.radial ⟨fins [0, 1]⟩) (fins [1, 1]) (.atom (demoS true)) none false (XR.fin 0) = .ok F ∧
    F.goodness (fins [1]) (fins [1]) = .error .valueError := by
  have h := (C32_construct (.radial ⟨fins [0, 1]⟩) (fins [1, 1]) (.atom (demoS true)) none false (XR.fin 0)).2.2
    (by simp) (by simp) rfl trivial
  obtain ⟨F, h1, -, h2, h3, -⟩ := h
  refine ⟨F, h1, ?_⟩
  have he := (demoS_isModel true).eval [1] [1] false rfl rfl (by simp)
  rw [← h3] at he
  refine C33_sizes F _ _ _ _ he ?_
  rw [h2]
  simp

end
end BFit
