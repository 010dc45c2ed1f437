import Verif.Props.Gauss

/-! Property C112: the centres that an atomic model accepts; property C19 on one-dimensional points. -/

namespace BFit

open Classical

noncomputable section

/-- The radii of one-dimensional points for a centre with any number of entries. -/
theorem atomRadii_one (xs cs : List ℝ) :
    (cs.length = xs.length → atomRadii (.one (fins xs)) (fins cs) =
      .ok (fins (List.zipWith (fun x c => |x - c|) xs cs))) ∧
    (∀ x, xs = [x] → atomRadii (.one (fins xs)) (fins cs) = .ok (fins (cs.map fun c => |x - c|))) := by
  have hz : ∀ xs cs : List ℝ, (List.zipWith (· - ·) (fins xs) (fins cs)).map XR.abs =
      fins (List.zipWith (fun x c => |x - c|) xs cs) := by
    intro xs cs
    induction xs generalizing cs with
    | nil => rfl
    | cons x xs ih =>
      cases cs with
      | nil => rfl
      | cons c cs =>
        have := ih cs
        simp only [fins, List.map_cons, List.zipWith_cons_cons] at this ⊢
        rw [this]
        simp
  constructor
  · intro h
    unfold atomRadii subBroadcast
    have hl : (fins cs).length = cs.length := by simp [fins]
    have hl' : (fins xs).length = xs.length := by simp [fins]
    by_cases h1 : cs.length = 1
    · obtain ⟨c, rfl⟩ := List.length_eq_one_iff.1 h1
      obtain ⟨x, rfl⟩ := List.length_eq_one_iff.1 (h ▸ h1)
      simp [fins]
    · simp only
      rw [if_neg (by rw [hl]; exact h1), if_pos (by rw [hl, hl', h])]
      simp only
      rw [hz]
  · rintro x rfl
    unfold atomRadii subBroadcast
    by_cases h1 : cs.length = 1
    · obtain ⟨c, rfl⟩ := List.length_eq_one_iff.1 h1
      simp [fins]
    · simp only
      rw [if_neg (by simpa [fins] using h1), if_neg (by simpa [fins] using fun h => h1 h.symm),
        if_pos (by simp [fins])]
      simp [fins, Function.comp_def]

/-- **C112** (accepted centres).  With valid numbers of functions, a model can be constructed exactly when no
centre is given, or a one-dimensional array whose length is the number of columns of two-dimensional points; for
one-dimensional points its length has to be one, or the number of points, or anything if there is only one
point.  Everything else raises ValueError. -/
theorem C112_accepts (pts : Pts) (center numS numP : PyObj) (norm : Bool) (s p : ℕ) (hs : numS.IsInt s)
    (hp : numP.IsInt p) (hsp : s + p ≠ 0) :
    ((∃ m, Atomic.init (.arr pts) center numS numP norm = .ok m) ↔
      center = .none ∨ ∃ a, center = .arr a ∧ a.ndim = 1 ∧ (∀ cols rows, pts = .two cols rows → a.size = cols) ∧
        ∀ l, pts = .one l → a.size = 1 ∨ a.size = l.length ∨ l.length = 1) ∧
    ∀ e, Atomic.init (.arr pts) center numS numP norm = .error e → e = .valueError := by
  rw [isInt_iff] at hs hp
  have h0 : ¬ ((s : ℤ) + p = 0) := by omega
  have h3 : ¬ ((s : ℤ) < 0) := by omega
  have h4 : ¬ ((p : ℤ) < 0) := by omega
  simp only [Atomic.init, hs, hp, h0, h3, h4, if_false]
  cases center with
  | none =>
    cases pts with
    | one l => simp [atomCoord, atomRadii, subBroadcast]
    | two cols rows => simp [atomCoord, atomRadii]
  | arr a =>
    by_cases h1 : a.ndim = 1
    · have hd : a.data.length = a.size := rfl
      cases pts with
      | two cols rows =>
        by_cases h2 : cols = a.size
        · simp [atomCoord, atomRadii, h1, h2]
        · have h2' : a.size ≠ cols := fun h => h2 h.symm
          simp [atomCoord, h1, h2, h2', raise]
      | one l =>
        by_cases h5 : a.size = 1
        · simp [atomCoord, atomRadii, subBroadcast, h1, h5, hd]
        · by_cases h6 : l.length = a.size
          · simp [atomCoord, atomRadii, subBroadcast, h1, h5, hd, h6]
          · have h6' : a.size ≠ l.length := fun h => h6 h.symm
            by_cases h7 : l.length = 1
            · have h5' : ¬ 1 = a.size := fun h => h5 h.symm
              simp [atomCoord, atomRadii, subBroadcast, h1, h5, hd, h7, h5']
            · simp [atomCoord, atomRadii, subBroadcast, h1, h5, hd, h6, h6', h7, raise]
    · simp [atomCoord, h1, raise]
  | _ => simp [atomCoord, raise]

/-- **C112** (one-dimensional points).  A centre with as many entries as there are points is not a point: the
radii are the distances of each point from its own entry.  A centre with several entries for a single point
gives as many radii. -/
theorem C112_one_dimensional (xs cs : List ℝ) (s p : ℕ) (hsp : s + p ≠ 0) (norm : Bool) :
    (cs.length = xs.length → ∃ m, Atomic.init (.arr (.one (fins xs))) (.arr (ND.vec (fins cs))) (.int s) (.int p)
      norm = .ok m ∧ m.radii = fins (List.zipWith (fun x c => |x - c|) xs cs)) ∧
    (∀ x, xs = [x] → ∃ m, Atomic.init (.arr (.one (fins xs))) (.arr (ND.vec (fins cs))) (.int s) (.int p)
      norm = .ok m ∧ m.radii = fins (cs.map fun c => |x - c|)) := by
  have hc : atomCoord (.one (fins xs)) (.arr (ND.vec (fins cs))) = .ok (fins cs) := by
    simp [atomCoord, ND.ndim, ND.vec]
  exact ⟨fun h => ⟨_, init_ok _ _ _ s p norm _ _ _ hsp rfl rfl hc ((atomRadii_one xs cs).1 h), rfl⟩,
    fun x h => ⟨_, init_ok _ _ _ s p norm _ _ _ hsp rfl rfl hc ((atomRadii_one xs cs).2 x h), rfl⟩⟩

/-- **C19 fails** (one value per point): the model for one point on a line with a centre of three entries can
be constructed and evaluated, but returns three values. -/
theorem C19_several_values (x a b c u v : ℝ) (norm : Bool) :
    ∃ m, Atomic.init (.arr (.one [.fin x])) (.arr (ND.vec (fins [a, b, c]))) (.int 1) (.int 0) norm = .ok m ∧
      m.points.len = 1 ∧
      ∃ g d, m.evaluate (ND.vec [.fin u]) (ND.vec [.fin v]) false = .ok (g, d) ∧ g.length = 3 := by
  obtain ⟨m, h1, h2⟩ := (C112_one_dimensional [x] [a, b, c] 1 0 (by norm_num) norm).2 x rfl
  obtain ⟨pts, coord, radii, s, p, hpts, hs, hp, _, _, _, _, _, rfl⟩ := init_inv h1
  injection hpts with hpts
  subst hpts
  simp only [PyObj.asInt?, Option.some.injEq] at hs hp
  subst hs hp
  simp only at h2
  subst h2
  refine ⟨_, h1, rfl, ?_⟩
  simp [Atomic.evaluate, ND.vec, ND.ndim, ND.size, Atomic.nbasis, fins]

/-- Three points on a line accept a centre with three entries but not one with two. -/
example : (∃ m, Atomic.init (.arr (.one (fins [1, 2, 3]))) (.arr (ND.vec (fins [0, 1, 5]))) (.int 1) (.int 0)
      true = .ok m ∧ m.radii = fins [1, 1, 2]) ∧
    Atomic.init (.arr (.one (fins [1, 2, 3]))) (.arr (ND.vec (fins [0, 1]))) (.int 1) (.int 0) true =
      .error .valueError := by
  constructor
  · obtain ⟨m, h1, h2⟩ := (C112_one_dimensional [1, 2, 3] [0, 1, 5] 1 0 (by norm_num) true).1 rfl
    refine ⟨m, h1, h2.trans ?_⟩
    norm_num [fins]
  · obtain ⟨h1, h2⟩ := C112_accepts (.one (fins [1, 2, 3])) (.arr (ND.vec (fins [0, 1]))) (.int 1) (.int 0) true 1 0
      (by simp [isInt_iff, PyObj.asInt?]) (by simp [isInt_iff, PyObj.asInt?]) (by norm_num)
    cases h : Atomic.init (.arr (.one (fins [1, 2, 3]))) (.arr (ND.vec (fins [0, 1]))) (.int 1) (.int 0) true with
    | error e => rw [h2 e h]
    | ok m =>
      exfalso
      rcases h1.1 ⟨m, h⟩ with h3 | ⟨a, h3, -, -, h4⟩
      · simp at h3
      · injection h3 with h3
        subst h3
        have := h4 _ rfl
        simp [ND.size, ND.vec, fins] at this

end
end BFit
