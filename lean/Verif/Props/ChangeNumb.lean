import Verif.Props.Gauss
import Verif.Model.Greedy

/-! Property C106: `AtomicGaussianDensity.change_numb_s_and_numb_p` (model.py:137-154), used by the greedy
methods at every step. -/

namespace BFit

noncomputable section

/-- **C106** (same as a new model).  For a model accepted by the constructor and numbers the constructor
accepts, the changed model is the one the constructor gives for these numbers: no other attribute depends on
them.  This includes the points, the radii, the centre and the normalisation. -/
theorem C106_rebuild (points : PtsArg) (center numS numP : PyObj) (norm : Bool) (m : Atomic)
    (h : Atomic.init points center numS numP norm = .ok m) (newS newP : PyObj) (s p : ℕ)
    (hs : newS.IsInt s) (hp : newP.IsInt p) (hsp : s + p ≠ 0) :
    ∃ m', m.changeNumb newS newP = .ok m' ∧ Atomic.init points center newS newP norm = .ok m' := by
  rw [isInt_iff] at hs hp
  obtain ⟨pts, coord, radii, s0, p0, rfl, _, _, _, _, _, hco, hra, rfl⟩ := init_inv h
  exact ⟨_, by simp only [Atomic.changeNumb, hs, hp],
    init_ok pts center newS s p norm newP coord radii hsp hs hp hco hra⟩

/-- **C106** (arguments).  The method raises TypeError exactly when one of the arguments is not an integer and
raises nothing else.  The numbers after the call are the arguments, whatever their sign; the values then
requested by `evaluate` are as many coefficients and exponents as their sum. -/
theorem C106_arguments (m : Atomic) (newS newP : PyObj) :
    (m.changeNumb newS newP = .error .typeError ↔ (∀ k, ¬ newS.IsInt k) ∨ ∀ k, ¬ newP.IsInt k) ∧
    (∀ err, m.changeNumb newS newP = .error err → err = .typeError) ∧
    ∀ m', m.changeNumb newS newP = .ok m' →
      newS.IsInt m'.ns ∧ newP.IsInt m'.np ∧ m'.radii = m.radii ∧
      m'.normalized = m.normalized ∧
      ∀ c e d, (∃ out, m'.evaluate c e d = .ok out) ↔
        c.ndim = 1 ∧ e.ndim = 1 ∧ (c.size : ℤ) = m'.ns + m'.np ∧ (e.size : ℤ) = m'.ns + m'.np := by
  simp only [not_isInt_iff]
  simp only [isInt_iff]
  rcases hs : newS.asInt? with _ | s
  · simp [Atomic.changeNumb, hs, raise]
  rcases hp : newP.asInt? with _ | p
  · simp [Atomic.changeNumb, hs, hp, raise]
  refine ⟨by simp [Atomic.changeNumb, hs, hp], by simp [Atomic.changeNumb, hs, hp], ?_⟩
  intro m' h
  simp only [Atomic.changeNumb, hs, hp, Except.ok.injEq] at h
  subst h
  refine ⟨rfl, rfl, rfl, rfl, ?_⟩
  intro c e d
  have key := (C19_evaluate { m with ns := s, np := p } c e d).1
  have key2 := (C19_evaluate { m with ns := s, np := p } c e d).2.1
  rcases hev : Atomic.evaluate { m with ns := s, np := p } c e d with err | out
  · have := key2 err hev
    subst this
    have := key.1 hev
    simp only [reduceCtorEq, exists_false, false_iff]
    exact this
  · rw [hev] at key
    simp only [reduceCtorEq, false_iff, not_not] at key
    simp only [Except.ok.injEq, exists_eq', true_iff]
    exact key

/-- **C106** (history).  Only the last change counts: a change after another gives what the second one alone
gives, and changing back restores the model. -/
theorem C106_history (m : Atomic) (s p s' p' : ℤ) :
    ((m.changeNumb (.int s) (.int p)).bind fun m' => m'.changeNumb (.int s') (.int p')) =
      m.changeNumb (.int s') (.int p') ∧
    m.changeNumb (.int m.ns) (.int m.np) = .ok m ∧
    ((m.changeNumb (.int s) (.int p)).bind fun m' => m'.changeNumb (.int m.ns) (.int m.np)) = .ok m :=
  ⟨rfl, rfl, rfl⟩

/-- **C106** (greedy methods).  The model with which a greedy method works for given numbers of functions is
the changed model, for both kinds of greedy methods. -/
theorem C106_greedy (m m' : Atomic) (ns np : ℕ) (h : m.changeNumb (.int ns) (.int np) = .ok m') :
    (∀ S : SFit, S.model = .atom m → S.withCounts ns np = { S with model := .atom m' }) ∧
    ∀ F : FPI, F.model = .atom m → F.withCounts ns np = { F with model := .atom m' } := by
  simp only [Atomic.changeNumb, PyObj.asInt?, Except.ok.injEq] at h
  subst h
  constructor
  · intro S hS
    simp only [SFit.withCounts, GModel.withCounts, hS]
  · intro F hF
    simp only [FPI.withCounts, GModel.withCounts, hF]

/-- **C106** (no check of the numbers).  Numbers which the constructor refuses are accepted: after changing to
negative or zero numbers, the model evaluates the density of no functions at all when the sum is zero, and
cannot be evaluated when it is negative. -/
theorem C106_unchecked (points : PtsArg) (center numS numP : PyObj) (norm : Bool) (m : Atomic)
    (h : Atomic.init points center numS numP norm = .ok m) :
    (∃ m', m.changeNumb (.int 0) (.int 0) = .ok m' ∧
      (∃ err, Atomic.init points center (.int 0) (.int 0) norm = .error err) ∧
      m'.evaluate (ND.vec []) (ND.vec []) false = .ok (m.radii.map fun _ => XR.fin 0, none)) ∧
    ∀ s p : ℤ, s + p < 0 → ∃ m', m.changeNumb (.int s) (.int p) = .ok m' ∧
      (∃ err, Atomic.init points center (.int s) (.int p) norm = .error err) ∧
      ∀ c e d, m'.evaluate c e d = .error .valueError := by
  obtain ⟨pts, coord, radii, s0, p0, rfl, _⟩ := init_inv h
  refine ⟨⟨_, rfl, ⟨.valueError, by simp [Atomic.init, PyObj.asInt?, raise]⟩, ?_⟩, ?_⟩
  · simp [Atomic.evaluate, ND.vec, ND.ndim, ND.size, Atomic.nbasis, Atomic.evalRow, evalSRow,
      gaussRow]
    exact Or.inr (by simp [npDot])
  intro s p hsp
  refine ⟨_, rfl, ⟨.typeError, ?_⟩, ?_⟩
  · apply (C19_construction (.arr pts) center (.int s) (.int p) norm).1
    by_cases hs : s < 0
    · refine .inr (.inl ?_)
      intro s' hs'
      rw [isInt_iff] at hs'; simp only [PyObj.asInt?, Option.some.injEq] at hs'
      omega
    · refine .inr (.inr ?_)
      intro p' hp'
      rw [isInt_iff] at hp'; simp only [PyObj.asInt?, Option.some.injEq] at hp'
      omega
  · intro c e d
    rw [(C19_evaluate _ c e d).1]
    rintro ⟨_, _, hc, _⟩
    simp only [Atomic.nbasis] at hc
    omega

/-- Example: a model with one function changed to two s-type and one p-type function. -/
example : ∃ m m', Atomic.init (.arr (.one (fins [0, 1]))) .none (.int 1) (.int 0) true = .ok m ∧
    m.changeNumb (.int 2) (.int 1) = .ok m' ∧
    Atomic.init (.arr (.one (fins [0, 1]))) .none (.int 2) (.int 1) true = .ok m' := by
  obtain ⟨m, hm, _⟩ := (C18_radii_1d [0, 1] 0 1 0 (by norm_num) true).2
  obtain ⟨m', h1, h2⟩ := C106_rebuild _ _ _ _ _ m hm (.int 2) (.int 1) 2 1 (.int 2) (.int 1) (by norm_num)
  exact ⟨m, m', hm, h1, h2⟩

end

end BFit
