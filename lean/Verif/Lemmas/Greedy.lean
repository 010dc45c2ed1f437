import Verif.Model.Greedy
import Verif.Props.GreedyRedund

/-!
# Helper lemmas about the greedy algorithm
-/

namespace BFit

open Classical

namespace XR

theorem lt_trans' {a b c : XR} (h1 : a < b) (h2 : b < c) : a < c := by
  cases a <;> cases b <;> cases c <;> simp_all
  exact _root_.lt_trans h1 h2

theorem lt_of_le_of_lt' {a b c : XR} (h1 : a ≤ b) (h2 : b < c) : a < c := by
  cases a <;> cases b <;> cases c <;> simp_all
  exact lt_of_le_of_lt h1 h2

theorem le_trans' {a b c : XR} (h1 : a ≤ b) (h2 : b ≤ c) : a ≤ c := by
  cases a <;> cases b <;> cases c <;> simp_all
  exact _root_.le_trans h1 h2

theorem not_le_of_lt' {a b : XR} (h : a < b) : ¬ b ≤ a := by
  cases a <;> cases b <;> simp_all

theorem le_of_lt' {a b : XR} (h : a < b) : a ≤ b := by
  cases a <;> cases b <;> simp_all
  exact le_of_lt h

theorem le_refl_of_not_nan {a : XR} (h : ¬ a.IsNan) : a ≤ a := by
  cases a <;> simp_all

end XR

theorem Choice.inc_pos (c : Choice) : 1 ≤ c.inc := by cases c <;> decide

/-- `n` passes of the `while` loop lead from `s` to `s'`. -/
inductive Rounds (E : GEnv) (o : GOpts) (f0 : XR) (s : GState) : ℕ → GState → Prop
  | refl : Rounds E o f0 s 0 s
  | step {n : ℕ} {s' s'' : GState} : Rounds E o f0 s n s' → s'.continues o →
      E.step o f0 s' = .ok s'' → Rounds E o f0 s (n + 1) s''

theorem Rounds.head {E : GEnv} {o : GOpts} {f0 : XR} {s s1 s2 : GState} {n : ℕ}
    (hc : s.continues o) (hs : E.step o f0 s = .ok s1) (h : Rounds E o f0 s1 n s2) :
    Rounds E o f0 s (n + 1) s2 := by
  induction h with
  | refl => exact .step .refl hc hs
  | step _ h2 h3 ih => exact .step ih h2 h3

/-- The three ways a round can end. -/
inductive RoundEnd (E : GEnv) (f0 : XR) (s s' : GState) : Prop
  /-- A failed round. -/
  | failed (hS : s'.numS = s.numS) (hP : s'.numP = s.numP) (hmS : s'.modelS = s.numS)
      (hmP : s'.modelP = s.numP) (herr : s'.errArr = s.errArr) (hg : s'.gparams = s.gparams)
      (hf : s'.factor = s.factor * XR.fin 2) (hn : s'.numbFuncs = s.numbFuncs)
      (hp : s'.prev = s.prev) (hb : s'.best = s.best) (hi : s'.paramsIter = s.paramsIter)
      (hr : s'.redum = s.redum + 1)
  /-- A round that accepts new parameters `op` with objective `v`. -/
  | accepted (op : List XR) (v : XR) (err : Perf)
      (hcount : (s'.numS = s.numS + E.choice.inc ∧ s'.numP = s.numP) ∨
        (s'.numS = s.numS ∧ s'.numP = s.numP + E.choice.inc))
      (hmS : s'.modelS = s'.numS) (hmP : s'.modelP = s'.numP)
      (hobj : E.obj s'.numS s'.numP op = .ok v) (hgof : E.gof s'.numS s'.numP op = .ok err)
      (hle : v ≤ s.best) (hnf : ¬ roundFails s'.numS s'.numP op v s.best)
      (herr : s'.errArr = s.errArr ++ [err]) (hg : s'.gparams = op)
      (hf : s'.factor = f0) (hn : s'.numbFuncs = s.numbFuncs + E.choice.inc)
      (hp : s'.prev = s.best) (hb : s'.best = v) (hi : s'.paramsIter = s.paramsIter ++ [op])
      (hr : s'.redum = 0)
  /-- A round whose objective value compares with nothing (nan): counts grow, nothing else. -/
  | stuck (hcount : (s'.numS = s.numS + E.choice.inc ∧ s'.numP = s.numP) ∨
        (s'.numS = s.numS ∧ s'.numP = s.numP + E.choice.inc))
      (hmS : s'.modelS = s'.numS) (hmP : s'.modelP = s'.numP)
      (herr : s'.errArr = s.errArr) (hg : s'.gparams = s.gparams)
      (hf : s'.factor = s.factor) (hn : s'.numbFuncs = s.numbFuncs + E.choice.inc)
      (hp : s'.prev = s.prev) (hb : s'.best = s.best) (hi : s'.paramsIter = s.paramsIter)
      (hr : s'.redum = s.redum)

theorem finishRound_cases {E : GEnv} {f0 : XR} {s s' : GState} {bp : Option (List XR)} {isS : Bool}
    (h : E.finishRound f0 s bp isS = .ok s') : RoundEnd E f0 s s' ∧ s'.round = s.round + 1 := by
  unfold GEnv.finishRound at h
  cases bp with
  | none => exact absurd h (by simp [raise])
  | some bp =>
    simp only at h
    cases hop : E.optGlobal s.round (if isS then s.numS + E.choice.inc else s.numS)
        (if isS then s.numP else s.numP + E.choice.inc) bp with
    | error e => rw [hop] at h; exact absurd h (by simp)
    | ok op =>
      rw [hop] at h
      simp only at h
      cases hv : E.obj (if isS then s.numS + E.choice.inc else s.numS)
          (if isS then s.numP else s.numP + E.choice.inc) op with
      | error e => rw [hv] at h; exact absurd h (by simp)
      | ok v =>
        rw [hv] at h
        simp only at h
        by_cases hnf : roundFails (if isS then s.numS + E.choice.inc else s.numS)
            (if isS then s.numP else s.numP + E.choice.inc) op v s.best
        · rw [if_pos hnf] at h
          injection h with h
          subst h
          refine ⟨.failed ?_ ?_ ?_ ?_ rfl rfl rfl ?_ rfl rfl rfl rfl, rfl⟩ <;>
            cases isS <;> simp
        · rw [if_neg hnf] at h
          by_cases hle : v ≤ s.best
          · rw [if_pos hle] at h
            cases hg : E.gof (if isS then s.numS + E.choice.inc else s.numS)
                (if isS then s.numP else s.numP + E.choice.inc) op with
            | error e => rw [hg] at h; exact absurd h (by simp)
            | ok err =>
              rw [hg] at h
              injection h with h
              subst h
              refine ⟨.accepted op v err ?_ rfl rfl hv hg hle hnf rfl rfl rfl rfl rfl rfl rfl rfl, rfl⟩
              cases isS <;> simp
          · rw [if_neg hle] at h
            injection h with h
            subst h
            refine ⟨.stuck ?_ rfl rfl rfl rfl rfl rfl rfl rfl rfl rfl, rfl⟩
            cases isS <;> simp

theorem step_cases {E : GEnv} {o : GOpts} {f0 : XR} {s s' : GState} (h : E.step o f0 s = .ok s') :
    RoundEnd E f0 s s' ∧ s'.round = s.round + 1 := by
  unfold GEnv.step at h
  cases ht : E.totalChoices o s with
  | error e => rw [ht] at h; exact absurd h (by simp)
  | ok total =>
    rw [ht] at h
    simp only at h
    cases hf : E.findBest s.round s.numS s.numP total (E.choicesS s).length (E.choicesP s).length with
    | error e => rw [hf] at h; exact absurd h (by simp)
    | ok r =>
      rw [hf] at h
      exact finishRound_cases h

/-- What the start of a run guarantees. -/
theorem start_ok {E : GEnv} {ob : GObj} {f : XR} {s : GState} (h : E.start ob f = .ok s) :
    ∃ g err v, E.oneFun ob.modelS ob.modelP = .ok g ∧ E.gof ob.modelS ob.modelP g = .ok err ∧
      E.obj ob.modelS ob.modelP g = .ok v ∧
      s = { numS := ob.numS, numP := ob.numP, modelS := ob.modelS, modelP := ob.modelP
            errArr := ob.errArr ++ [err], gparams := g, factor := f, numbFuncs := 1
            prev := XR.pinf, best := v, paramsIter := [g], redum := 0, round := 0 } := by
  unfold GEnv.start at h
  cases hg : E.oneFun ob.modelS ob.modelP with
  | error e => rw [hg] at h; exact absurd h (by simp)
  | ok g =>
    rw [hg] at h; simp only at h
    cases he : E.gof ob.modelS ob.modelP g with
    | error e => rw [he] at h; exact absurd h (by simp)
    | ok err =>
      rw [he] at h; simp only at h
      cases hv : E.obj ob.modelS ob.modelP g with
      | error e => rw [hv] at h; exact absurd h (by simp)
      | ok v =>
        rw [hv] at h
        injection h with h
        exact ⟨g, err, v, rfl, he, hv, h.symm⟩

/-- The potential that grows in every round. -/
theorem step_potential {E : GEnv} {o : GOpts} {f0 : XR} {s s' : GState} (hc : s.continues o)
    (h : E.step o f0 s = .ok s') :
    5 * s.numbFuncs + s.redum + 1 ≤ 5 * s'.numbFuncs + s'.redum := by
  have hi := E.choice.inc_pos
  have hr := hc.2.1
  rcases (step_cases h).1 with ⟨_, _, _, _, _, _, _, hn, _, _, _, hr'⟩ |
    ⟨_, _, _, _, _, _, _, _, _, _, _, _, _, hn, _, _, _, hr'⟩ | ⟨_, _, _, _, _, _, hn, _, _, _, hr'⟩
  · rw [hn, hr']; push_cast; omega
  · rw [hn, hr']; push_cast; omega
  · rw [hn, hr']; omega

theorem rounds_potential {E : GEnv} {o : GOpts} {f0 : XR} {s s' : GState} {n : ℕ}
    (h : Rounds E o f0 s n s') : 5 * s.numbFuncs + s.redum + n ≤ 5 * s'.numbFuncs + s'.redum := by
  induction h with
  | refl => simp
  | step _ h2 h3 ih => have := step_potential h2 h3; push_cast; omega

/-- The bound on the number of rounds from a state. -/
theorem rounds_bound {E : GEnv} {o : GOpts} {f0 : XR} {s s' : GState} {n : ℕ}
    (h0 : s.numbFuncs = 1) (hr : s.redum = 0) (h : Rounds E o f0 s n s') :
    n ≤ 5 * (o.maxFuncs - 1).toNat := by
  cases h with
  | refl => omega
  | step h1 h2 h3 =>
    have := rounds_potential h1
    have a1 := h2.1
    have a2 := h2.2.1
    rw [h0, hr] at this
    push_cast at this
    omega

theorem loop_ok_iff {E : GEnv} {o : GOpts} {f0 : XR} (m : ℕ) (s s' : GState)
    (hm : 5 * o.maxFuncs ≤ 5 * s.numbFuncs + s.redum + m) :
    E.loop o f0 m s = .ok s' ↔ ∃ n, Rounds E o f0 s n s' ∧ ¬ s'.continues o := by
  induction m generalizing s with
  | zero =>
    have hnc : ¬ s.continues o := by
      rintro ⟨h1, h2, _⟩; push_cast at hm; omega
    constructor
    · intro h
      injection h with h
      subst h
      exact ⟨0, .refl, hnc⟩
    · rintro ⟨n, h1, h2⟩
      cases n with
      | zero => cases h1; rfl
      | succ n =>
        have := rounds_potential h1
        exfalso
        obtain ⟨t, ht, hc⟩ : ∃ t, Rounds E o f0 s n t ∧ t.continues o := by
          cases h1 with | step h1 h2 _ => exact ⟨_, h1, h2⟩
        have := rounds_potential ht
        obtain ⟨a1, a2, _⟩ := hc
        push_cast at hm; omega
  | succ m ih =>
    unfold GEnv.loop
    split
    · next hc =>
      cases hs : E.step o f0 s with
      | error e =>
        simp only
        constructor
        · intro h; exact absurd h (by simp)
        · rintro ⟨n, h1, h2⟩
          exfalso
          have : ∀ k t, Rounds E o f0 s k t → k = 0 ∧ t = s := by
            intro k t h
            induction h with
            | refl => exact ⟨rfl, rfl⟩
            | step _ _ h3 ih => rw [ih.2, hs] at h3; exact absurd h3 (by simp)
          obtain ⟨_, rfl⟩ := this n s' h1
          exact h2 hc
      | ok t =>
        simp only
        rw [ih t (by have := step_potential hc hs; push_cast at hm; omega)]
        constructor
        · rintro ⟨n, h1, h2⟩; exact ⟨n + 1, .head hc hs h1, h2⟩
        · rintro ⟨n, h1, h2⟩
          have : ∀ k u, Rounds E o f0 s k u → (k = 0 ∧ u = s) ∨ ∃ j, Rounds E o f0 t j u := by
            intro k u h
            induction h with
            | refl => exact .inl ⟨rfl, rfl⟩
            | step _ g2 g3 ih =>
              rcases ih with ⟨_, rfl⟩ | ⟨j, hj⟩
              · rw [hs] at g3; injection g3 with g3; subst g3; exact .inr ⟨0, .refl⟩
              · exact .inr ⟨j + 1, .step hj g2 g3⟩
          rcases this n s' h1 with ⟨_, rfl⟩ | ⟨j, hj⟩
          · exact absurd hc h2
          · exact ⟨j, hj, h2⟩
    · next hc =>
      constructor
      · intro h; injection h with h; subst h; exact ⟨0, .refl, hc⟩
      · rintro ⟨n, h1, h2⟩
        have : ∀ k u, Rounds E o f0 s k u → u = s := by
          intro k u h
          induction h with
          | refl => rfl
          | step _ g2 _ ih => rw [ih] at g2; exact absurd g2 hc
        rw [this n s' h1]

theorem loop_error_iff {E : GEnv} {o : GOpts} {f0 : XR} (m : ℕ) (s : GState) (e : PyErr)
    (hm : 5 * o.maxFuncs ≤ 5 * s.numbFuncs + s.redum + m) :
    E.loop o f0 m s = .error e ↔
      ∃ n s', Rounds E o f0 s n s' ∧ s'.continues o ∧ E.step o f0 s' = .error e := by
  induction m generalizing s with
  | zero =>
    have hnc : ∀ n t, Rounds E o f0 s n t → ¬ t.continues o := by
      rintro n t h ⟨h1, h2, _⟩
      have := rounds_potential h
      push_cast at hm; omega
    constructor
    · intro h; exact absurd h (by simp [GEnv.loop])
    · rintro ⟨n, s', h1, h2, _⟩; exact absurd h2 (hnc n s' h1)
  | succ m ih =>
    unfold GEnv.loop
    split
    · next hc =>
      cases hs : E.step o f0 s with
      | error e' =>
        simp only
        constructor
        · intro h; injection h with h; subst h; exact ⟨0, s, .refl, hc, hs⟩
        · rintro ⟨n, s', h1, h2, h3⟩
          have : ∀ k t, Rounds E o f0 s k t → t = s := by
            intro k t h
            induction h with
            | refl => rfl
            | step _ _ h3 ih => rw [ih, hs] at h3; exact absurd h3 (by simp)
          rw [this n s' h1, hs] at h3
          exact h3
      | ok t =>
        simp only
        rw [ih t (by have := step_potential hc hs; push_cast at hm; omega)]
        constructor
        · rintro ⟨n, s', h1, h2⟩; exact ⟨n + 1, s', .head hc hs h1, h2⟩
        · rintro ⟨n, s', h1, h2, h3⟩
          have : ∀ k u, Rounds E o f0 s k u → (k = 0 ∧ u = s) ∨ ∃ j, Rounds E o f0 t j u := by
            intro k u h
            induction h with
            | refl => exact .inl ⟨rfl, rfl⟩
            | step _ g2 g3 ih =>
              rcases ih with ⟨_, rfl⟩ | ⟨j, hj⟩
              · rw [hs] at g3; injection g3 with g3; subst g3; exact .inr ⟨0, .refl⟩
              · exact .inr ⟨j + 1, .step hj g2 g3⟩
          rcases this n s' h1 with ⟨_, rfl⟩ | ⟨j, hj⟩
          · rw [hs] at h3; exact absurd h3 (by simp)
          · exact ⟨j, s', hj, h2, h3⟩
    · next hc =>
      constructor
      · intro h; exact absurd h (by simp)
      · rintro ⟨n, s', h1, h2, _⟩
        have : ∀ k u, Rounds E o f0 s k u → u = s := by
          intro k u h
          induction h with
          | refl => rfl
          | step _ g2 _ ih => rw [ih] at g2; exact absurd g2 hc
        rw [this n s' h1] at h2
        exact absurd h2 hc

/-- A successful run: the start, the rounds, the end. -/
theorem run_ok {E : GEnv} {ob : GObj} {factor : PyObj} {o : GOpts} {r : GResult} {ob' : GObj}
    (h : E.run ob factor o = .ok (r, ob')) :
    ∃ f s0 n s, factor = .float f ∧ ¬ f ≤ XR.fin 0 ∧ E.start ob f = .ok s0 ∧
      Rounds E o f s0 n s ∧ ¬ s.continues o ∧ E.finish o s = .ok (r, ob') := by
  unfold GEnv.run at h
  cases factor with
  | float f =>
    simp only at h
    split at h
    · exact absurd h (by simp [raise])
    · next hf =>
      cases hs : E.start ob f with
      | error e => rw [hs] at h; exact absurd h (by simp)
      | ok s0 =>
        rw [hs] at h
        simp only at h
        cases hl : E.loop o f (5 * (o.maxFuncs - 1).toNat) s0 with
        | error e => rw [hl] at h; exact absurd h (by simp)
        | ok s =>
          rw [hl] at h
          obtain ⟨g, err, v, _, _, _, hs0⟩ := start_ok hs
          have hb : 5 * o.maxFuncs ≤ 5 * s0.numbFuncs + s0.redum + (5 * (o.maxFuncs - 1).toNat : ℕ) := by
            rw [hs0]; push_cast; omega
          obtain ⟨n, h1, h2⟩ := (loop_ok_iff _ _ _ hb).mp hl
          exact ⟨f, s0, n, s, rfl, hf, hs, h1, h2, h⟩
  | _ => exact absurd h (by simp [raise])

/-- What the end of a run returns. -/
theorem finish_ok {E : GEnv} {o : GOpts} {s : GState} {r : GResult} {ob' : GObj}
    (h : E.finish o s = .ok (r, ob')) :
    ∃ info v, (if s.redum = 5 then (.ok ExitInfo.notBestChoice : Py ExitInfo)
        else finalExitInfo s.numbFuncs o.maxFuncs s.best s.prev o.dThr) = .ok info ∧
      E.obj s.modelS s.modelP (s.paramsIter.getLastD []) = .ok v ∧ ob' = s.toGObj ∧
      r = ⟨(splitParams s.numS s.numP (s.paramsIter.getLastD [])).sCoeffs ++
            (splitParams s.numS s.numP (s.paramsIter.getLastD [])).pCoeffs,
          (splitParams s.numS s.numP (s.paramsIter.getLastD [])).sExps ++
            (splitParams s.numS s.numP (s.paramsIter.getLastD [])).pExps,
          s.numS, s.numP, v, decide ¬ (s.numbFuncs = o.maxFuncs - 1 ∨ s.redum = 5), s.paramsIter,
          s.errArr, info⟩ := by
  unfold GEnv.finish at h
  simp only at h
  cases hi : (if s.redum = 5 then (.ok ExitInfo.notBestChoice : Py ExitInfo)
        else finalExitInfo s.numbFuncs o.maxFuncs s.best s.prev o.dThr) with
  | error e => rw [hi] at h; exact absurd h (by simp)
  | ok info =>
    rw [hi] at h
    simp only at h
    cases hv : E.obj s.modelS s.modelP (s.paramsIter.getLastD []) with
    | error e => rw [hv] at h; exact absurd h (by simp)
    | ok v =>
      rw [hv] at h
      injection h with h
      injection h with h1 h2
      exact ⟨info, v, rfl, rfl, h2.symm, h1.symm⟩

end BFit
