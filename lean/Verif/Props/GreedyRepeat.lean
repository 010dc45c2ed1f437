import Verif.Props.GreedyExit

/-!
# C57, C58: extra choices have no effect, and a greedy object cannot be run twice
-/

namespace BFit

open Classical

/-! ### C57 -/

theorem findBestLoop_append (E : GEnv) (t ns np numS : ℕ) (params extra : List (List XR))
    (idx : List ℕ) (acc : XR × Option (List XR) × Bool) (h : ∀ i ∈ idx, i < params.length) :
    E.findBestLoop t ns np (params ++ extra) numS idx acc =
      E.findBestLoop t ns np params numS idx acc := by
  induction idx generalizing acc with
  | nil => rfl
  | cons i l ih =>
    have hi := h i (by simp)
    unfold GEnv.findBestLoop
    rw [List.getElem?_append_left hi]
    cases params[i]? with
    | none => rfl
    | some p =>
      simp only
      congr 1
      funext lp
      congr 1
      funext v
      exact ih _ (fun j hj => h j (List.mem_cons_of_mem _ hj))

theorem step_extra (E : GEnv) (thr : XR) (mx : ℤ) (f : List XR → Py (List XR))
    (hf : ∀ p, ∃ x, f p = .ok x) (f0 : XR) (s : GState) :
    E.step ⟨thr, mx, some f⟩ f0 s = E.step ⟨thr, mx, none⟩ f0 s := by
  obtain ⟨x, hx⟩ := hf s.gparams
  unfold GEnv.step GEnv.totalChoices
  simp only
  rw [hx]
  simp only
  have : E.findBest s.round s.numS s.numP (E.choicesS s ++ E.choicesP s ++ [x]) (E.choicesS s).length
      (E.choicesP s).length = E.findBest s.round s.numS s.numP (E.choicesS s ++ E.choicesP s)
      (E.choicesS s).length (E.choicesP s).length := by
    unfold GEnv.findBest
    apply findBestLoop_append
    intro i hi
    rw [List.mem_range] at hi
    simpa using hi
  rw [this]

/-- **C57 is false of the code**: whatever guess `add_extra_choices` returns, the run (result,
exceptions and changes of the object) is the same as without it. -/
theorem C57_extra_choices_ignored (E : GEnv) (ob : GObj) (factor : PyObj) (thr : XR) (mx : ℤ)
    (f : List XR → Py (List XR)) (hf : ∀ p, ∃ x, f p = .ok x) :
    E.run ob factor ⟨thr, mx, some f⟩ = E.run ob factor ⟨thr, mx, none⟩ := by
  have hloop : ∀ f0 n s, E.loop ⟨thr, mx, some f⟩ f0 n s = E.loop ⟨thr, mx, none⟩ f0 n s := by
    intro f0 n
    induction n with
    | zero => intro s; rfl
    | succ n ih =>
      intro s
      unfold GEnv.loop
      rw [step_extra E thr mx f hf f0 s]
      simp only [ih]
      rfl
  unfold GEnv.run
  cases factor <;> simp only
  simp only [hloop]
  rfl

/-- **C57**, what is left: `add_extra_choices` is called in every round with the current parameters, so
an exception it raises ends the run. -/
theorem C57_called_partial (E : GEnv) (fac : XR) (hfac : ¬ fac ≤ XR.fin 0) (thr : XR) (mx : ℤ)
    (f : List XR → Py (List XR)) (s0 : GState) (h0 : E.start GObj.fresh fac = .ok s0)
    (hc : s0.continues ⟨thr, mx, some f⟩) (e : PyErr) (he : f s0.gparams = .error e) :
    E.run GObj.fresh (.float fac) ⟨thr, mx, some f⟩ = .error e := by
  have hstep : E.step ⟨thr, mx, some f⟩ fac s0 = .error e := by
    unfold GEnv.step GEnv.totalChoices
    simp only
    rw [he]
  unfold GEnv.run
  simp only
  rw [if_neg hfac, h0]
  simp only
  rw [((C52_bound_irrelevant E GObj.fresh ⟨thr, mx, some f⟩ fac s0 h0).2 e).mpr
    ⟨0, s0, .refl, hc, hstep⟩]

/-- The hypotheses of `C57_extra_choices_ignored` and `C57_called_partial` are met. -/
example : (∀ p : List XR, ∃ x, (fun p : List XR => (.ok (p ++ p) : Py (List XR))) p = .ok x) ∧
    (toyStart (fun n => XR.fin n) (XR.fin 2)).continues
      ⟨XR.fin 1e-8, 2, some (fun _ => raise .valueError)⟩ := by
  refine ⟨fun p => ⟨_, rfl⟩, ?_, ?_, ?_⟩
  · show (1 : ℤ) ≤ 2 - 1; norm_num
  · show 0 < 5; norm_num
  · show XR.fin 1e-8 ≤ (XR.fin ((1 : ℕ) : ℝ) - XR.pinf).abs
    trivial

/-! ### C58 -/

/-- The evaluation of the errors and the one-function start refuse other numbers of functions; true for
the two subclasses, see `lsEnv_oneFunSized` and `klEnv_oneFunSized`. -/
structure GEnv.StartSized (E : GEnv) : Prop where
  gof : ∀ ns np p, p.length ≠ 2 * (ns + np) → E.gof ns np p = .error .valueError
  oneFun : ∀ p, E.oneFun 1 0 = .ok p → p.length = 2 ∧ ∀ ns np, ns + np ≠ 1 →
    E.oneFun ns np = .error .valueError ∨ E.oneFun ns np = .ok p

theorem solveOneWeight_length (x d w : List XR) : (solveOneWeight x d w).length = 2 := rfl

theorem pyMinKey_mem {α : Type} (m : XR × α) (l : List (XR × α)) : pyMinKey m l ∈ m :: l := by
  induction l generalizing m with
  | nil => exact List.mem_singleton.mpr rfl
  | cons x xs ih =>
    unfold pyMinKey
    have := ih (if x.1 < m.1 then x else m)
    rcases List.mem_cons.mp this with h | h
    · rw [h]; split
      · simp
      · simp
    · exact List.mem_cons_of_mem _ (List.mem_cons_of_mem _ h)

theorem lsEnv_startSized (S : SFit) (m : Atomic) (hm : S.model = .atom m) (points : List XR)
    (c : Choice) (o : LSOpts) (nnls : ℕ → ℕ → List (List XR) → List XR → Py (List XR))
    (mini : ℕ → ℕ → SProblem → Py SRes) (rnd : ℕ → ℕ → ℕ → ℝ) :
    (lsEnv S points c o nnls mini rnd).StartSized := by
  have hn : ∀ ns np, (S.model.withCounts ns np).nbasis = ((ns + np : ℕ) : ℤ) := by
    intro ns np; rw [hm]; exact withCounts_nbasis m ns np
  refine ⟨fun ns np p hp => goodness_wrong_size _ (ns + np) (hn ns np) p hp, fun p hp => ⟨?_, ?_⟩⟩
  · have hp' : lsOneFun points S.density (evalObj (S.withCounts 1 0).toFit S.measure) = .ok p := hp
    unfold lsOneFun at hp'
    simp only at hp'
    split at hp'
    · exact absurd hp' (by simp)
    split at hp'
    · exact absurd hp' (by simp)
    split at hp'
    · exact absurd hp' (by simp)
    injection hp' with hp'
    rw [← hp']
    have key : ∀ (m : XR × List XR) l, (∀ x ∈ m :: l, x.2.length = 2) →
        (pyMinKey m l).2.length = 2 := fun m l hx => hx _ (pyMinKey_mem m l)
    apply key
    simp [solveOneWeight_length]
  · intro ns np hne
    left
    show lsOneFun points S.density (evalObj (S.withCounts ns np).toFit S.measure) = _
    unfold lsOneFun
    simp only
    rw [evalObj_wrong_size _ _ (ns + np) (hn ns np) _ (by rw [solveOneWeight_length]; omega)]

theorem klEnv_startSized (F : FPI) (m : Atomic) (hm : F.model = .atom m) (points : List XR)
    (c : Choice) (ol og : FPIOpts) (rnd : ℕ → ℕ → ℕ → ℝ) :
    (klEnv F points c ol og rnd).StartSized := by
  have hn : ∀ ns np, (F.model.withCounts ns np).nbasis = ((ns + np : ℕ) : ℤ) := by
    intro ns np; rw [hm]; exact withCounts_nbasis m ns np
  refine ⟨fun ns np p hp => goodness_wrong_size _ (ns + np) (hn ns np) p hp, fun p hp => ⟨?_, ?_⟩⟩
  · have hp' : klOneFun F.grid points F.density F.integralDens = .ok p := hp
    unfold klOneFun at hp'
    split at hp'
    · exact absurd hp' (by simp)
    split at hp'
    · exact absurd hp' (by simp)
    injection hp' with hp'
    rw [← hp']; rfl
  · intro ns np _
    exact .inr hp

/-- **C58 is false of the code**: after any run that accepted a further function, every further run on
the same object raises ValueError. -/
theorem C58_second_run_raises (E : GEnv) (hE : E.SizeChecked) (hS : E.StartSized) (factor : PyObj)
    (o : GOpts) (r : GResult) (ob' : GObj) (h : E.run GObj.fresh factor o = .ok (r, ob'))
    (hacc : 1 < r.parametersIteration.length) (f2 : XR) (hf2 : ¬ f2 ≤ XR.fin 0) (o2 : GOpts) :
    E.run ob' (.float f2) o2 = .error .valueError := by
  obtain ⟨hist, last, s, H, hf, hc, e1, e2, hlen, hlast, hfun, f', s0, n, hs, hr⟩ :=
    run_history hE rfl rfl h
  obtain ⟨info, v, hinfo, hv, hob, hres⟩ := finish_ok hf
  have hI : r.parametersIteration = s.paramsIter := by rw [hres]
  have hcnt : s.modelS + s.modelP ≠ 1 := by
    rw [H.modelS, H.modelP, ← e1, ← e2]
    have hg := H.grows
    obtain ⟨a, h1, h2, h3, _⟩ := H.first
    rw [hI, ← H.params, List.length_map] at hacc
    have hL := H.isLast
    cases hist with
    | nil => simp at hacc
    | cons b l =>
      simp only [List.head?_cons, Option.some.injEq] at h1
      subst h1
      cases l with
      | nil => simp at hacc
      | cons b' l =>
        rw [List.getLast?_cons_cons] at hL
        have := (List.pairwise_cons.mp hg).1 last (List.mem_of_getLast? hL)
        simp only [GObj.fresh] at h2 h3
        omega
  have hone : ∃ p, E.oneFun 1 0 = .ok p := by
    obtain ⟨g, _, _, h1, _⟩ := start_ok hs
    exact ⟨g, h1⟩
  obtain ⟨p, hp⟩ := hone
  obtain ⟨hpl, hp2⟩ := hS.oneFun p hp
  have hst : E.start ob' f2 = .error .valueError := by
    rw [hob]
    unfold GEnv.start
    rcases hp2 _ _ hcnt with h | h
    · rw [h]
    · rw [h]
      simp only
      rw [hS.gof _ _ _ (by rw [hpl]; omega)]
  unfold GEnv.run
  simp only
  rw [if_neg hf2, hst]

/-- **C58** for `GreedyLeastSquares`. -/
theorem C58_least_squares (S : SFit) (m : Atomic) (hm : S.model = .atom m) (points : List XR)
    (c : Choice) (o : LSOpts) (nnls : ℕ → ℕ → List (List XR) → List XR → Py (List XR))
    (mini : ℕ → ℕ → SProblem → Py SRes) (rnd : ℕ → ℕ → ℕ → ℝ) (factor : PyObj) (g : GOpts)
    (r : GResult) (ob' : GObj)
    (h : (lsEnv S points c o nnls mini rnd).run GObj.fresh factor g = .ok (r, ob'))
    (hacc : 1 < r.parametersIteration.length) (f2 : XR) (hf2 : ¬ f2 ≤ XR.fin 0) (g2 : GOpts) :
    (lsEnv S points c o nnls mini rnd).run ob' (.float f2) g2 = .error .valueError :=
  C58_second_run_raises _ (lsEnv_sizeChecked S m hm points c o nnls mini rnd)
    (lsEnv_startSized S m hm points c o nnls mini rnd) factor g r ob' h hacc f2 hf2 g2

/-- **C58** for `GreedyKLFPI`. -/
theorem C58_kullback_leibler (F : FPI) (m : Atomic) (hm : F.model = .atom m) (points : List XR)
    (c : Choice) (ol og : FPIOpts) (rnd : ℕ → ℕ → ℕ → ℝ) (factor : PyObj) (g : GOpts)
    (r : GResult) (ob' : GObj) (h : (klEnv F points c ol og rnd).run GObj.fresh factor g = .ok (r, ob'))
    (hacc : 1 < r.parametersIteration.length) (f2 : XR) (hf2 : ¬ f2 ≤ XR.fin 0) (g2 : GOpts) :
    (klEnv F points c ol og rnd).run ob' (.float f2) g2 = .error .valueError :=
  C58_second_run_raises _ (klEnv_sizeChecked F m hm points c ol og rnd)
    (klEnv_startSized F m hm points c ol og rnd) factor g r ob' h hacc f2 hf2 g2

/-- The state with further stored errors in front. -/
def GState.addErr (L : List Perf) (s : GState) : GState := { s with errArr := L ++ s.errArr }

/-- A result with further stored errors in front. -/
def GResult.addErr (L : List Perf) (r : GResult) : GResult :=
  { r with performance := L ++ r.performance }

theorem finishRound_addErr (E : GEnv) (L : List Perf) (f0 : XR) (s : GState) (bp : Option (List XR))
    (isS : Bool) : E.finishRound f0 (s.addErr L) bp isS =
      (E.finishRound f0 s bp isS).map (GState.addErr L) := by
  cases bp with
  | none => rfl
  | some bp =>
    unfold GEnv.finishRound
    cases isS <;> simp only [GState.addErr, if_true, Bool.false_eq_true, if_false]
    all_goals
      generalize E.optGlobal s.round _ _ bp = x1
      cases x1 with
      | error e => rfl
      | ok op =>
        simp only
        generalize E.obj _ _ op = x2
        cases x2 with
        | error e => rfl
        | ok v =>
          simp only
          generalize hR : roundFails _ _ op v s.best = R
          by_cases h1 : R
          · simp only [if_pos h1]; rfl
          · simp only [if_neg h1]
            by_cases h2 : v ≤ s.best
            · rw [if_pos h2, if_pos h2]
              generalize E.gof _ _ op = x3
              cases x3 with
              | error e => rfl
              | ok err => simp [Except.map, GState.addErr]
            · rw [if_neg h2, if_neg h2]; rfl

theorem step_addErr (E : GEnv) (L : List Perf) (o : GOpts) (f0 : XR) (s : GState) :
    E.step o f0 (s.addErr L) = (E.step o f0 s).map (GState.addErr L) := by
  unfold GEnv.step
  have h1 : E.totalChoices o (s.addErr L) = E.totalChoices o s := rfl
  have h2 : E.choicesS (s.addErr L) = E.choicesS s := rfl
  have h3 : E.choicesP (s.addErr L) = E.choicesP s := rfl
  rw [h1, h2, h3]
  cases E.totalChoices o s with
  | error e => rfl
  | ok t =>
    simp only [finishRound_addErr]
    simp only [GState.addErr]
    cases E.findBest s.round s.numS s.numP t (E.choicesS s).length (E.choicesP s).length with
    | error e => rfl
    | ok x => rfl

theorem loop_addErr (E : GEnv) (L : List Perf) (o : GOpts) (f0 : XR) (n : ℕ) (s : GState) :
    E.loop o f0 n (s.addErr L) = (E.loop o f0 n s).map (GState.addErr L) := by
  induction n generalizing s with
  | zero => rfl
  | succ n ih =>
    unfold GEnv.loop
    by_cases hc : s.continues o
    · rw [if_pos hc, if_pos (show (s.addErr L).continues o from hc), step_addErr]
      cases E.step o f0 s with
      | error e => rfl
      | ok s' => exact ih s'
    · rw [if_neg hc, if_neg (show ¬ (s.addErr L).continues o from hc)]; rfl

/-- **C58**, the case that does work: if the first run accepted no further function, the second run
behaves exactly as a run on a new object, except that its `performance` also contains the errors stored
by the first run. -/
theorem C58_rerun_partial (E : GEnv) (hE : E.SizeChecked) (factor : PyObj) (o : GOpts) (r : GResult)
    (ob' : GObj) (h : E.run GObj.fresh factor o = .ok (r, ob'))
    (hacc : r.parametersIteration.length = 1) (factor2 : PyObj) (o2 : GOpts) :
    E.run ob' factor2 o2 = (E.run GObj.fresh factor2 o2).map
      (fun x => (x.1.addErr r.performance, { x.2 with errArr := r.performance ++ x.2.errArr })) := by
  obtain ⟨hist, last, s, H, hf, hc, e1, e2, hlen, hlast, hfun, f', s0, n, hs, hr⟩ :=
    run_history hE rfl rfl h
  obtain ⟨info, v, hinfo, hv, hob, hres⟩ := finish_ok hf
  have hI : r.parametersIteration = s.paramsIter := by rw [hres]
  have hPf : r.performance = s.errArr := by rw [hres]
  have hob2 : ob' = ⟨1, 0, 1, 0, r.performance⟩ := by
    obtain ⟨a, h1, h2, h3, _⟩ := H.first
    rw [hI, ← H.params, List.length_map] at hacc
    have hL := H.isLast
    match hist, hacc with
    | [b], _ =>
      simp only [List.head?_cons, Option.some.injEq] at h1
      simp only [List.getLast?_singleton, Option.some.injEq] at hL
      subst h1; subst hL
      obtain ⟨_, _, _, _, _, _, q1, q2, q3, q4, q5⟩ := C54_consistent E hE factor o r ob' h
      have hS : r.numS = s.numS := by rw [hres]
      have hP : r.numP = s.numP := by rw [hres]
      simp only [GObj.fresh] at h2 h3
      rw [hS, ← e1, h2] at q1 q3
      rw [hP, ← e2, h3] at q2 q4
      cases ob'
      simp only at q1 q2 q3 q4 q5
      rw [q1, q2, q3, q4, q5]
  subst hob2
  set L := r.performance
  have hstart : ∀ f, E.start ⟨1, 0, 1, 0, L⟩ f = (E.start GObj.fresh f).map (GState.addErr L) := by
    intro f
    unfold GEnv.start
    simp only [GObj.fresh]
    split
    · rfl
    · split
      · rfl
      · split
        · rfl
        · simp [Except.map, GState.addErr]
  have hfinish : ∀ s, E.finish o2 (GState.addErr L s) = (E.finish o2 s).map
      (fun x => (x.1.addErr L, { x.2 with errArr := L ++ x.2.errArr })) := by
    intro s
    unfold GEnv.finish
    by_cases h5 : s.redum = 5
    · rw [if_pos (show (GState.addErr L s).redum = 5 from h5), if_pos h5]
      simp only [GState.addErr]
      generalize E.obj s.modelS s.modelP (s.paramsIter.getLastD []) = x2
      cases x2 with
      | error e => rfl
      | ok v => rfl
    · rw [if_neg (show ¬ (GState.addErr L s).redum = 5 from h5), if_neg h5]
      simp only [GState.addErr]
      generalize finalExitInfo s.numbFuncs o2.maxFuncs s.best s.prev o2.dThr = x1
      cases x1 with
      | error e => rfl
      | ok info =>
        simp only
        generalize E.obj s.modelS s.modelP (s.paramsIter.getLastD []) = x2
        cases x2 with
        | error e => rfl
        | ok v => rfl
  unfold GEnv.run
  cases factor2 with
  | float f =>
    simp only
    by_cases hf2 : f ≤ XR.fin 0
    · rw [if_pos hf2, if_pos hf2]; rfl
    · rw [if_neg hf2, if_neg hf2, hstart]
      cases E.start GObj.fresh f with
      | error e => rfl
      | ok s2 =>
        show (match E.loop o2 f (5 * (o2.maxFuncs - 1).toNat) (s2.addErr L) with
          | .error e => _ | .ok s' => _) = _
        rw [loop_addErr]
        simp only
        cases E.loop o2 f (5 * (o2.maxFuncs - 1).toNat) s2 with
        | error e => rfl
        | ok s3 => exact hfinish s3
  | _ => rfl

/-- The toy interface is refused by a second run. -/
theorem toyEnv_startSized (c : Choice) (val : ℕ → XR) : (toyEnv c val).StartSized :=
  ⟨fun _ _ _ hp => if_neg hp, fun p hp => ⟨by
    have : (Except.ok (toyParams 1 0) : Py (List XR)) = .ok p := hp
    injection this with this
    rw [← this]; rfl, fun _ _ _ => .inr hp⟩⟩

/-- A concrete repeated run that raises, and one that works. -/
example : (∃ (E : GEnv) (o : GOpts) (r : GResult) (ob' : GObj), E.SizeChecked ∧ E.StartSized ∧
      E.run GObj.fresh (.float (XR.fin 2)) o = .ok (r, ob') ∧ 1 < r.parametersIteration.length ∧
      E.run ob' (.float (XR.fin 2)) o = .error .valueError) ∧
    ∃ (E : GEnv) (o : GOpts) (r : GResult) (ob' : GObj), E.SizeChecked ∧
      E.run GObj.fresh (.float (XR.fin 2)) o = .ok (r, ob') ∧ r.parametersIteration.length = 1 := by
  constructor
  · have h := toy_one_round .pickOne 1 (1 / 2) 1e-8 2 (by norm_num) (by norm_num) (by norm_num)
      (.inl (by decide)) (.inl (by decide))
    exact ⟨_, _, _, _, toyEnv_sizeChecked .pickOne _, toyEnv_startSized _ _, h, by simp,
      C58_second_run_raises _ (toyEnv_sizeChecked _ _) (toyEnv_startSized _ _) _ _ _ _ h (by simp)
        (XR.fin 2) (by norm_num) _⟩
  · exact ⟨_, _, _, _, toyEnv_sizeChecked .pickOne _,
      toy_five_failures .pickOne 1 2 1e-8 30 (by norm_num) (by norm_num) (by norm_num), rfl⟩

end BFit
