import Verif.Lemmas.Greedy

/-!
# C51 – C55, C73: the greedy loop
-/

namespace BFit

open Classical

/-! ### C51: the best guess -/

theorem findBestLoop_spec (E : GEnv) (t ns np numS : ℕ) (params : List (List XR))
    (lp : ℕ → List XR) (v : ℕ → XR) (m a : ℕ) (acc : XR × Option (List XR) × Bool)
    (hlen : a + m ≤ params.length)
    (hopt : ∀ i, a ≤ i → i < a + m →
      E.optLocal t i (if i < numS then ns + E.choice.inc else ns)
        (if i < numS then np else np + E.choice.inc) (params.getD i []) = .ok (lp i))
    (hobj : ∀ i, a ≤ i → i < a + m →
      E.obj (if i < numS then ns + E.choice.inc else ns)
        (if i < numS then np else np + E.choice.inc) (lp i) = .ok (v i)) :
    (∃ k, a ≤ k ∧ k < a + m ∧ v k < acc.1 ∧ (∀ i, a ≤ i → i < a + m → ¬ v i < v k) ∧
      (∀ i, a ≤ i → i < k → ¬ v i ≤ v k) ∧
      E.findBestLoop t ns np params numS (List.range' a m) acc =
        .ok (v k, some (lp k), decide (k < numS))) ∨
    ((∀ i, a ≤ i → i < a + m → ¬ v i < acc.1) ∧
      E.findBestLoop t ns np params numS (List.range' a m) acc = .ok acc) := by
  induction m generalizing a acc with
  | zero => exact .inr ⟨fun i h1 h2 => by omega, rfl⟩
  | succ m ih =>
    have hget : params[a]? = some (params.getD a []) := by
      rw [List.getD_eq_getElem?_getD, List.getElem?_eq_getElem (by omega)]; rfl
    have hstep : E.findBestLoop t ns np params numS (List.range' a (m + 1)) acc =
        E.findBestLoop t ns np params numS (List.range' (a + 1) m)
          (if v a < acc.1 then (v a, some (lp a), decide (a < numS)) else acc) := by
      rw [List.range'_succ]
      conv_lhs => unfold GEnv.findBestLoop
      rw [hget]
      simp only
      rw [hopt a le_rfl (by omega)]
      simp only
      rw [hobj a le_rfl (by omega)]
    rw [hstep]
    have IH := ih (a + 1) (if v a < acc.1 then (v a, some (lp a), decide (a < numS)) else acc)
      (by omega) (fun i h1 h2 => hopt i (by omega) (by omega))
      (fun i h1 h2 => hobj i (by omega) (by omega))
    by_cases hlt : v a < acc.1
    · rw [if_pos hlt] at IH ⊢
      rcases IH with ⟨k, k1, k2, k3, k4, k5, k6⟩ | ⟨k1, k2⟩
      · refine .inl ⟨k, by omega, by omega, XR.lt_trans' k3 hlt, ?_, ?_, k6⟩
        · intro i h1 h2
          rcases Nat.eq_or_lt_of_le h1 with rfl | h1
          · exact fun h => XR.not_le_of_lt' k3 (XR.le_of_lt' h)
          · exact k4 i h1 (by omega)
        · intro i h1 h2
          rcases Nat.eq_or_lt_of_le h1 with rfl | h1
          · exact XR.not_le_of_lt' k3
          · exact k5 i h1 h2
      · refine .inl ⟨a, le_rfl, by omega, hlt, ?_, fun i h1 h2 => by omega, k2⟩
        intro i h1 h2
        rcases Nat.eq_or_lt_of_le h1 with rfl | h1
        · exact fun h => XR.not_le_of_lt' h (XR.le_of_lt' h)
        · exact k1 i h1 (by omega)
    · rw [if_neg hlt] at IH ⊢
      rcases IH with ⟨k, k1, k2, k3, k4, k5, k6⟩ | ⟨k1, k2⟩
      · refine .inl ⟨k, by omega, by omega, k3, ?_, ?_, k6⟩
        · intro i h1 h2
          rcases Nat.eq_or_lt_of_le h1 with rfl | h1
          · exact fun h => hlt (XR.lt_trans' h k3)
          · exact k4 i h1 (by omega)
        · intro i h1 h2
          rcases Nat.eq_or_lt_of_le h1 with rfl | h1
          · exact fun h => hlt (XR.lt_of_le_of_lt' h k3)
          · exact k5 i h1 h2
      · refine .inr ⟨?_, k2⟩
        intro i h1 h2
        rcases Nat.eq_or_lt_of_le h1 with rfl | h1
        · exact hlt
        · exact k1 i h1 (by omega)

/-- **C51.**  Let guess `i` be optimised to `lp i` with objective `v i` (the first `numS` guesses with
more s-type functions, the others with more p-type functions).  Then `_find_best_lparams` returns the
first guess with the smallest objective, together with whether it was an s-type guess; if no objective
lies below 1e10 it returns no parameters. -/
theorem C51_find_best (E : GEnv) (t ns np numS numP : ℕ) (params : List (List XR))
    (lp : ℕ → List XR) (v : ℕ → XR) (hlen : numS + numP ≤ params.length)
    (hopt : ∀ i < numS + numP,
      E.optLocal t i (if i < numS then ns + E.choice.inc else ns)
        (if i < numS then np else np + E.choice.inc) (params.getD i []) = .ok (lp i))
    (hobj : ∀ i < numS + numP,
      E.obj (if i < numS then ns + E.choice.inc else ns)
        (if i < numS then np else np + E.choice.inc) (lp i) = .ok (v i)) :
    (∃ k < numS + numP, v k < XR.fin 1e10 ∧ (∀ i < numS + numP, ¬ v i < v k) ∧
      (∀ i < k, ¬ v i ≤ v k) ∧
      E.findBest t ns np params numS numP = .ok (v k, some (lp k), decide (k < numS))) ∨
    ((∀ i < numS + numP, ¬ v i < XR.fin 1e10) ∧
      E.findBest t ns np params numS numP = .ok (XR.fin 1e10, none, false)) := by
  have := findBestLoop_spec E t ns np numS params lp v (numS + numP) 0 (XR.fin 1e10, none, false)
    (by omega) (fun i _ h => hopt i (by omega)) (fun i _ h => hobj i (by omega))
  unfold GEnv.findBest
  rw [List.range_eq_range']
  rcases this with ⟨k, _, k2, k3, k4, k5, k6⟩ | ⟨k1, k2⟩
  · exact .inl ⟨k, by omega, k3, fun i hi => k4 i (Nat.zero_le _) (by omega),
      fun i hi => k5 i (Nat.zero_le _) hi, k6⟩
  · exact .inr ⟨fun i hi => k1 i (Nat.zero_le _) (by omega), k2⟩

/-- **C51**, consequence for a round: the full optimisation starts from that best guess with the
matching counts (here observed through an exception `e` it raises), and a round in which every guess
has objective at least 1e10 (or nan) raises TypeError. -/
theorem C51_round (E : GEnv) (o : GOpts) (f0 : XR) (s : GState) (hx : o.extra = none)
    (lp : ℕ → List XR) (v : ℕ → XR)
    (hopt : ∀ i < (E.choicesS s).length + (E.choicesP s).length,
      E.optLocal s.round i (if i < (E.choicesS s).length then s.numS + E.choice.inc else s.numS)
        (if i < (E.choicesS s).length then s.numP else s.numP + E.choice.inc)
        ((E.choicesS s ++ E.choicesP s).getD i []) = .ok (lp i))
    (hobj : ∀ i < (E.choicesS s).length + (E.choicesP s).length,
      E.obj (if i < (E.choicesS s).length then s.numS + E.choice.inc else s.numS)
        (if i < (E.choicesS s).length then s.numP else s.numP + E.choice.inc) (lp i) = .ok (v i)) :
    ((∀ i < (E.choicesS s).length + (E.choicesP s).length, ¬ v i < XR.fin 1e10) →
      E.step o f0 s = .error .typeError) ∧
    (∀ k < (E.choicesS s).length + (E.choicesP s).length, v k < XR.fin 1e10 →
      (∀ i < (E.choicesS s).length + (E.choicesP s).length, ¬ v i < v k) → (∀ i < k, ¬ v i ≤ v k) →
      E.step o f0 s = E.finishRound f0 s (some (lp k)) (decide (k < (E.choicesS s).length)) ∧
      ∀ e, E.optGlobal s.round
          (if k < (E.choicesS s).length then s.numS + E.choice.inc else s.numS)
          (if k < (E.choicesS s).length then s.numP else s.numP + E.choice.inc) (lp k) = .error e →
        E.step o f0 s = .error e) := by
  have ht : E.totalChoices o s = .ok (E.choicesS s ++ E.choicesP s) := by
    unfold GEnv.totalChoices; rw [hx]
  have := C51_find_best E s.round s.numS s.numP (E.choicesS s).length (E.choicesP s).length
    (E.choicesS s ++ E.choicesP s) lp v (by simp) hopt hobj
  constructor
  · intro hall
    rcases this with ⟨k, k1, k2, _⟩ | ⟨_, k2⟩
    · exact absurd k2 (hall k k1)
    · unfold GEnv.step
      rw [ht]; simp only; rw [k2]; rfl
  · intro k hk hk1 hk2 hk3
    rcases this with ⟨k', k1, k2, k3, k4, k5⟩ | ⟨k1, _⟩
    · obtain rfl : k' = k := by
        rcases lt_trichotomy k' k with h | h | h
        · exfalso
          have a1 := hk3 k' h
          have a2 := k3 k hk
          have a3 := hk2 k' k1
          -- both are minimal and finite or infinite values below 1e10, so they compare
          revert a1 a2 a3 k2 hk1
          cases v k' <;> cases v k <;> simp
          intro _ _ h3 h4; linarith
        · exact h
        · exfalso
          have a1 := k4 k h
          have a2 := k3 k hk
          have a3 := hk2 k' k1
          revert a1 a2 a3 k2 hk1
          cases v k' <;> cases v k <;> simp
          intro _ _ h3 h4; linarith
      have hst : E.step o f0 s =
          E.finishRound f0 s (some (lp k')) (decide (k' < (E.choicesS s).length)) := by
        unfold GEnv.step
        rw [ht]; simp only; rw [k5]
      refine ⟨hst, fun e he => ?_⟩
      rw [hst]
      unfold GEnv.finishRound
      simp only [decide_eq_true_eq]
      rw [he]
    · exact absurd hk1 (k1 k hk)

/-! ### C52: termination -/

/-- **C52.**  Whatever the optimisers, the random numbers and the objective do, at most
`5 * max(0, max_numb_funcs - 1)` rounds are executed from the start of a run. -/
theorem C52_round_bound (E : GEnv) (ob : GObj) (o : GOpts) (f : XR) (s0 s : GState) (n : ℕ)
    (h0 : E.start ob f = .ok s0) (h : Rounds E o f s0 n s) :
    (n : ℤ) ≤ 5 * max 0 (o.maxFuncs - 1) := by
  obtain ⟨g, err, v, _, _, _, hs⟩ := start_ok h0
  have := rounds_bound (by rw [hs]) (by rw [hs]) h
  have e : max 0 (o.maxFuncs - 1) = ((o.maxFuncs - 1).toNat : ℤ) := by omega
  rw [e]
  exact_mod_cast this

/-- **C52**, the loop of the model runs until its condition fails or a round raises: the bound built
into the model is never what stops it. -/
theorem C52_bound_irrelevant (E : GEnv) (ob : GObj) (o : GOpts) (f : XR) (s0 : GState)
    (h0 : E.start ob f = .ok s0) :
    (∀ s, E.loop o f (5 * (o.maxFuncs - 1).toNat) s0 = .ok s ↔
      ∃ n, Rounds E o f s0 n s ∧ ¬ s.continues o) ∧
    (∀ e, E.loop o f (5 * (o.maxFuncs - 1).toNat) s0 = .error e ↔
      ∃ n s, Rounds E o f s0 n s ∧ s.continues o ∧ E.step o f s = .error e) := by
  obtain ⟨g, err, v, _, _, _, hs⟩ := start_ok h0
  have hb : 5 * o.maxFuncs ≤ 5 * s0.numbFuncs + s0.redum + (5 * (o.maxFuncs - 1).toNat : ℕ) := by
    rw [hs]; push_cast; omega
  exact ⟨fun s => loop_ok_iff _ _ _ hb, fun e => loop_error_iff _ _ _ hb⟩

/-- **C52**, a round either is unsuccessful — then counts, model, parameters, best and previous
objective, accepted parameters and stored errors are exactly as before — or the number of functions
grows by the increment of the strategy. -/
theorem C52_unsuccessful_round (E : GEnv) (o : GOpts) (f : XR) (s s' : GState)
    (hms : s.modelS = s.numS) (hmp : s.modelP = s.numP) (h : E.step o f s = .ok s') :
    (s'.redum = s.redum + 1 ∧ s'.toGObj = s.toGObj ∧ s'.gparams = s.gparams ∧
      s'.numbFuncs = s.numbFuncs ∧ s'.best = s.best ∧ s'.prev = s.prev ∧
      s'.paramsIter = s.paramsIter ∧ s'.factor = s.factor * XR.fin 2) ∨
    (s'.redum ≤ s.redum ∧ s'.numS + s'.numP = s.numS + s.numP + E.choice.inc ∧
      s'.numbFuncs = s.numbFuncs + E.choice.inc) := by
  rcases (step_cases h).1 with ⟨a1, a2, a3, a4, a5, a6, a7, a8, a9, a10, a11, a12⟩ |
    ⟨_, _, _, a1, _, _, _, _, _, _, _, _, _, a8, _, _, _, a12⟩ | ⟨a1, _, _, _, _, _, a8, _, _, _, a12⟩
  · refine .inl ⟨a12, ?_, a6, a8, a10, a9, a11, a7⟩
    cases hs' : s'.toGObj; cases hs : s.toGObj
    rw [hs', hs] at a1 a2
    rw [hs'] at a3 a4
    rw [hs', hs] at a5
    simp_all
  · exact .inr ⟨by omega, by rcases a1 with ⟨b1, b2⟩ | ⟨b1, b2⟩ <;> omega, a8⟩
  · exact .inr ⟨by omega, by rcases a1 with ⟨b1, b2⟩ | ⟨b1, b2⟩ <;> omega, a8⟩

/-! ### the history of accepted parameters -/

/-- An accepted parameter set: counts, parameters, objective and stored errors. -/
structure Accepted where
  ns : ℕ
  np : ℕ
  params : List XR
  value : XR
  err : Perf

/-- The accepted sets of a state. -/
structure History (E : GEnv) (ob : GObj) (s : GState) (hist : List Accepted) (last : Accepted) :
    Prop where
  params : hist.map Accepted.params = s.paramsIter
  errs : s.errArr = ob.errArr ++ hist.map Accepted.err
  valid : ∀ a ∈ hist, E.obj a.ns a.np a.params = .ok a.value ∧ E.gof a.ns a.np a.params = .ok a.err
  noWorse : hist.Pairwise (fun a b => b.value ≤ a.value)
  grows : hist.Pairwise (fun a b => a.ns ≤ b.ns ∧ a.np ≤ b.np ∧ a.ns + a.np < b.ns + b.np)
  noSimilar : ∀ a ∈ hist.tail,
    a.ns = (removeRedundancies (splitParams a.ns a.np a.params).sCoeffs
      (splitParams a.ns a.np a.params).sExps (XR.fin 1e-3)).1.length ∧
    a.np = (removeRedundancies (splitParams a.ns a.np a.params).pCoeffs
      (splitParams a.ns a.np a.params).pExps (XR.fin 1e-3)).1.length
  first : ∃ a, hist.head? = some a ∧ a.ns = ob.numS ∧ a.np = ob.numP ∧
    E.oneFun ob.modelS ob.modelP = .ok a.params
  isLast : hist.getLast? = some last
  lastParams : last.params = s.gparams
  lastValue : last.value = s.best
  prevValue : s.prev = match hist.dropLast.getLast? with
    | some a => a.value
    | none => XR.pinf
  lastS : last.ns ≤ s.numS
  lastP : last.np ≤ s.numP
  modelS : s.modelS = s.numS
  modelP : s.modelP = s.numP
  count : s.numbFuncs + ob.numS + ob.numP = s.numS + s.numP + 1

theorem history_start {E : GEnv} {ob : GObj} {f : XR} {s : GState} (h : E.start ob f = .ok s)
    (hms : ob.modelS = ob.numS) (hmp : ob.modelP = ob.numP) :
    ∃ last, History E ob s [last] last := by
  obtain ⟨g, err, v, h1, h2, h3, rfl⟩ := start_ok h
  refine ⟨⟨ob.numS, ob.numP, g, v, err⟩, rfl, rfl, ?_, by simp, by simp, by simp,
    ⟨_, rfl, rfl, rfl, h1⟩, rfl, rfl, rfl, rfl, le_rfl, le_rfl, hms, hmp, by push_cast; ring⟩
  intro a ha
  rw [List.mem_singleton] at ha
  subst ha
  rw [hms, hmp] at h2 h3
  exact ⟨h3, h2⟩

theorem history_step {E : GEnv} {ob : GObj} {o : GOpts} {f : XR} {s s' : GState}
    {hist : List Accepted} {last : Accepted} (H : History E ob s hist last)
    (h : E.step o f s = .ok s') : ∃ hist' last', History E ob s' hist' last' ∧ hist <+: hist' := by
  rcases (step_cases h).1 with ⟨a1, a2, a3, a4, a5, a6, a7, a8, a9, a10, a11, a12⟩ |
    ⟨op, v, err, a1, a2, a3, a4, a5, a6, a7, b1, b2, b3, b4, b5, b6, b7, b8⟩ |
    ⟨a1, a2, a3, a5, a6, a7, a8, a9, a10, a11, a12⟩
  · refine ⟨hist, last, ⟨by rw [a11]; exact H.params, by rw [a5]; exact H.errs, H.valid, H.noWorse,
      H.grows, H.noSimilar, H.first, H.isLast, by rw [a6]; exact H.lastParams,
      by rw [a10]; exact H.lastValue, by rw [a9]; exact H.prevValue, by rw [a1]; exact H.lastS, by rw [a2]; exact H.lastP,
      by rw [a3, a1], by rw [a4, a2], by rw [a8, a1, a2]; exact H.count⟩, List.prefix_rfl⟩
  · have hi := E.choice.inc_pos
    have hmem : last ∈ hist := List.mem_of_getLast? H.isLast
    have hsplit : hist = hist.dropLast ++ [last] := by
      rcases List.eq_nil_or_concat hist with h | ⟨L, b, h⟩
      · rw [h] at hmem; exact absurd hmem List.not_mem_nil
      · have := H.isLast
        rw [h] at this ⊢
        simp at this
        simp [this]
    have hge : ∀ a ∈ hist, last.value ≤ a.value ∨ a = last := by
      intro a ha
      have hp := H.noWorse
      rw [hsplit, List.pairwise_append] at hp
      rw [hsplit] at ha
      rcases List.mem_append.mp ha with ha | ha
      · exact .inl (hp.2.2 a ha last (by simp))
      · exact .inr (by simpa using ha)
    have hgr : ∀ a ∈ hist, (a.ns ≤ last.ns ∧ a.np ≤ last.np) := by
      intro a ha
      have hp := H.grows
      rw [hsplit, List.pairwise_append] at hp
      rw [hsplit] at ha
      rcases List.mem_append.mp ha with ha | ha
      · have := hp.2.2 a ha last (by simp); exact ⟨this.1, this.2.1⟩
      · rw [List.mem_singleton] at ha; subst ha; exact ⟨le_rfl, le_rfl⟩
    have hne : hist ≠ [] := List.ne_nil_of_mem hmem
    have hnf : s'.numS = (removeRedundancies (splitParams s'.numS s'.numP op).sCoeffs
          (splitParams s'.numS s'.numP op).sExps (XR.fin 1e-3)).1.length ∧
        s'.numP = (removeRedundancies (splitParams s'.numS s'.numP op).pCoeffs
          (splitParams s'.numS s'.numP op).pExps (XR.fin 1e-3)).1.length := by
      unfold roundFails at a7
      simp only [not_or, not_not] at a7
      exact ⟨a7.1, a7.2.1⟩
    refine ⟨hist ++ [⟨s'.numS, s'.numP, op, v, err⟩], ⟨s'.numS, s'.numP, op, v, err⟩,
      ⟨?_, ?_, ?_, ?_, ?_, ?_, ?_, by simp, by rw [b2], by rw [b6],
        by rw [List.dropLast_concat, H.isLast, b5]; exact H.lastValue.symm, le_rfl, le_rfl, a2, a3, ?_⟩,
      List.prefix_append _ _⟩
    · rw [b7, List.map_append, H.params]; rfl
    · rw [b1, H.errs, List.map_append, List.append_assoc]; rfl
    · intro a ha
      rcases List.mem_append.mp ha with ha | ha
      · exact H.valid a ha
      · rw [List.mem_singleton] at ha; subst ha; exact ⟨a4, a5⟩
    · rw [List.pairwise_append]
      refine ⟨H.noWorse, by simp, ?_⟩
      intro a ha b hb
      rw [List.mem_singleton] at hb; subst hb
      have hv : v ≤ last.value := by rw [H.lastValue]; exact a6
      rcases hge a ha with h | rfl
      · exact XR.le_trans' hv h
      · exact hv
    · rw [List.pairwise_append]
      refine ⟨H.grows, by simp, ?_⟩
      intro a ha b hb
      rw [List.mem_singleton] at hb; subst hb
      have := hgr a ha
      have l1 := H.lastS
      have l2 := H.lastP
      simp only
      rcases a1 with ⟨c1, c2⟩ | ⟨c1, c2⟩ <;> omega
    · intro a ha
      rw [List.tail_append_of_ne_nil hne] at ha
      rcases List.mem_append.mp ha with ha | ha
      · exact H.noSimilar a ha
      · rw [List.mem_singleton] at ha; subst ha; exact hnf
    · obtain ⟨a, h1, h2⟩ := H.first
      refine ⟨a, ?_, h2⟩
      rw [List.head?_append, h1]; rfl
    · have := H.count
      rw [b4]
      rcases a1 with ⟨c1, c2⟩ | ⟨c1, c2⟩ <;> rw [c1, c2] <;> push_cast <;> omega
  · refine ⟨hist, last, ⟨by rw [a11]; exact H.params, by rw [a5]; exact H.errs, H.valid, H.noWorse,
      H.grows, H.noSimilar, H.first, H.isLast, by rw [a6]; exact H.lastParams,
      by rw [a10]; exact H.lastValue, by rw [a9]; exact H.prevValue, ?_, ?_, a2, a3, ?_⟩, List.prefix_rfl⟩
    · have := H.lastS; rcases a1 with ⟨c1, c2⟩ | ⟨c1, c2⟩ <;> omega
    · have := H.lastP; rcases a1 with ⟨c1, c2⟩ | ⟨c1, c2⟩ <;> omega
    · have := H.count
      rw [a8]
      rcases a1 with ⟨c1, c2⟩ | ⟨c1, c2⟩ <;> rw [c1, c2] <;> push_cast <;> omega

theorem history_rounds {E : GEnv} {ob : GObj} {o : GOpts} {f : XR} {s0 s : GState} {n : ℕ}
    (h0 : E.start ob f = .ok s0) (hms : ob.modelS = ob.numS) (hmp : ob.modelP = ob.numP)
    (h : Rounds E o f s0 n s) : ∃ hist last, History E ob s hist last := by
  induction h with
  | refl => obtain ⟨l, hl⟩ := history_start h0 hms hmp; exact ⟨_, _, hl⟩
  | step _ _ h3 ih =>
    obtain ⟨hist, last, H⟩ := ih
    obtain ⟨hist', last', H', _⟩ := history_step H h3
    exact ⟨hist', last', H'⟩

/-- The objective can only be evaluated for parameters of the size of the model (it raises
otherwise); true for the two subclasses, see `lsEnv_sizeChecked` and `klEnv_sizeChecked`. -/
def GEnv.SizeChecked (E : GEnv) : Prop :=
  ∀ ns np p v, E.obj ns np p = .ok v → p.length = 2 * (ns + np)

/-- What every successful run returns, in terms of the history of accepted parameter sets. -/
theorem run_history {E : GEnv} {ob : GObj} {factor : PyObj} {o : GOpts} {r : GResult} {ob' : GObj}
    (hE : E.SizeChecked) (hms : ob.modelS = ob.numS) (hmp : ob.modelP = ob.numP)
    (h : E.run ob factor o = .ok (r, ob')) :
    ∃ hist last s, History E ob s hist last ∧ E.finish o s = .ok (r, ob') ∧ ¬ s.continues o ∧
      last.ns = s.numS ∧ last.np = s.numP ∧ last.params.length = 2 * (s.numS + s.numP) ∧
      s.paramsIter.getLastD [] = last.params ∧ r.fun_ = last.value ∧
      (∃ f s0 n, E.start ob f = .ok s0 ∧ Rounds E o f s0 n s) := by
  obtain ⟨f, s0, n, s, rfl, _, hs, hr, hc, hf⟩ := run_ok h
  obtain ⟨hist, last, H⟩ := history_rounds hs hms hmp hr
  obtain ⟨info, v, _, hv, _, hres⟩ := finish_ok hf
  have hlastD : s.paramsIter.getLastD [] = last.params := by
    rw [← H.params, List.getLastD_eq_getLast?, List.getLast?_map, H.isLast]; rfl
  rw [hlastD] at hv
  have l1 := hE _ _ _ _ hv
  have l2 := hE _ _ _ _ (H.valid last (List.mem_of_getLast? H.isLast)).1
  have a1 := H.lastS
  have a2 := H.lastP
  rw [H.modelS, H.modelP] at l1
  have e1 : last.ns = s.numS := by omega
  have e2 : last.np = s.numP := by omega
  refine ⟨hist, last, s, H, hf, hc, e1, e2, l1, hlastD, ?_, f, s0, n, hs, hr⟩
  have hv' := (H.valid last (List.mem_of_getLast? H.isLast)).1
  rw [e1, e2] at hv'
  rw [H.modelS, H.modelP, hv'] at hv
  injection hv with hv
  rw [hres]
  exact hv.symm

/-- **C53.**  In every successful run the accepted parameter sets (each with the counts it was accepted
with) have non-increasing objective values; the first is the one-function solution, and `fun` is the
objective of the last. -/
theorem C53_never_worse (E : GEnv) (hE : E.SizeChecked) (factor : PyObj) (o : GOpts) (r : GResult)
    (ob' : GObj) (h : E.run GObj.fresh factor o = .ok (r, ob')) :
    ∃ hist : List (ℕ × ℕ × List XR × XR),
      hist.map (fun a => a.2.2.1) = r.parametersIteration ∧
      (∀ a ∈ hist, E.obj a.1 a.2.1 a.2.2.1 = .ok a.2.2.2) ∧
      hist.Pairwise (fun a b => b.2.2.2 ≤ a.2.2.2) ∧
      (∃ p v, hist.head? = some (1, 0, p, v) ∧ E.oneFun 1 0 = .ok p) ∧
      ∃ p, hist.getLast? = some (r.numS, r.numP, p, r.fun_) := by
  obtain ⟨hist, last, s, H, hf, _, e1, e2, _, _, hfun, _⟩ := run_history hE rfl rfl h
  obtain ⟨info, v, _, _, _, hres⟩ := finish_ok hf
  refine ⟨hist.map (fun a => (a.ns, a.np, a.params, a.value)), ?_, ?_, ?_, ?_, ?_⟩
  · rw [List.map_map, hres]; exact H.params
  · intro a ha
    obtain ⟨b, hb, rfl⟩ := List.mem_map.mp ha
    exact (H.valid b hb).1
  · rw [List.pairwise_map]; exact H.noWorse
  · obtain ⟨a, h1, h2, h3, h4⟩ := H.first
    refine ⟨a.params, a.value, ?_, h4⟩
    rw [List.head?_map, h1]
    simp only [Option.map_some, h2, h3]
    rfl
  · refine ⟨last.params, ?_⟩
    rw [List.getLast?_map, H.isLast, Option.map_some, e1, e2, hfun]
    rw [hres]

/-- **C53**, consequence: the returned `fun` is at most the objective of the one-function solution
(unless that is nan). -/
theorem C53_no_worse_than_start (E : GEnv) (hE : E.SizeChecked) (factor : PyObj) (o : GOpts)
    (r : GResult) (ob' : GObj) (h : E.run GObj.fresh factor o = .ok (r, ob')) (p : List XR) (v : XR)
    (hp : E.oneFun 1 0 = .ok p) (hv : E.obj 1 0 p = .ok v) (hnan : ¬ v.IsNan) : r.fun_ ≤ v := by
  obtain ⟨hist, h1, h2, h3, ⟨p0, v0, h4, h5⟩, q, h6⟩ := C53_never_worse E hE factor o r ob' h
  have hv0 : v0 = v := by
    rw [hp] at h5
    injection h5 with h5
    subst h5
    have := h2 _ (List.mem_of_head? h4)
    simp only at this
    rw [hv] at this
    injection this with this
    exact this.symm
  subst hv0
  cases hist with
  | nil => exact absurd h4 (by simp)
  | cons a l =>
    simp only [List.head?_cons, Option.some.injEq] at h4
    subst h4
    have hmem := List.mem_of_getLast? h6
    rcases List.mem_cons.mp hmem with h7 | h7
    · injection h7 with _ h7; injection h7 with _ h7; injection h7 with _ h7
      rw [h7]
      exact XR.le_refl_of_not_nan hnan
    · exact (List.pairwise_cons.mp h3).1 _ h7

/-- **C54.**  In every successful run on a fresh object `coeffs` and `exps` have `num_s + num_p`
entries, are the s part followed by the p part of the last accepted parameters (whose s and p blocks
are adjacent, so that `coeffs ++ exps` is that vector), `fun` is its objective, and `performance`
holds the goodness of fit of each accepted parameter set, in order. -/
theorem C54_consistent (E : GEnv) (hE : E.SizeChecked) (factor : PyObj) (o : GOpts) (r : GResult)
    (ob' : GObj) (h : E.run GObj.fresh factor o = .ok (r, ob')) :
    r.coeffs.length = r.numS + r.numP ∧ r.exps.length = r.numS + r.numP ∧
      r.parametersIteration.getLast? = some (r.coeffs ++ r.exps) ∧
      E.obj r.numS r.numP (r.coeffs ++ r.exps) = .ok r.fun_ ∧
      r.performance.length = r.parametersIteration.length ∧
      (∃ counts : List (ℕ × ℕ), counts.length = r.parametersIteration.length ∧
        List.Forall₂ (fun cp err => E.gof cp.1.1 cp.1.2 cp.2 = .ok err)
          (List.zip counts r.parametersIteration) r.performance) ∧
      ob'.numS = r.numS ∧ ob'.numP = r.numP ∧ ob'.modelS = r.numS ∧ ob'.modelP = r.numP ∧
      ob'.errArr = r.performance := by
  obtain ⟨hist, last, s, H, hf, _, e1, e2, hlen, hlast, hfun, _⟩ := run_history hE rfl rfl h
  obtain ⟨info, v, _, hv, hob, hres⟩ := finish_ok hf
  rw [hlast] at hres hv
  have hc : r.coeffs = last.params.take (s.numS + s.numP) := by
    rw [hres]
    simp only [splitParams]
    have : last.params.take s.numS = (last.params.take (s.numS + s.numP)).take s.numS := by
      rw [List.take_take]; congr 1; omega
    rw [this, List.take_append_drop]
  have he : r.exps = last.params.drop (s.numS + s.numP) := by
    rw [hres]
    simp only [splitParams]
    have : last.params.drop (2 * s.numS + s.numP) =
        (last.params.drop (s.numS + s.numP)).drop s.numS := by
      rw [List.drop_drop]; congr 1; omega
    rw [this, List.drop_take, show 2 * s.numS + s.numP - (s.numS + s.numP) = s.numS by omega,
      List.take_append_drop]
  have hce : r.coeffs ++ r.exps = last.params := by rw [hc, he, List.take_append_drop]
  have hS : r.numS = s.numS := by rw [hres]
  have hP : r.numP = s.numP := by rw [hres]
  have hI : r.parametersIteration = s.paramsIter := by rw [hres]
  have hPf : r.performance = s.errArr := by rw [hres]
  have herr : s.errArr = hist.map Accepted.err := by rw [H.errs]; rfl
  refine ⟨?_, ?_, ?_, ?_, ?_, ?_, ?_, ?_, ?_, ?_, ?_⟩
  · rw [hc, List.length_take, hlen, hS, hP]; omega
  · rw [he, List.length_drop, hlen, hS, hP]; omega
  · rw [hce, hI, ← H.params, List.getLast?_map, H.isLast]; rfl
  · rw [hce, hS, hP, hfun, ← e1, ← e2]
    exact (H.valid last (List.mem_of_getLast? H.isLast)).1
  · rw [hPf, hI, herr, ← H.params]; simp
  · refine ⟨hist.map (fun a => (a.ns, a.np)), by rw [hI, ← H.params]; simp, ?_⟩
    rw [hI, ← H.params, hPf, herr, List.zip_map', List.forall₂_map_left_iff,
      List.forall₂_map_right_iff, List.forall₂_same]
    exact fun a ha => (H.valid a ha).2
  · rw [hob, hS]
  · rw [hob, hP]
  · rw [hob, hS]; exact H.modelS
  · rw [hob, hP]; exact H.modelP
  · rw [hob, hPf]

/-- **C55.**  The number of functions of the result is at most `max_numb_funcs + inc - 1` (and one if
that is smaller), where `inc` is the number of functions added per round. -/
theorem C55_general (E : GEnv) (factor : PyObj) (o : GOpts) (r : GResult)
    (ob' : GObj) (h : E.run GObj.fresh factor o = .ok (r, ob')) :
    ((r.numS + r.numP : ℕ) : ℤ) ≤ max 1 (o.maxFuncs + E.choice.inc - 1) := by
  obtain ⟨f, s0, n, s, rfl, _, hs, hr, hc, hf⟩ := run_ok h
  obtain ⟨hist, last, H⟩ := history_rounds hs rfl rfl hr
  obtain ⟨info, v, _, hv, hob, hres⟩ := finish_ok hf
  have hcount := H.count
  simp only [GObj.fresh] at hcount
  have key : s.numbFuncs ≤ max 1 (o.maxFuncs + E.choice.inc - 1) := by
    cases hr with
    | refl =>
      obtain ⟨g, err, v, _, _, _, rfl⟩ := start_ok hs
      exact le_max_left _ _
    | step h1 h2 h3 =>
      have a1 := h2.1
      have hi := E.choice.inc_pos
      rcases (step_cases h3).1 with ⟨_, _, _, _, _, _, _, hn, _, _, _, _⟩ |
        ⟨_, _, _, _, _, _, _, _, _, _, _, _, _, hn, _, _, _, _⟩ | ⟨_, _, _, _, _, _, hn, _, _, _, _⟩
      all_goals
        rw [hn]
        refine le_trans ?_ (le_max_right _ _)
        omega
  rw [hres]
  push_cast at hcount ⊢
  omega

/-- **C55** for the strategies that add one function per round. -/
theorem C55_max_partial (E : GEnv) (hE : E.choice ≠ .pickTwo) (factor : PyObj) (o : GOpts)
    (hmax : 1 ≤ o.maxFuncs) (r : GResult) (ob' : GObj)
    (h : E.run GObj.fresh factor o = .ok (r, ob')) :
    ((r.numS + r.numP : ℕ) : ℤ) ≤ o.maxFuncs := by
  have := C55_general E factor o r ob' h
  have hi : E.choice.inc = 1 := by
    cases hc : E.choice with
    | pickOne => rfl
    | pickTwo => exact absurd hc hE
    | pickTwoLoseOne => rfl
  rw [hi] at this
  push_cast at this ⊢
  omega

/-- **C73.**  Every accepted parameter set after the first has pairwise dissimilar s-type exponents and
pairwise dissimilar p-type exponents (none within 1e-3 of an earlier one). -/
theorem C73_no_similar_exponents (E : GEnv) (hE : E.SizeChecked) (factor : PyObj) (o : GOpts)
    (r : GResult) (ob' : GObj) (h : E.run GObj.fresh factor o = .ok (r, ob'))
    (hmore : 1 < r.parametersIteration.length) :
    (r.exps.take r.numS).Pairwise (fun a b => ¬ (a - b).abs < XR.fin 1e-3) ∧
      (r.exps.drop r.numS).Pairwise (fun a b => ¬ (a - b).abs < XR.fin 1e-3) := by
  obtain ⟨c1, c2, c3, c4, _⟩ := C54_consistent E hE factor o r ob' h
  obtain ⟨hist, last, s, H, hf, _, e1, e2, hlen, hlast, hfun, _⟩ := run_history hE rfl rfl h
  obtain ⟨info, v, _, hv, hob, hres⟩ := finish_ok hf
  have hS : r.numS = s.numS := by rw [hres]
  have hP : r.numP = s.numP := by rw [hres]
  have hI : r.parametersIteration = s.paramsIter := by rw [hres]
  have hp : last.params = r.coeffs ++ r.exps := by
    rw [hI, ← H.params, List.getLast?_map, H.isLast] at c3
    injection c3
  have hmem : last ∈ hist.tail := by
    cases hh : hist with
    | nil => have := H.isLast; rw [hh] at this; exact absurd this (by simp)
    | cons a l =>
      cases l with
      | nil => rw [hI, ← H.params, hh] at hmore; simp at hmore
      | cons b l =>
        have := H.isLast
        rw [hh, List.getLast?_cons_cons] at this
        exact List.mem_of_getLast? this
  obtain ⟨n1, n2⟩ := H.noSimilar last hmem
  rw [e1, e2, hp] at n1 n2
  rw [← hS, ← hP] at n1 n2
  have q : splitParams r.numS r.numP (r.coeffs ++ r.exps) =
      ⟨r.coeffs.take r.numS, r.exps.take r.numS, r.coeffs.drop r.numS, r.exps.drop r.numS⟩ := by
    unfold splitParams
    congr 1
    · rw [List.take_append_of_le_length (by omega)]
    · rw [List.take_append, c1, List.drop_append, List.length_take]
      rw [List.drop_eq_nil_of_le (by rw [List.length_take]; omega)]
      rw [List.nil_append]
      rw [show 2 * r.numS + r.numP - (r.numS + r.numP) = r.numS by omega,
        show r.numS + r.numP - min (2 * r.numS + r.numP) r.coeffs.length = 0 by omega, List.drop_zero]
    · rw [List.take_append_of_le_length (by omega), List.take_of_length_le (by omega)]
    · rw [List.drop_append, List.drop_eq_nil_of_le (by omega), List.nil_append, c1]
      congr 1; omega
  rw [q] at n1 n2
  simp only at n1 n2
  constructor
  · refine (C49_unchanged_iff (r.coeffs.take r.numS) (r.exps.take r.numS) (XR.fin 1e-3) ?_).1.mp ?_
    · rw [List.length_take, List.length_take, c1, c2]
    · rw [← n1, List.length_take, c1]; omega
  · refine (C49_unchanged_iff (r.coeffs.drop r.numS) (r.exps.drop r.numS) (XR.fin 1e-3) ?_).1.mp ?_
    · rw [List.length_drop, List.length_drop, c1, c2]
    · rw [← n2, List.length_drop, c1]; omega

end BFit
