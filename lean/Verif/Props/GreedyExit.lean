import Verif.Props.GreedyRun
import Verif.Props.GreedyChoices
import Verif.Props.ScipyFit

/-!
# C55 – C58: limits, exit information, extra choices, repeated runs of the greedy algorithm
-/

namespace BFit

open Classical

/-! ### the two subclasses satisfy the size check -/

theorem withCounts_nbasis (m : Atomic) (ns np : ℕ) :
    ((GModel.atom m).withCounts ns np).nbasis = ((ns + np : ℕ) : ℤ) := by
  simp [GModel.withCounts, GModel.nbasis, Atomic.nbasis]

theorem halves_length {p : List XR} {n : ℕ} (h : p.length ≠ 2 * n) :
    ((firstHalf p).length : ℤ) ≠ (n : ℤ) ∨ ((secondHalf p).length : ℤ) ≠ (n : ℤ) := by
  unfold firstHalf secondHalf
  rw [List.length_take, List.length_drop]
  omega

theorem evalObj_wrong_size (F : Fit) (meas : Meas) (n : ℕ) (hn : F.model.nbasis = n) (p : List XR)
    (h : p.length ≠ 2 * n) : evalObj F meas p = .error .valueError := by
  unfold evalObj
  rw [gmodel_evaluate_sizes _ _ _ _ (by rw [hn]; exact halves_length h)]

theorem goodness_wrong_size (F : Fit) (n : ℕ) (hn : F.model.nbasis = n) (p : List XR)
    (h : p.length ≠ 2 * n) : F.goodness (firstHalf p) (secondHalf p) = .error .valueError := by
  unfold Fit.goodness
  rw [gmodel_evaluate_sizes _ _ _ _ (by rw [hn]; exact halves_length h)]

/-- The objective of a `GreedyLeastSquares` object checks the number of parameters. -/
theorem lsEnv_sizeChecked (S : SFit) (m : Atomic) (hm : S.model = .atom m) (points : List XR)
    (c : Choice) (o : LSOpts) (nnls : ℕ → ℕ → List (List XR) → List XR → Py (List XR))
    (mini : ℕ → ℕ → SProblem → Py SRes) (rnd : ℕ → ℕ → ℕ → ℝ) :
    (lsEnv S points c o nnls mini rnd).SizeChecked := by
  intro ns np p v h
  by_contra hl
  have : (lsEnv S points c o nnls mini rnd).obj ns np p = .error .valueError :=
    evalObj_wrong_size _ _ (ns + np) (by
      show (S.model.withCounts ns np).nbasis = _
      rw [hm]; exact withCounts_nbasis m ns np) p hl
  rw [this] at h
  exact absurd h (by simp)

/-- The objective of a `GreedyKLFPI` object checks the number of parameters. -/
theorem klEnv_sizeChecked (F : FPI) (m : Atomic) (hm : F.model = .atom m) (points : List XR)
    (c : Choice) (ol og : FPIOpts) (rnd : ℕ → ℕ → ℕ → ℝ) :
    (klEnv F points c ol og rnd).SizeChecked := by
  intro ns np p v h
  by_contra hl
  have : (klEnv F points c ol og rnd).obj ns np p = .error .valueError :=
    evalObj_wrong_size _ _ (ns + np) (by
      show (F.model.withCounts ns np).nbasis = _
      rw [hm]; exact withCounts_nbasis m ns np) p hl
  rw [this] at h
  exact absurd h (by simp)

/-! ### a simple interface to exhibit concrete runs -/

/-- Parameters with unit coefficients and exponents `1, …, ns` and `1, …, np`. -/
noncomputable def toyParams (ns np : ℕ) : List XR :=
  List.replicate (ns + np) (XR.fin 1) ++
    ((List.range ns).map (fun i : ℕ => XR.fin ((i : ℝ) + 1)) ++
      (List.range np).map (fun i : ℕ => XR.fin ((i : ℝ) + 1)))

/-- An interface whose objective is a function of the number of functions and whose optimisers return
`toyParams`. -/
noncomputable def toyEnv (c : Choice) (val : ℕ → XR) : GEnv where
  choice := c
  oneFun _ _ := .ok (toyParams 1 0)
  optLocal _ _ ns np _ := .ok (toyParams ns np)
  optGlobal _ ns np _ := .ok (toyParams ns np)
  obj ns np p := if p.length = 2 * (ns + np) then .ok (val (ns + np)) else raise .valueError
  gof ns np p := if p.length = 2 * (ns + np) then .ok ⟨0, 0, 0, 0, 0⟩ else raise .valueError
  rnd _ _ _ := 0

theorem toyParams_length (ns np : ℕ) : (toyParams ns np).length = 2 * (ns + np) := by
  simp [toyParams]; omega

theorem toyEnv_obj (c : Choice) (val : ℕ → XR) (ns np : ℕ) :
    (toyEnv c val).obj ns np (toyParams ns np) = .ok (val (ns + np)) :=
  if_pos (toyParams_length ns np)

theorem toyEnv_gof (c : Choice) (val : ℕ → XR) (ns np : ℕ) :
    (toyEnv c val).gof ns np (toyParams ns np) = .ok ⟨0, 0, 0, 0, 0⟩ :=
  if_pos (toyParams_length ns np)

theorem toyEnv_sizeChecked (c : Choice) (val : ℕ → XR) : (toyEnv c val).SizeChecked := by
  intro ns np p v h
  by_contra hl
  have : (toyEnv c val).obj ns np p = raise .valueError := if_neg hl
  rw [this] at h
  exact absurd h (by simp [raise])

theorem toy_exps_apart (n : ℕ) : ((List.range n).map (fun i : ℕ => XR.fin ((i : ℝ) + 1))).Pairwise
    (fun a b => ¬ (a - b).abs < XR.fin 1e-3) := by
  rw [List.pairwise_map]
  refine (List.pairwise_lt_range (n := n)).imp ?_
  intro a b hab
  rw [XR.sub_fin, XR.abs_fin, XR.lt_fin, not_lt]
  have h1 : ((a : ℝ) + 1) ≤ b := by exact_mod_cast hab
  rw [abs_sub_comm, abs_of_nonneg (by linarith)]
  norm_num
  linarith

theorem toy_split (ns np : ℕ) : splitParams ns np (toyParams ns np) =
      ⟨List.replicate ns (XR.fin 1), (List.range ns).map (fun i : ℕ => XR.fin ((i : ℝ) + 1)),
        List.replicate np (XR.fin 1), (List.range np).map (fun i : ℕ => XR.fin ((i : ℝ) + 1))⟩ := by
    unfold splitParams toyParams
    congr 1
    · rw [List.take_append_of_le_length (by simp), List.take_replicate]; congr 1; omega
    · rw [List.take_append, List.drop_append, List.length_take, List.length_replicate,
        List.drop_eq_nil_of_le (by simp), List.nil_append,
        show ns + np - min (2 * ns + np) (ns + np) = 0 by omega, List.drop_zero,
        show 2 * ns + np - (ns + np) = ns by omega, List.take_append_of_le_length (by simp),
        List.take_of_length_le (by simp)]
    · rw [List.take_append_of_le_length (by simp), List.take_of_length_le (by simp),
        List.drop_replicate]
      congr 1; omega
    · rw [List.drop_append, List.drop_eq_nil_of_le (by simp; omega), List.nil_append,
        List.length_replicate, List.drop_append, List.drop_eq_nil_of_le (by simp; omega),
        List.nil_append, List.length_map, List.length_range,
        show 2 * ns + np - (ns + np) - ns = 0 by omega, List.drop_zero]

theorem toy_roundFails (ns np : ℕ) (v best : XR) :
    roundFails ns np (toyParams ns np) v best ↔ best < v := by
  unfold roundFails
  rw [toy_split]
  simp only
  rw [(C49_unchanged_iff (List.replicate ns (XR.fin 1)) _ (XR.fin 1e-3) (by simp)).2
      (toy_exps_apart ns),
    (C49_unchanged_iff (List.replicate np (XR.fin 1)) _ (XR.fin 1e-3) (by simp)).2
      (toy_exps_apart np)]
  simp

theorem next_ne_nil (c : Choice) (f : XR) (cs es : List XR) (h : cs.length = es.length)
    (he : es ≠ []) : c.next f cs es ≠ [] := by
  have hn : 0 < es.length := List.length_pos_of_ne_nil he
  intro hc
  cases c with
  | pickOne =>
    have := (C46_sizes f (XR.fin 100) cs es h he).1
    simp only [Choice.next] at hc
    rw [hc] at this; simp at this
  | pickTwo =>
    have := C47_count f (XR.fin 100) cs es h he
    simp only [Choice.next] at hc
    rw [hc] at this; simp at this
  | pickTwoLoseOne =>
    have := (C48_sizes f (XR.fin 100) cs es h he).1
    simp only [Choice.next] at hc
    rw [hc] at this; simp at this

theorem toy_step (c : Choice) (val : ℕ → XR) (o : GOpts) (ho : o.extra = none) (f0 : XR) (s : GState)
    (hl : s.gparams.length = 2 * (s.numS + s.numP)) (hS : 1 ≤ s.numS)
    (hv : val (s.numS + s.numP + c.inc) < XR.fin 1e10) :
    (toyEnv c val).step o f0 s =
      (toyEnv c val).finishRound f0 s (some (toyParams (s.numS + c.inc) s.numP)) true := by
  have hne : (toyEnv c val).choicesS s ≠ [] := by
    unfold GEnv.choicesS
    simp only [ne_eq, List.map_eq_nil_iff]
    apply next_ne_nil
    · simp only [splitParams, List.length_take, List.length_drop]; omega
    · apply List.ne_nil_of_length_pos
      simp only [splitParams, List.length_take, List.length_drop]; omega
  have hpos : 0 < ((toyEnv c val).choicesS s).length := List.length_pos_of_ne_nil hne
  have := C51_round (toyEnv c val) o f0 s ho
    (fun i => toyParams (if i < ((toyEnv c val).choicesS s).length then s.numS + c.inc else s.numS)
      (if i < ((toyEnv c val).choicesS s).length then s.numP else s.numP + c.inc))
    (fun _ => val (s.numS + s.numP + c.inc)) (fun i _ => rfl) (fun i _ => by
      refine (toyEnv_obj c val _ _).trans ?_
      congr 2
      rw [show (toyEnv c val).choice.inc = c.inc from rfl]
      split <;> omega)
  have h0 := (this.2 0 (by omega) hv
    (fun i _ h => XR.not_le_of_lt' h (XR.le_of_lt' h)) (fun i hi => by omega)).1
  rw [h0]
  simp only [hpos, if_true, decide_true]

theorem toy_accept (c : Choice) (val : ℕ → XR) (o : GOpts) (ho : o.extra = none) (f0 : XR)
    (s : GState) (hl : s.gparams.length = 2 * (s.numS + s.numP)) (hS : 1 ≤ s.numS)
    (hv : val (s.numS + s.numP + c.inc) < XR.fin 1e10)
    (hle : val (s.numS + s.numP + c.inc) ≤ s.best) :
    (toyEnv c val).step o f0 s = .ok
      { numS := s.numS + c.inc, numP := s.numP, modelS := s.numS + c.inc, modelP := s.numP
        errArr := s.errArr ++ [⟨0, 0, 0, 0, 0⟩], gparams := toyParams (s.numS + c.inc) s.numP
        factor := f0, numbFuncs := s.numbFuncs + c.inc, prev := s.best
        best := val (s.numS + s.numP + c.inc)
        paramsIter := s.paramsIter ++ [toyParams (s.numS + c.inc) s.numP], redum := 0
        round := s.round + 1 } := by
  rw [toy_step c val o ho f0 s hl hS hv]
  have hobj : (toyEnv c val).obj (s.numS + c.inc) s.numP (toyParams (s.numS + c.inc) s.numP) =
      .ok (val (s.numS + s.numP + c.inc)) := by
    rw [toyEnv_obj]
    congr 2; omega
  have hgof : (toyEnv c val).gof (s.numS + c.inc) s.numP (toyParams (s.numS + c.inc) s.numP) =
      .ok ⟨0, 0, 0, 0, 0⟩ := toyEnv_gof c val _ _
  have hopt : (toyEnv c val).optGlobal s.round (s.numS + c.inc) s.numP
      (toyParams (s.numS + c.inc) s.numP) = .ok (toyParams (s.numS + c.inc) s.numP) := rfl
  unfold GEnv.finishRound
  simp only [if_true]
  rw [show (toyEnv c val).choice = c from rfl, hopt]
  simp only
  rw [hobj]
  simp only
  rw [if_neg (by rw [toy_roundFails]; exact fun h => XR.not_le_of_lt' h hle), if_pos hle, hgof]

theorem toy_fail (c : Choice) (val : ℕ → XR) (o : GOpts) (ho : o.extra = none) (f0 : XR)
    (s : GState) (hl : s.gparams.length = 2 * (s.numS + s.numP)) (hS : 1 ≤ s.numS)
    (hv : val (s.numS + s.numP + c.inc) < XR.fin 1e10)
    (hlt : s.best < val (s.numS + s.numP + c.inc)) :
    (toyEnv c val).step o f0 s = .ok { s with
      redum := s.redum + 1, factor := s.factor * XR.fin 2, round := s.round + 1
      modelS := s.numS, modelP := s.numP } := by
  rw [toy_step c val o ho f0 s hl hS hv]
  have hobj : (toyEnv c val).obj (s.numS + c.inc) s.numP (toyParams (s.numS + c.inc) s.numP) =
      .ok (val (s.numS + s.numP + c.inc)) := by
    rw [toyEnv_obj]
    congr 2; omega
  have hopt : (toyEnv c val).optGlobal s.round (s.numS + c.inc) s.numP
      (toyParams (s.numS + c.inc) s.numP) = .ok (toyParams (s.numS + c.inc) s.numP) := rfl
  unfold GEnv.finishRound
  simp only [if_true]
  rw [show (toyEnv c val).choice = c from rfl, hopt]
  simp only
  rw [hobj]
  simp only
  rw [if_pos (by rw [toy_roundFails]; exact hlt), Nat.add_sub_cancel, add_sub_cancel_right]

/-- The state at the start of a toy run. -/
noncomputable def toyStart (val : ℕ → XR) (f : XR) : GState :=
  { numS := 1, numP := 0, modelS := 1, modelP := 0, errArr := [⟨0, 0, 0, 0, 0⟩]
    gparams := toyParams 1 0, factor := f, numbFuncs := 1, prev := XR.pinf, best := val 1
    paramsIter := [toyParams 1 0], redum := 0, round := 0 }

theorem toy_start (c : Choice) (val : ℕ → XR) (f : XR) :
    (toyEnv c val).start GObj.fresh f = .ok (toyStart val f) := by
  unfold GEnv.start
  have h1 : (toyEnv c val).gof 1 0 (toyParams 1 0) = .ok ⟨0, 0, 0, 0, 0⟩ :=
    toyEnv_gof c val 1 0
  have h2 : (toyEnv c val).obj 1 0 (toyParams 1 0) = .ok (val 1) := toyEnv_obj c val 1 0
  have h3 : (toyEnv c val).oneFun GObj.fresh.modelS GObj.fresh.modelP = .ok (toyParams 1 0) := rfl
  rw [h3]
  simp only [GObj.fresh]
  rw [h1]; simp only; rw [h2]
  rfl

/-- Assembling a run from its rounds. -/
theorem run_of_rounds {E : GEnv} {ob : GObj} {f : XR} {o : GOpts} {s0 s : GState} {n : ℕ}
    {res : Py (GResult × GObj)} (hf : ¬ f ≤ XR.fin 0) (h0 : E.start ob f = .ok s0)
    (hr : Rounds E o f s0 n s) (hc : ¬ s.continues o) (hfin : E.finish o s = res) :
    E.run ob (.float f) o = res := by
  obtain ⟨g, err, v, _, _, _, hs⟩ := start_ok h0
  have hb : 5 * o.maxFuncs ≤ 5 * s0.numbFuncs + s0.redum + (5 * (o.maxFuncs - 1).toNat : ℕ) := by
    rw [hs]; push_cast; omega
  unfold GEnv.run
  simp only
  rw [if_neg hf, h0]
  simp only
  rw [(loop_ok_iff _ _ _ hb).mpr ⟨n, hr, hc⟩]
  exact hfin

/-- A toy run of one accepted round. -/
theorem toy_one_round (c : Choice) (a b thr : ℝ) (mx : ℤ) (hab : b ≤ a) (hb : b < 1e10) (hmx : 2 ≤ mx)
    (hstop : mx ≤ c.inc + 1 ∨ |b - a| < thr) (hinfo : mx ≤ c.inc + 2 ∨ |b - a| < thr) :
    (toyEnv c (fun n => XR.fin (if n = 1 then a else b))).run GObj.fresh
        (.float (XR.fin 2)) ⟨XR.fin thr, mx, none⟩ =
      .ok (⟨List.replicate (c.inc + 1) (XR.fin 1),
            (List.range (c.inc + 1)).map (fun i : ℕ => XR.fin ((i : ℝ) + 1)), c.inc + 1, 0, XR.fin b,
            decide (¬ ((c.inc : ℤ) + 1 = mx - 1)), [toyParams 1 0, toyParams (c.inc + 1) 0],
            [⟨0, 0, 0, 0, 0⟩, ⟨0, 0, 0, 0, 0⟩],
            if (c.inc : ℤ) + 1 < mx - 1 then .epsilon else .maxReached⟩,
        ⟨c.inc + 1, 0, c.inc + 1, 0, [⟨0, 0, 0, 0, 0⟩, ⟨0, 0, 0, 0, 0⟩]⟩) := by
  set val : ℕ → XR := fun n => XR.fin (if n = 1 then a else b) with hvaldef
  set o : GOpts := ⟨XR.fin thr, mx, none⟩ with ho
  have hi := c.inc_pos
  have hval : val (1 + 0 + c.inc) = XR.fin b := by
    simp only [val]; rw [if_neg (by omega)]
  have hval1 : val 1 = XR.fin a := by simp [val]
  have hcont : (toyStart val (XR.fin 2)).continues o := by
    refine ⟨?_, ?_, ?_⟩
    · show (1 : ℤ) ≤ mx - 1; omega
    · show 0 < 5; omega
    · show XR.fin thr ≤ (val 1 - XR.pinf).abs
      rw [hval1]
      trivial
  have hstep := toy_accept c val o rfl (XR.fin 2) (toyStart val (XR.fin 2)) (toyParams_length 1 0)
    (le_refl 1) (by
      show val (1 + 0 + c.inc) < _
      rw [hval]; exact hb) (by
      show val (1 + 0 + c.inc) ≤ val 1
      rw [hval, hval1]; exact hab)
  have hr := Rounds.step (E := toyEnv c val) (o := o) (f0 := XR.fin 2) .refl hcont hstep
  simp only [toyStart, hval, hval1] at hr
  refine run_of_rounds (E := toyEnv c val) (by norm_num) (toy_start c val _) hr ?_ ?_
  · rintro ⟨h1, _, h3⟩
    have h3' : thr ≤ |b - a| := by simpa [o] using h3
    have h1' : (1 : ℤ) + c.inc ≤ mx - 1 := h1
    rcases hstop with h | h
    · omega
    · linarith
  · have hinfo' : finalExitInfo (1 + c.inc) mx (XR.fin b) (XR.fin a) (XR.fin thr) =
        .ok (if (c.inc : ℤ) + 1 < mx - 1 then .epsilon else .maxReached) := by
      unfold finalExitInfo
      by_cases h : (c.inc : ℤ) + 1 < mx - 1
      · rw [if_neg (by omega), if_pos h, if_pos]
        rw [XR.sub_fin, XR.abs_fin, XR.lt_fin]
        rcases hinfo with h' | h'
        · omega
        · exact h'
      · rw [if_pos (by omega), if_neg h]
    unfold GEnv.finish
    simp only [ho, List.getLastD_eq_getLast?, List.getLast?_append, List.getLast?_singleton,
      Option.some_or, Option.getD_some]
    rw [if_neg (by omega), hinfo']
    simp only
    rw [toyEnv_obj, toy_split]
    simp only [List.replicate_zero, List.range_zero, List.map_nil, List.append_nil]
    rw [show 1 + c.inc = c.inc + 1 by omega]
    have hv2 : val (c.inc + 1 + 0) = XR.fin b := by
      rw [show c.inc + 1 + 0 = 1 + 0 + c.inc by omega, hval]
    rw [hv2]
    simp only [List.cons_append, List.nil_append]
    congr 3
    simp
    omega

/-- A toy run in which five rounds in a row do not improve the objective. -/
theorem toy_five_failures (c : Choice) (a b thr : ℝ) (mx : ℤ) (hab : a < b) (hb : b < 1e10)
    (hmx : 2 ≤ mx) :
    (toyEnv c (fun n => XR.fin (if n = 1 then a else b))).run GObj.fresh
        (.float (XR.fin 2)) ⟨XR.fin thr, mx, none⟩ =
      .ok (⟨[XR.fin 1], [XR.fin 1], 1, 0, XR.fin a, false, [toyParams 1 0], [⟨0, 0, 0, 0, 0⟩],
        .notBestChoice⟩, ⟨1, 0, 1, 0, [⟨0, 0, 0, 0, 0⟩]⟩) := by
  set val : ℕ → XR := fun n => XR.fin (if n = 1 then a else b) with hvaldef
  set o : GOpts := ⟨XR.fin thr, mx, none⟩ with ho
  have hi := c.inc_pos
  have hval : val (1 + 0 + c.inc) = XR.fin b := by
    simp only [val]; rw [if_neg (by omega)]
  have hval1 : val 1 = XR.fin a := by simp [val]
  have key : ∀ k ≤ 5, ∃ fk, Rounds (toyEnv c val) o (XR.fin 2) (toyStart val (XR.fin 2)) k
      { toyStart val (XR.fin 2) with redum := k, factor := fk, round := k } := by
    intro k
    induction k with
    | zero => exact fun _ => ⟨XR.fin 2, .refl⟩
    | succ k ih =>
      intro hk
      obtain ⟨fk, hr⟩ := ih (by omega)
      refine ⟨_, .step hr ⟨?_, ?_, ?_⟩
        (toy_fail c val o rfl (XR.fin 2) _ (toyParams_length 1 0) (le_refl 1) ?_ ?_)⟩
      · show (1 : ℤ) ≤ mx - 1; omega
      · show k < 5; omega
      · show XR.fin thr ≤ (val 1 - XR.pinf).abs
        rw [hval1]; trivial
      · show val (1 + 0 + c.inc) < _
        rw [hval]; exact hb
      · show val 1 < val (1 + 0 + c.inc)
        rw [hval, hval1]; exact hab
  obtain ⟨fk, hr⟩ := key 5 le_rfl
  refine run_of_rounds (E := toyEnv c val) (by norm_num) (toy_start c val _) hr ?_ ?_
  · rintro ⟨_, h, _⟩
    exact absurd h (by simp)
  · unfold GEnv.finish
    simp only [toyStart]
    rw [if_pos trivial, show [toyParams 1 0].getLastD [] = toyParams 1 0 from rfl]
    simp only
    rw [toyEnv_obj, toy_split]
    simp [hval1]

/-! ### C55: the maximum number of functions -/

/-- **C55 fails for pick-two**: with `max_numb_funcs = 2` the result can have three functions. -/
theorem C55_fails_for_pick_two : ∃ (E : GEnv) (o : GOpts) (r : GResult) (ob' : GObj),
    E.SizeChecked ∧ E.choice = .pickTwo ∧ o.maxFuncs = 2 ∧
      E.run GObj.fresh (.float (XR.fin 2)) o = .ok (r, ob') ∧ r.numS + r.numP = 3 ∧
      r.coeffs.length = 3 := by
  refine ⟨_, ⟨XR.fin 1e-8, 2, none⟩, _, _, toyEnv_sizeChecked .pickTwo _, rfl, rfl,
    toy_one_round .pickTwo 1 (1 / 2) 1e-8 2 (by norm_num) (by norm_num) (by norm_num)
      (.inl (by decide)) (.inl (by decide)), rfl, ?_⟩
  simp [Choice.inc]

/-! ### C56: success and exit information -/

/-- The rounds since the last accepted one. -/
theorem rounds_since_accept {E : GEnv} {o : GOpts} {f : XR} {s0 s : GState} {n : ℕ}
    (h0 : s0.redum = 0) (h : Rounds E o f s0 n s) :
    ∃ i j s1, Rounds E o f s0 i s1 ∧ Rounds E o f s1 j s ∧ s1.paramsIter = s.paramsIter ∧
      s1.numbFuncs ≤ s.numbFuncs ∧ (s1.numbFuncs = s.numbFuncs → j = s.redum) := by
  induction h with
  | refl => exact ⟨0, 0, s0, .refl, .refl, rfl, le_rfl, fun _ => h0.symm⟩
  | @step n s s' h1 h2 h3 ih =>
    obtain ⟨i, j, s1, r1, r2, hp, hn, hj⟩ := ih
    have hi := E.choice.inc_pos
    rcases (step_cases h3).1 with ⟨_, _, _, _, _, _, _, a8, _, _, a11, a12⟩ |
      ⟨_, _, _, _, _, _, _, _, _, _, _, _, _, _, _, _, _, b8⟩ | ⟨_, _, _, _, _, _, a8, _, _, a11, _⟩
    · exact ⟨i, j + 1, s1, r1, .step r2 h2 h3, by rw [a11]; exact hp, by rw [a8]; exact hn,
        fun h => by rw [a8] at h; rw [a12, hj h]⟩
    · exact ⟨n + 1, 0, s', .step h1 h2 h3, .refl, rfl, le_rfl, fun _ => b8.symm⟩
    · exact ⟨i, j + 1, s1, r1, .step r2 h2 h3, by rw [a11]; exact hp, by rw [a8]; omega,
        fun h => by rw [a8] at h; omega⟩

/-- **C56**, what the returned flag and message do say about a successful run with `n` functions:
* "did not find the best choice": `success` is False and the last five rounds accepted nothing;
* "less than some epsilon": `success` is True, `n < max_numb_funcs - 1`, and either nothing was ever
  accepted or the objectives of the last two accepted parameter sets differ by less than the
  threshold;
* "max number reached": only `n ≥ max_numb_funcs - 1` is known, and `success` is False exactly if
  `n = max_numb_funcs - 1`.

The missing part (a `success` that is False exactly when the maximum was reached or five rounds failed,
and a message naming the true reason) is false of the code, see `C56_fails_*`. -/
theorem C56_exit_partial (E : GEnv) (hE : E.SizeChecked) (f : XR) (o : GOpts) (r : GResult)
    (ob' : GObj) (h : E.run GObj.fresh (.float f) o = .ok (r, ob')) :
    (r.exitInformation = .notBestChoice → r.success = false ∧
      ∃ s0 n s1 s, E.start GObj.fresh f = .ok s0 ∧ Rounds E o f s0 n s1 ∧ Rounds E o f s1 5 s ∧
        s1.paramsIter = r.parametersIteration ∧ s.paramsIter = r.parametersIteration) ∧
    (r.exitInformation = .epsilon → r.success = true ∧
      ((r.numS + r.numP : ℕ) : ℤ) < o.maxFuncs - 1 ∧
      ∃ hist : List (ℕ × ℕ × List XR × XR),
        hist.map (fun a => a.2.2.1) = r.parametersIteration ∧
        (∀ a ∈ hist, E.obj a.1 a.2.1 a.2.2.1 = .ok a.2.2.2) ∧
        ((hist.length = 1 ∧ (r.fun_ - XR.pinf).abs < o.dThr) ∨
          ∃ pre a b, hist = pre ++ [a, b] ∧ b.2.2.2 = r.fun_ ∧
            (b.2.2.2 - a.2.2.2).abs < o.dThr)) ∧
    (r.exitInformation = .maxReached → o.maxFuncs - 1 ≤ ((r.numS + r.numP : ℕ) : ℤ) ∧
      (r.success = false ↔ ((r.numS + r.numP : ℕ) : ℤ) = o.maxFuncs - 1)) := by
  obtain ⟨hist, last, s, H, hf, hc, e1, e2, hlen, hlast, hfun, f', s0, n, hs, hr⟩ :=
    run_history hE rfl rfl h
  obtain ⟨f'', s0', n', s', hfe, _, hs', hr', _, hf'⟩ := run_ok h
  injection hfe with hfe
  subst hfe
  obtain ⟨info, v, hinfo, hv, hob, hres⟩ := finish_ok hf
  have hS : r.numS = s.numS := by rw [hres]
  have hP : r.numP = s.numP := by rw [hres]
  have hI : r.parametersIteration = s.paramsIter := by rw [hres]
  have hX : r.exitInformation = info := by rw [hres]
  have hsc : r.success = decide ¬ (s.numbFuncs = o.maxFuncs - 1 ∨ s.redum = 5) := by rw [hres]
  have hcount : ((r.numS + r.numP : ℕ) : ℤ) = s.numbFuncs := by
    have := H.count
    simp only [GObj.fresh] at this
    rw [hS, hP]; push_cast at this ⊢; omega
  refine ⟨?_, ?_, ?_⟩
  · intro hx
    rw [hX] at hx
    -- use the rounds of the run with factor `f`
    obtain ⟨hist2, last2, H2⟩ := history_rounds hs' rfl rfl hr'
    obtain ⟨info2, v2, hinfo2, hv2, hob2, hres2⟩ := finish_ok hf'
    have hX2 : r.exitInformation = info2 := by rw [hres2]
    have hI2 : r.parametersIteration = s'.paramsIter := by rw [hres2]
    have hred : s'.redum = 5 := by
      by_contra hne
      rw [if_neg hne] at hinfo2
      rw [← hX2, hX, hx] at hinfo2
      unfold finalExitInfo at hinfo2
      split at hinfo2
      · exact absurd hinfo2 (by simp)
      · split at hinfo2
        · exact absurd hinfo2 (by simp)
        · exact absurd hinfo2 (by simp [raise])
    have hsucc : r.success = false := by
      rw [hres2]; simp [hred]
    refine ⟨hsucc, ?_⟩
    have hz : s0'.redum = 0 := by
      obtain ⟨_, _, _, _, _, _, rfl⟩ := start_ok hs'; rfl
    obtain ⟨i, j, s1, r1, r2, hp, hn, hj⟩ := rounds_since_accept hz hr'
    obtain ⟨hist1, last1, H1⟩ := history_rounds hs' rfl rfl r1
    have hp1 : last1.params = r.coeffs ++ r.exps := by
      have c3 := (C54_consistent E hE _ o r ob' h).2.2.1
      rw [hI2, ← hp, ← H1.params, List.getLast?_map, H1.isLast] at c3
      injection c3
    have l1 := hE _ _ _ _ (H1.valid last1 (List.mem_of_getLast? H1.isLast)).1
    obtain ⟨c1, c2, _⟩ := C54_consistent E hE _ o r ob' h
    rw [hp1, List.length_append, c1, c2] at l1
    have hS2 : r.numS = s'.numS := by rw [hres2]
    have hP2 : r.numP = s'.numP := by rw [hres2]
    have k1 := H1.count
    have k2 := H2.count
    simp only [GObj.fresh] at k1 k2
    have k3 := H1.lastS
    have k4 := H1.lastP
    have hj5 : j = 5 := by rw [← hred]; exact hj (by push_cast at k1 k2; omega)
    subst hj5
    exact ⟨s0', i, s1, s', hs', r1, r2, by rw [hI2]; exact hp, hI2.symm⟩
  · intro hx
    rw [hX] at hx
    have hred : ¬ s.redum = 5 := by
      intro hne
      rw [if_pos hne, hx] at hinfo
      exact absurd hinfo (by simp)
    rw [if_neg hred, hx] at hinfo
    unfold finalExitInfo at hinfo
    by_cases h1 : ¬ s.numbFuncs < o.maxFuncs - 1
    · rw [if_pos h1] at hinfo; exact absurd hinfo (by simp)
    rw [if_neg h1] at hinfo
    by_cases h2 : (s.best - s.prev).abs < o.dThr
    swap
    · rw [if_neg h2] at hinfo; exact absurd hinfo (by simp [raise])
    rw [not_not] at h1
    refine ⟨?_, by rw [hcount]; exact h1, ?_⟩
    · rw [hsc]; simp; exact ⟨by omega, hred⟩
    · have hsplit : hist = hist.dropLast ++ [last] := by
        rcases List.eq_nil_or_concat hist with h | ⟨L, b, h⟩
        · have := H.isLast; rw [h] at this; exact absurd this (by simp)
        · have := H.isLast
          rw [h] at this ⊢
          simp at this
          simp [this]
      refine ⟨hist.map (fun a => (a.ns, a.np, a.params, a.value)), ?_, ?_, ?_⟩
      · rw [List.map_map, hI]; exact H.params
      · intro a ha
        obtain ⟨b, hb, rfl⟩ := List.mem_map.mp ha
        exact (H.valid b hb).1
      · have hpv := H.prevValue
        rcases List.eq_nil_or_concat hist.dropLast with h | ⟨L, b, h⟩
        · rw [h] at hpv
          refine .inl ⟨by rw [hsplit, h]; rfl, ?_⟩
          rw [hfun, H.lastValue, ← show s.prev = XR.pinf from hpv]
          exact h2
        · refine .inr ⟨L.map (fun a => (a.ns, a.np, a.params, a.value)),
            (b.ns, b.np, b.params, b.value), (last.ns, last.np, last.params, last.value), ?_,
            hfun.symm, ?_⟩
          · rw [hsplit, h]; simp
          · rw [h] at hpv
            have hpv' : s.prev = b.value := by simpa using hpv
            simp only
            rw [H.lastValue, ← hpv']
            exact h2
  · intro hx
    rw [hX] at hx
    have hred : ¬ s.redum = 5 := by
      intro hne
      rw [if_pos hne, hx] at hinfo
      exact absurd hinfo (by simp)
    rw [if_neg hred, hx] at hinfo
    unfold finalExitInfo at hinfo
    by_cases h1 : ¬ s.numbFuncs < o.maxFuncs - 1
    swap
    · rw [if_neg h1] at hinfo
      split at hinfo
      · exact absurd hinfo (by simp)
      · exact absurd hinfo (by simp [raise])
    rw [hcount]
    refine ⟨by omega, ?_⟩
    rw [hsc]
    simp [hred]

/-- **C56 fails (1)**: a run stopped by the maximum number of functions reports `success = True`. -/
theorem C56_fails_max_success : ∃ (E : GEnv) (o : GOpts) (r : GResult) (ob' : GObj),
    E.SizeChecked ∧ E.run GObj.fresh (.float (XR.fin 2)) o = .ok (r, ob') ∧ o.maxFuncs = 2 ∧
      r.numS + r.numP = 2 ∧ r.exitInformation = .maxReached ∧ r.success = true := by
  refine ⟨_, ⟨XR.fin 1e-8, 2, none⟩, _, _, toyEnv_sizeChecked .pickOne _,
    toy_one_round .pickOne 1 (1 / 2) 1e-8 2 (by norm_num) (by norm_num) (by norm_num)
      (.inl (by decide)) (.inl (by decide)), rfl, rfl, ?_, ?_⟩
  · simp [Choice.inc]
  · simp [Choice.inc]

/-- **C56 fails (2)**: a run that converged with fewer functions than the maximum (the objective did not
change at all) reports `success = False` and "max number of functions reached". -/
theorem C56_fails_converged : ∃ (E : GEnv) (o : GOpts) (r : GResult) (ob' : GObj),
    E.SizeChecked ∧ E.run GObj.fresh (.float (XR.fin 2)) o = .ok (r, ob') ∧ o.maxFuncs = 3 ∧
      r.numS + r.numP = 2 ∧ r.exitInformation = .maxReached ∧ r.success = false := by
  refine ⟨_, ⟨XR.fin 1e-8, 3, none⟩, _, _, toyEnv_sizeChecked .pickOne _,
    toy_one_round .pickOne 1 1 1e-8 3 (by norm_num) (by norm_num) (by norm_num)
      (.inr (by norm_num)) (.inr (by norm_num)), rfl, rfl, ?_, ?_⟩
  · simp [Choice.inc]
  · simp [Choice.inc]

/-- **C56 fails (3)**: if the objective of the one-function start is infinite or nan and
`max_numb_funcs > 2` then `run` raises RuntimeError instead of returning. -/
theorem C56_fails_infinite_start (E : GEnv) (f : XR) (o : GOpts) (hf : ¬ f ≤ XR.fin 0) (p : List XR)
    (err : Perf) (v : XR) (h1 : E.oneFun 1 0 = .ok p) (h2 : E.gof 1 0 p = .ok err)
    (h3 : E.obj 1 0 p = .ok v) (hv : v = XR.pinf ∨ v.IsNan) (hmx : 2 < o.maxFuncs) :
    E.run GObj.fresh (.float f) o = .error .runtimeError := by
  have hnan : (v - XR.pinf).abs = XR.nan := by
    rcases hv with rfl | hv
    · rfl
    · cases v with
      | nan => rfl
      | fin _ => exact absurd hv (by simp [XR.IsNan])
      | pinf => rfl
      | ninf => exact absurd hv (by simp [XR.IsNan])
  have hst : E.start GObj.fresh f = .ok
      { numS := 1, numP := 0, modelS := 1, modelP := 0, errArr := [err], gparams := p, factor := f
        numbFuncs := 1, prev := XR.pinf, best := v, paramsIter := [p], redum := 0, round := 0 } := by
    unfold GEnv.start
    simp only [GObj.fresh]
    rw [h1]; simp only; rw [h2]; simp only; rw [h3]; rfl
  refine run_of_rounds hf hst .refl ?_ ?_
  · rintro ⟨_, _, h⟩
    simp only at h
    rw [hnan] at h
    revert h
    cases o.dThr <;> exact id
  · unfold GEnv.finish
    simp only
    rw [if_neg (by omega)]
    unfold finalExitInfo
    rw [if_neg (by omega), hnan, if_neg]
    · rfl
    · exact id

/-- Five failing rounds. -/
example : ∃ r ob', (toyEnv .pickOne (fun n => XR.fin (if n = 1 then 1 else 2))).run GObj.fresh
      (.float (XR.fin 2)) ⟨XR.fin 1e-8, 30, none⟩ = .ok (r, ob') ∧
    r.exitInformation = .notBestChoice ∧ r.success = false ∧ r.numS = 1 ∧ r.numP = 0 :=
  ⟨_, _, toy_five_failures .pickOne 1 2 1e-8 30 (by norm_num) (by norm_num) (by norm_num),
    rfl, rfl, rfl, rfl⟩

/-- Convergence below the threshold. -/
example : ∃ r ob', (toyEnv .pickOne (fun n => XR.fin (if n = 1 then 1 else 1 / 2))).run GObj.fresh
      (.float (XR.fin 2)) ⟨XR.fin 1, 30, none⟩ = .ok (r, ob') ∧
    r.exitInformation = .epsilon ∧ r.success = true ∧ r.numS = 2 ∧ r.numP = 0 :=
  ⟨_, _, toy_one_round .pickOne 1 (1 / 2) 1 30 (by norm_num) (by norm_num) (by norm_num)
    (.inr (by norm_num)) (.inr (by norm_num)), by simp [Choice.inc], by simp [Choice.inc], rfl, rfl⟩

/-! ### the hypotheses of C51 – C55 and C73 are met by concrete runs -/

/-- A run to which `C53_never_worse`, `C53_no_worse_than_start`, `C54_consistent`, `C55_general`,
`C55_max_partial` and `C73_no_similar_exponents` apply: it accepts a second function with a smaller
objective. -/
example : ∃ (E : GEnv) (o : GOpts) (r : GResult) (ob' : GObj),
    E.SizeChecked ∧ E.choice ≠ .pickTwo ∧ 1 ≤ o.maxFuncs ∧
      E.run GObj.fresh (.float (XR.fin 2)) o = .ok (r, ob') ∧ 1 < r.parametersIteration.length ∧
      r.fun_ = XR.fin (1 / 2) ∧ (∃ p, E.oneFun 1 0 = .ok p ∧ E.obj 1 0 p = .ok (XR.fin 1)) ∧
      r.exps = [XR.fin 1, XR.fin 2] := by
  refine ⟨_, ⟨XR.fin 1e-8, 2, none⟩, _, _, toyEnv_sizeChecked .pickOne _, by simp [toyEnv],
    by norm_num,
    toy_one_round .pickOne 1 (1 / 2) 1e-8 2 (by norm_num) (by norm_num) (by norm_num)
      (.inl (by decide)) (.inl (by decide)), by simp, rfl, ⟨_, rfl, (toyEnv_obj _ _ 1 0).trans ?_⟩, ?_⟩
  · simp
  · simp [Choice.inc, List.range_succ]; norm_num

/-- A start and a round to which `C52_round_bound` and `C52_unsuccessful_round` apply. -/
example : ∃ (E : GEnv) (o : GOpts) (s0 s : GState),
    E.start GObj.fresh (XR.fin 2) = .ok s0 ∧ s0.modelS = s0.numS ∧ s0.modelP = s0.numP ∧
      E.step o (XR.fin 2) s0 = .ok s ∧ s.redum = 1 := by
  refine ⟨toyEnv .pickOne (fun n => XR.fin (if n = 1 then 1 else 2)), ⟨XR.fin 1e-8, 30, none⟩, _, _,
    toy_start _ _ _, rfl, rfl, toy_fail _ _ _ rfl _ _ (toyParams_length 1 0) le_rfl ?_ ?_, rfl⟩
  · simp [toyStart, Choice.inc]; norm_num
  · simp [toyStart, Choice.inc]

end BFit
